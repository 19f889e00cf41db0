import Verif.Spec.TypeNames
import Verif.Spec.Foreign
import Verif.Spec.MacroRules
import Verif.Spec.RustTypes
import Verif.Source.Bool
import Verif.Source.Glsl
import Verif.Source.Internal
import Verif.Source.Std140
import Verif.Source.Std430
import Verif.Source.Tables
/-
The crate as program text, with its macros expanded, and what it takes from other crates: what an implementation of
`AsStd140`/`AsStd430` is according to the text.
-/
namespace Crevice
open RustCode RustTypes TypeNames

/-- Without the `doc` attributes. -/
def undoc : Item → Item
  | .struct attrs name g fs => .struct (attrs.filter fun a => a.head? != some (.id "doc")) name g fs
  | i => i

/-- The items of files with all macros expanded. `doc` attributes are left out. -/
def expanded (files : List (List Tok)) : List Item := ((expandFiles files).getD []).map undoc

/-- The modules of the crate: `src/{std140,std430}/*.rs`, `src/bool.rs`, `src/glsl.rs`, `src/internal.rs`, and
`src/imp/*.rs` with the macros of `src/util.rs` in scope (`src/lib.rs:163-164`, `#[macro_use] mod util`). All features are
on. -/
def crateModules : List (String × List Item) :=
  [("std140", expanded [Source.std140Traits] ++ expanded [Source.std140DynamicUniform] ++
      expanded [Source.std140Sizer] ++ expanded [Source.std140Writer] ++ expanded [Source.std140Primitives]),
    ("std430", expanded [Source.std430Traits] ++ expanded [Source.std430Sizer] ++ expanded [Source.std430Writer] ++
      expanded [Source.std430Primitives]),
    ("bool", expanded [Source.bool]),
    ("glsl", expanded [Source.glsl]),
    ("internal", expanded [Source.internal]),
    ("imp", expanded [Source.util, Source.impMint, Source.impCgmath, Source.impGlam, Source.impNalgebra])]

mutual
/-- A type as text. -/
def ctyText : CTy → String
  | .named p args => pathText p (ctyTexts args)
  | .array t n => "[" ++ ctyText t ++ "; " ++ toString n ++ "]"
/-- All of them. -/
def ctyTexts : List CTy → List String
  | [] => []
  | c :: cs => ctyText c :: ctyTexts cs
end

/-- A type of mint or cgmath. -/
def mathCTy (m : MathTy) : CTy := .named [libName m.lib, mathName m] [.named [mscalarName m.scalar] []]

/-- The structs of mint and cgmath: number of fields and whether they are vectors. -/
def outsideStructs : List (List String × Nat × Option (List String)) :=
  [(["mint", "Vector2"], 2, none), (["mint", "Vector3"], 3, none), (["mint", "Vector4"], 4, none),
    (["mint", "Point2"], 2, none), (["mint", "Point3"], 3, none),
    (["mint", "ColumnMatrix2"], 2, some ["mint", "Vector2"]), (["mint", "ColumnMatrix3"], 3, some ["mint", "Vector3"]),
    (["mint", "ColumnMatrix4"], 4, some ["mint", "Vector4"]),
    (["cgmath", "Vector2"], 2, none), (["cgmath", "Vector3"], 3, none), (["cgmath", "Vector4"], 4, none),
    (["cgmath", "Point2"], 2, none), (["cgmath", "Point3"], 3, none),
    (["cgmath", "Matrix2"], 2, some ["cgmath", "Vector2"]), (["cgmath", "Matrix3"], 3, some ["cgmath", "Vector3"]),
    (["cgmath", "Matrix4"], 4, some ["cgmath", "Vector4"])]

/-- The constant functions of the crate that are written with loops or divisions (`src/internal.rs:7-13,27-40`); that this is
what their text does is `C63_internal`. -/
def internalFn (p : List String) (args : List Const) : Option Const :=
  if p = ["internal", "align_offset"] then
    match args with
    | [.nat a, .nat b] => some (.nat (alignOffset a b))
    | _ => none
  else if p = ["internal", "max_arr"] then
    match args with
    | [.nats ns] => some (.nat (maxArr ns))
    | _ => none
  else none

/-- What the crate takes from elsewhere: the fields of mint's and cgmath's structs, the traits of the machine types, and
the conversions between mint and glam or nalgebra, which are those of `env`. (Which traits the types of the math crates
implement is left out: nothing depends on it.) -/
def outside (env : ForeignEnv) : Outside :=
  { fields := fun p args =>
      match args with
      | [c] => (outsideStructs.lookup p).map fun d =>
          (["x", "y", "z", "w"].take d.1).map fun f => (f, match d.2 with | none => c | some v => .named v [c])
      | _ => none
    implements := fun trait p _ =>
      match p with
      | [t] =>
        if ["f32", "f64", "i32", "u32", "u8"].contains t then
          ["Zeroable", "Pod", "Clone", "Copy", "Debug"].contains trait
        else t == "bool" && ["Zeroable", "Clone", "Copy", "Debug"].contains trait
      | _ => false
    into := fun c d v =>
      match foreignMath (ctyText c), foreignMath (ctyText d) with
      | some m, none => if ctyText d = ctyText (mathCTy m) then env.into (ctyText c) v else none
      | none, some m => if ctyText c = ctyText (mathCTy m) then env.ofMint (ctyText d) v else none
      | _, _ => none
    sizeOf := fun _ => none
    constFn := internalFn }

/-- The semantics of the crate, up to a bound on the recursion. -/
def crateSem (env : ForeignEnv) (n : Nat) : Sem := sem (indexItems crateModules) (outside env) n

/-- Outside of all modules. -/
def topScope : Scope := { module := "", vars := [], assoc := [], bounds := [] }

/-- The implementation of `AsStdN` for a type `c`, by the text. -/
def semImpl (g : Sem) (l : Layout) (c : CTy) : Option Impl :=
  (g.find [mod l, asTrait l] [] c).bind fun f =>
    (g.project [mod l, asTrait l] c "Output").bind fun out =>
      (g.layout out).bind fun r =>
        (g.find [mod l, stdTrait l] [] out).bind fun std =>
          ((assocConst std.items "ALIGNMENT").bind (g.const std.scope [])).bind fun al =>
            (g.implements ["Debug"] out).bind fun dbg =>
              match al with
              | .nat al => some {
                  out := r
                  alignment := al
                  asStd := fun v => (g.call f (asName l) (some (c, v)) []).map Prod.snd
                  fromStd := fun v => (g.call f (fromName l) none [(out, v)]).map Prod.snd
                  outDebug := dbg }
              | _ => none

/-- The implementation of `AsStdN` for a type as it is written. -/
def textImpl (env : ForeignEnv) (n : Nat) (l : Layout) (t : RustCode.Ty) : Option Impl :=
  ((crateSem env n).norm topScope t).bind (semImpl (crateSem env n) l)

/-- `<T as Glsl>::NAME` for a type as it is written. -/
def textName (env : ForeignEnv) (n : Nat) (t : RustCode.Ty) : Option String :=
  ((crateSem env n).norm topScope t).bind fun c =>
    ((crateSem env n).find ["glsl", "Glsl"] [] c).bind fun f =>
      ((assocConst f.items "NAME").bind ((crateSem env n).const f.scope [])).bind fun v =>
        match v with
        | .str s => some s
        | _ => none

end Crevice
