import Verif.Spec.Foreign
/-
Model of the conversion traits (`src/std140/traits.rs`, `src/std430/traits.rs`), of the
`easy_impl!`/`minty_impl!` macros (`src/util.rs`), of `DynamicUniform`
(`src/std140/dynamic_uniform.rs`) and of the meaning of the code generated by the derive macro.
Trait implementations are dictionaries; `resolve` is rustc's trait resolution.
-/
namespace Crevice

/-- `impl AsStdN for T` together with the `impl StdN` of its `Output`
(`std140/traits.rs:12-30,74-89`, `std430/traits.rs:12-30,74-89`). Conversions return `none` when
applied to something that is not a value of the type (such a program does not compile). -/
structure Impl where
  /-- `type Output`, as a Rust type with its memory layout -/
  out : RTy
  /-- `<Output as StdN>::ALIGNMENT` -/
  alignment : Nat
  /-- `as_stdN` -/
  asStd : RVal → Option RVal
  /-- `from_stdN` -/
  fromStd : RVal → Option RVal
  /-- whether `Output` implements `Debug` (`Copy` and `Clone` are supertraits of `StdN`) -/
  outDebug : Bool

/-- `std140/traits.rs:83-85` `std140_size_static` (same in std430): `size_of::<Self::Output>()`. -/
def Impl.sizeStatic (tg : Target) (i : Impl) : Nat := i.out.size tg

/-! ### Meaning of the generated code -/

mutual
/-- Const evaluation of a generated expression, given the values of the functions it calls. -/
def CExpr.evalWith (tg : Target) (call : String → Option Nat) : CExpr Impl → Option Nat
  | .lit n => some n
  | .sizeOf i => some (i.out.size tg)
  | .alignmentOf i => some i.alignment
  | .call f => call f
  | .add a b =>
    (CExpr.evalWith tg call a).bind fun x => (CExpr.evalWith tg call b).map fun y => x + y
  | .alignOffset o a =>
    (CExpr.evalWith tg call o).bind fun x =>
      (CExpr.evalWith tg call a).map fun y => Crevice.alignOffset x y
  | .maxArr args => (CExpr.evalArgs tg call args).map Crevice.maxArr
/-- Elements of an array literal. -/
def CExpr.evalArgs (tg : Target) (call : String → Option Nat) :
    List (CExpr Impl) → Option (List Nat)
  | [] => some []
  | a :: r =>
    (CExpr.evalWith tg call a).bind fun x => (CExpr.evalArgs tg call r).map fun xs => x :: xs
end

/-- Call a generated const fn with a bound on the call depth; `none` when the bound is exceeded or
there is no such function. With `depth` at least the number of functions, exceeding it means that
some function calls itself, directly or not. -/
def evalFn (tg : Target) (fns : List (String × CExpr Impl)) : Nat → String → Option Nat
  | 0, _ => none
  | depth + 1, f => (fns.lookup f).bind fun body => body.evalWith tg (evalFn tg fns depth)

/-- Value of a call to a generated padding function. -/
def Generated.call (tg : Target) (g : Generated Impl) (f : String) : Option Nat :=
  evalFn tg g.padFns g.padFns.length f

/-- The fields of the generated struct with their types evaluated. -/
def Generated.rustFields (tg : Target) (g : Generated Impl) : Option (List (String × RTy)) :=
  g.fields.mapM fun f =>
    match f.2 with
    | .layoutOf i => some (f.1, i.out)
    | .padBytes padFn => (g.call tg padFn).map fun n => (f.1, .array (.scalar .u8) n)

/-- Evaluate the initialisers `dst: value.src.as_stdN()`. -/
def evalInits (conv : Impl → RVal → Option RVal) (inits : List (FieldInit Impl)) (value : RVal) :
    Option (List (String × RVal)) :=
  inits.mapM fun i =>
    (value.field i.src).bind fun x => (conv i.ty x).map fun y => (i.dst, y)

/-- The generated struct derives `Debug` (`layout.rs:167`), which rustc rejects unless the type of
every field implements it. `[u8; n]` does. -/
def Generated.debugOk (g : Generated Impl) : Bool :=
  g.fields.all fun f =>
    match f.2 with
    | .layoutOf i => i.outDebug
    | .padBytes _ => true

/-- Meaning of the items generated by the derive (`layout.rs:227-264`): the struct definition
(rejected by rustc when two fields have the same name, where `r#a` and `a` are the same name, or a
field's type has no `Debug`), the `StdN`
impl and the `AsStdN` impl, whose `type Output` has to give all generic arguments of the struct.
`selfFields` are the fields of the struct the derive is applied to. -/
def Generated.toImpl (tg : Target) (g : Generated Impl) (selfFields : List String) :
    Option Impl :=
  (g.rustFields tg).bind fun fs =>
    (g.alignment.evalWith tg (g.call tg)).bind fun al =>
      if (fs.map fun f => unraw f.1).Nodup ∧ g.debugOk = true ∧
          g.outputArgs.length = g.structParams.length then
        some {
          out := .struct fs
          alignment := al
          outDebug := true
          -- layout.rs:248-254
          asStd := fun self =>
            (evalInits Impl.asStd g.asInit self).bind fun inits =>
              structUpdate (fs.map Prod.fst) inits (zeroed (.struct fs))
          -- layout.rs:256-260
          fromStd := fun input =>
            (evalInits Impl.fromStd g.fromInit input).bind fun inits =>
              structNew selfFields inits }
      else none

/-- `#[derive(AsStdN)] struct name { fields }`: expand, then give the expansion its meaning. -/
def deriveImpl (tg : Target) (l : Layout) (name : String) (fields : List (String × Impl)) :
    Option Impl :=
  match emitLayout l { ident := name, data := .structNamed fields } with
  | .ok g => g.toImpl tg (fields.map Prod.fst)
  | .error _ => none

/-! ### Hand-written and macro_rules implementations -/

/-- `impl<T: StdN> AsStdN for T` (`std140/traits.rs:91-104`, `std430/traits.rs:91-104`): identity. -/
def blanketImpl (out : RTy) (alignment : Nat) (outDebug : Bool) : Impl :=
  { out := out, alignment := alignment, asStd := some, fromStd := some, outDebug := outDebug }

/-- `f32`, `f64`, `i32`, `u32`: `impl StdN` plus the blanket impl. -/
def scalarImpl (l : Layout) (s : Scalar) : Option Impl :=
  (l.scalarAlignment s).map fun a => blanketImpl (.scalar s) a true

/-- `impl AsStdN for bool` (`std140/primitives.rs:27-37`, `std430/primitives.rs:27-37`). `Bool` has a
hand-written `Debug` (`src/bool.rs:27-31`). -/
def boolImpl (l : Layout) : Impl :=
  { out := boolTy
    alignment := l.boolAlignment
    outDebug := true
    asStd := fun v =>
      match v with
      | .bool b => some (boolToBool b)
      | _ => none
    fromStd := fun v => (boolOfBool v).map .bool }

/-- Implementation used for a component of a math type. -/
def mscalarImpl (l : Layout) : MScalar → Option Impl
  | .f32 => scalarImpl l .f32
  | .f64 => scalarImpl l .f64
  | .i32 => scalarImpl l .i32
  | .u32 => scalarImpl l .u32
  | .bool => some (boolImpl l)

/-- `easy_impl!` (`src/util.rs:3-58`): `as_stdN` converts the listed fields by name into the struct
`$std_name` and takes the rest from `zeroed()`; `from_stdN` converts the listed fields back.
`comp` is the implementation of the fields' type. The layout primitives derive `Debug`
(`std140/primitives.rs:48,103`, `std430/primitives.rs:48,103`). -/
def easyImpl (l : Layout) (row : EasyRow) (comp : Impl) : Option Impl :=
  (l.primitive row.stdName).map fun p =>
    { out := .struct p.fields
      alignment := p.alignment
      outDebug := true
      asStd := fun self =>
        (row.fields.mapM fun f =>
          (self.field f).bind fun x => (comp.asStd x).map fun y => (f, y)).bind fun inits =>
            structUpdate (p.fields.map Prod.fst) inits (zeroed (.struct p.fields))
      fromStd := fun value =>
        (row.fields.mapM fun f =>
          (value.field f).bind fun x => (comp.fromStd x).map fun y => (f, y)).bind fun inits =>
            structNew row.ty.fieldNames inits }

/-- Implementation of a vector or point type: components are scalars. -/
def vecImpl (l : Layout) (m : MathTy) : Option Impl :=
  (easyRow m).bind fun row => (mscalarImpl l m.scalar).bind fun comp => easyImpl l row comp

/-- Implementation of a mint or cgmath type. The fields of a matrix are vectors of the same
library. -/
def mathImpl (l : Layout) (m : MathTy) : Option Impl :=
  match m.kind with
  | .matrix => (easyRow m).bind fun row => (vecImpl l m.column).bind fun comp => easyImpl l row comp
  | _ => vecImpl l m

/-- The Rust types that can implement `AsStd140`/`AsStd430`. -/
inductive Ty
  /-- `f32`, `f64`, `i32`, `u32` (and `u8`, which has no impl) -/
  | scalar (s : Scalar)
  | bool
  /-- a mint or cgmath type -/
  | math (m : MathTy)
  /-- a glam or nalgebra type, by its path -/
  | foreign (name : String)
  /-- a user struct with named fields and the derive applied -/
  | struct (name : String) (fields : List (String × Ty))
  /-- `DynamicUniform<T>` -/
  | dynamic (t : Ty)
  /-- `<T as AsStdN>::Output` used as a type in its own right: `std140::Vec3`, `Bool`,
  `std430::DMat4`, the struct a derive generates, `DynamicUniformStd140<..>` -/
  | output (l : Layout) (t : Ty)
  /-- a type for which the user wrote `impl AsStdN` by hand, with the Output of another type `rep`,
  by converting to and from `rep` (`rep` may be an `output`) -/
  | user (name : String) (rep : Ty)

/-- The code outside crevice. The external crates behind `minty_impl!`: which values their types have
and their conversions to and from mint (`Into`/`From` impls of glam and nalgebra). The user's types
with a hand-written `impl AsStdN`: their values and the conversions written there. -/
structure ForeignEnv where
  /-- `has name v`: `v` is a value of the foreign type `name` -/
  has : String → RVal → Prop
  /-- `let mint: $mint_ty = (*self).into()` -/
  into : String → RVal → Option RVal
  /-- `<$mint_ty>.into()` -/
  ofMint : String → RVal → Option RVal
  /-- `userHas name rep v`: `v` is a value of the user's type `name` -/
  userHas : String → Ty → RVal → Prop
  /-- the user's conversion of `name` to `rep` -/
  userInto : String → Ty → RVal → Option RVal
  /-- the user's conversion of `rep` to `name` -/
  userOf : String → Ty → RVal → Option RVal

/-- `minty_impl!` (`src/util.rs:60-98`): convert through the mint type. -/
def mintyImpl (env : ForeignEnv) (name : String) (mint : Impl) : Impl :=
  { out := mint.out
    alignment := mint.alignment
    outDebug := mint.outDebug
    asStd := fun v => (env.into name v).bind mint.asStd
    fromStd := fun v => (mint.fromStd v).bind (env.ofMint name) }

/-- A hand-written implementation (`std140/traits.rs:74-89`, `std430/traits.rs:74-89` say what has to
be provided): `type Output = <Rep as AsStdN>::Output`, `as_stdN` converts to `Rep` and calls its
`as_stdN`, `from_stdN` calls that of `Rep` and converts back. -/
def userImpl (env : ForeignEnv) (name : String) (rep : Ty) (i : Impl) : Impl :=
  { out := i.out
    alignment := i.alignment
    outDebug := i.outDebug
    asStd := fun v => (env.userInto name rep v).bind i.asStd
    fromStd := fun v => (i.fromStd v).bind (env.userOf name rep) }

/-- `impl AsStd140 for DynamicUniform<T>` and `impl Std140 for DynamicUniformStd140<T>`
(`src/std140/dynamic_uniform.rs:10-31`). Both are newtypes; the Output one is
`#[repr(transparent)]` and derives only `Clone` and `Copy` (line 25), not `Debug`. -/
def dynamicImpl (i : Impl) : Impl :=
  { out := .newtype i.out
    alignment := constMax 256 i.alignment
    outDebug := false
    asStd := fun v =>
      match v with
      | .newtype x => (i.asStd x).map .newtype
      | _ => none
    fromStd := fun v =>
      match v with
      | .newtype x => (i.fromStd x).map .newtype
      | _ => none }

/-- Types whose Output is the same type in both layouts: the scalars and `Bool`, as
`<bool as AsStdN>::Output` (`std140.rs:11` and `std430.rs:10` export the same `Bool`). -/
def Ty.layoutFree : Ty → Bool
  | .scalar _ => true
  | .bool => true
  | .output _ t => Ty.layoutFree t
  | .user _ t => Ty.layoutFree t
  | _ => false

mutual
/-- rustc's resolution of `T: AsStdN`; `none` when there is no impl or the program does not
compile. -/
def resolve (tg : Target) (env : ForeignEnv) (l : Layout) : Ty → Option Impl
  | .scalar s => scalarImpl l s
  | .bool => some (boolImpl l)
  | .math m => mathImpl l m
  | .foreign name =>
    (mintyRow name).bind fun row => (mathImpl l row.mint).map fun mint => mintyImpl env name mint
  | .struct name fs =>
    (resolveFields tg env l fs).bind fun is => deriveImpl tg l name is
  | .dynamic t =>
    -- there is no AsStd430 impl for DynamicUniform
    match l with
    | .std140 => (resolve tg env l t).map dynamicImpl
    | .std430 => none
  | .output l' t =>
    -- a std140 Output does not implement AsStd430 and vice versa, except for scalars and `Bool`
    if l' = l ∨ t.layoutFree = true then
      (resolve tg env l t).map fun i => blanketImpl i.out i.alignment i.outDebug
    else none
  | .user name t => (resolve tg env l t).map fun i => userImpl env name t i
/-- Field by field. -/
def resolveFields (tg : Target) (env : ForeignEnv) (l : Layout) :
    List (String × Ty) → Option (List (String × Impl))
  | [] => some []
  | (n, t) :: r =>
    (resolve tg env l t).bind fun i => (resolveFields tg env l r).map fun is => (n, i) :: is
end

/-! ### Values of the input types -/

/-- Values of a component type. -/
def MScalar.HasVal : MScalar → RVal → Prop
  | .f32, v => ∃ b, v = .scalar .f32 b
  | .f64, v => ∃ b, v = .scalar .f64 b
  | .i32, v => ∃ b, v = .scalar .i32 b
  | .u32, v => ∃ b, v = .scalar .u32 b
  | .bool, v => ∃ b, v = .bool b

/-- Values of a struct all of whose fields have the same kind of values. -/
def UniformStruct (names : List String) (P : RVal → Prop) (v : RVal) : Prop :=
  ∃ vs, v = .struct vs ∧ vs.map Prod.fst = names ∧ ∀ x ∈ vs, P x.2

/-- Values of a mint or cgmath type (external crates). -/
def MathTy.HasVal (m : MathTy) (v : RVal) : Prop :=
  match m.kind with
  | .matrix => UniformStruct m.fieldNames (UniformStruct m.fieldNames m.scalar.HasVal) v
  | _ => UniformStruct m.fieldNames m.scalar.HasVal v

mutual
/-- `v` is a value of the Rust type `t`. -/
def Ty.HasVal (tg : Target) (env : ForeignEnv) : Ty → RVal → Prop
  | .scalar s, v => ∃ b, v = .scalar s b
  | .bool, v => ∃ b, v = .bool b
  | .math m, v => m.HasVal v
  | .foreign n, v => env.has n v
  | .struct _ fs, v => ∃ vs, v = .struct vs ∧ HasVals tg env fs vs
  | .dynamic t, v => ∃ w, v = .newtype w ∧ Ty.HasVal tg env t w
  | .output l t, v => ∃ i, resolve tg env l t = some i ∧ RVal.HasTy i.out v
  | .user n t, v => env.userHas n t v
/-- Field by field, names included. -/
def HasVals (tg : Target) (env : ForeignEnv) : List (String × Ty) → List (String × RVal) → Prop
  | [], [] => True
  | (n, t) :: r, (m, v) :: s => n = m ∧ Ty.HasVal tg env t v ∧ HasVals tg env r s
  | _, _ => False
end

/-- What is assumed of the code outside crevice. glam and nalgebra: conversion to mint yields a mint
value and conversions to and from mint are inverse to each other. Hand-written implementations:
conversions succeed on all values, and converting a value to `rep` and back gives the value. (On
`rep` the conversion back may lose information.) -/
structure ForeignEnv.Lawful (tg : Target) (env : ForeignEnv) : Prop where
  into_has : ∀ name m, foreignMath name = some m → ∀ v, env.has name v →
    ∃ w, env.into name v = some w ∧ m.HasVal w ∧ env.ofMint name w = some v
  of_has : ∀ name m, foreignMath name = some m → ∀ w, m.HasVal w →
    ∃ v, env.ofMint name w = some v ∧ env.has name v ∧ env.into name v = some w
  user_into : ∀ name rep v, env.userHas name rep v →
    ∃ w, env.userInto name rep v = some w ∧ Ty.HasVal tg env rep w ∧ env.userOf name rep w = some v
  user_of : ∀ name rep w, Ty.HasVal tg env rep w →
    ∃ v, env.userOf name rep w = some v ∧ env.userHas name rep v

/-- Hand-written implementations lose nothing when converting back: every value of `rep` is the
conversion of the value it is converted to. -/
def ForeignEnv.Exact (tg : Target) (env : ForeignEnv) : Prop :=
  ∀ name rep w v, Ty.HasVal tg env rep w → env.userOf name rep w = some v →
    env.userInto name rep v = some w

end Crevice
