import Verif.Proof.TextTypes
import Verif.Model.Glsl
/-
What the text of the crate says about its types: names for types and implementations.
-/
namespace Crevice.Tables
open RustCode RustTypes TypeNames

/-- A struct of a layout's module. -/
def primCTy (l : Layout) (name : String) : CTy := .named [mod l, name] []

/-- `Bool`. -/
def boolCTy : CTy := .named ["bool", "Bool"] []

/-- A machine type or `bool`. -/
def simpleCTy (s : String) : CTy := .named [s] []

/-- The implementation for all `T: StdN`, applied to a type. -/
def blanketFound (l : Layout) (c : CTy) : Found :=
  { scope := { module := mod l, vars := [("Self", c), ("T", c)], assoc := [("Output", ty "Self")],
               bounds := (blanketDef l).bounds }
    items := (blanketDef l).items }

/-- The scope of an implementation without parameters. -/
def plainScope (m : String) (c : CTy) (assoc : List (String × RustCode.Ty)) : Scope :=
  { module := m, vars := [("Self", c)], assoc := assoc, bounds := [] }

/-- An implementation of `StdN`. -/
def stdFound (l : Layout) (c : CTy) (al : Nat) : Found :=
  { scope := plainScope (mod l) c [], items := [.const "ALIGNMENT" (ty "usize") (some (.num al ""))] }

/-- An implementation by `easy_impl!`. -/
def easyFound (l : Layout) (c : CTy) (stdName : String) (fields : List String) : Found :=
  { scope := plainScope "imp" c [("Output", inMod l stdName)], items := easyAssoc l stdName fields }

/-- An implementation by `minty_impl!`. -/
def mintyFound (l : Layout) (c : CTy) (mint : RustCode.Ty) : Found :=
  { scope := plainScope "imp" c [("Output", .proj mint (inMod l (asTrait l)) ["Output"])], items := mintyAssoc l mint }

/-- The implementation for `bool`. -/
def boolFound (l : Layout) : Found :=
  { scope := plainScope (mod l) (simpleCTy "bool") [("Output", ty "Bool")], items := (boolDef l).items }

/-- The type of the components of a vector. -/
def primC : PrimTy → CTy
  | .scalar s => simpleCTy (scalarName s)
  | .Bool => boolCTy

/-- The type of a field of a matrix. -/
def matC (l : Layout) : MatField → CTy
  | .vec n => primCTy l n
  | .scalar s => simpleCTy (scalarName s)
  | .array s n => .array (simpleCTy (scalarName s)) n

/-- Fields of the structs of a layout. -/
def primFields (l : Layout) (name : String) : List (String × CTy) :=
  match l.vectors.find? fun r => r.name == name with
  | some r => r.fields.map fun f => (f, primC r.prim)
  | none =>
    match l.matrices.find? fun r => r.name == name with
    | some r => r.fields.map fun f => (f.1, matC l f.2)
    | none => []

/-- The other layout. -/
def other : Layout → Layout
  | .std140 => .std430
  | .std430 => .std140

/-- The machine types with implementations. -/
def scalars : List Scalar := [.f32, .f64, .i32, .u32]

/-- The type of the fields of a math type. -/
def compCTy (m : MathTy) : CTy :=
  match m.kind with
  | .matrix => mathCTy m.column
  | _ => simpleCTy (mscalarName m.scalar)

/-- The layout type of a component. -/
def outScalar : MScalar → CTy
  | .bool => boolCTy
  | s => simpleCTy (mscalarName s)

/-- The layout type of a math type. -/
def outMath (l : Layout) (m : MathTy) : Option CTy := (easyRow m).map fun r => primCTy l r.stdName

/-- The layout type of the fields. -/
def outComp (l : Layout) (m : MathTy) : Option CTy :=
  match m.kind with
  | .matrix => outMath l m.column
  | _ => some (outScalar m.scalar)

/-- A type of glam or nalgebra by its path. -/
def foreignCTy (s : String) : CTy :=
  match foreignRustTy s with
  | .path p args => .named p (args.map fun t => match t with | .path q _ => .named q [] | _ => .named [] [])
  | _ => .named [] []

/-- `DynamicUniform<c>`. -/
def dynCTy (c : CTy) : CTy := .named ["std140", "DynamicUniform"] [c]

/-- `DynamicUniformStd140<c>`. -/
def dynOut (c : CTy) : CTy := .named ["std140", "DynamicUniformStd140"] [c]

/-- The implementation for `DynamicUniform<c>`. -/
def dynFound (c : CTy) : Found :=
  { scope := { module := "std140", vars := [("Self", dynCTy c), ("T", c)],
               assoc := assocTypes dynamicDef.items, bounds := dynamicDef.bounds }
    items := dynamicDef.items }

/-- The possible suffixes of a name. -/
def suffixes : List String := ["", "2", "3", "4"]

/-- The suffix of a name. -/
def suffix (d : Nat) : String := match d with | 2 => "2" | 3 => "3" | 4 => "4" | _ => ""

/-- The name without suffix. -/
def baseName (lib : Lib) (k : Kind) : String :=
  match k with
  | .vector => "Vector"
  | .point => "Point"
  | .matrix => match lib with | .mint => "ColumnMatrix" | .cgmath => "Matrix"

/-- All types with the path of a math type. -/
def allMath : List (Lib × Kind × MScalar × String) :=
  [Lib.mint, .cgmath].flatMap fun lib => [Kind.vector, .point, .matrix].flatMap fun k =>
    [MScalar.f32, .f64, .i32, .u32, .bool].flatMap fun s => suffixes.map fun x => (lib, k, s, x)

/-- The type. -/
def rawMath (x : Lib × Kind × MScalar × String) : CTy :=
  .named [libName x.1, baseName x.1 x.2.1 ++ x.2.2.2] [.named [mscalarName x.2.2.1] []]

/-- Whether there is a row. -/
def hasRow (x : Lib × Kind × MScalar × String) : Bool :=
  easyRows.any fun r => r.ty.lib == x.1 && (r.ty.kind == x.2.1 && (r.ty.scalar == x.2.2.1 && suffix r.ty.dim == x.2.2.2))

/-- `<c as Glsl>::NAME`. -/
def nameOf (g : Sem) (c : CTy) : Option String :=
  (g.find ["glsl", "Glsl"] [] c).bind fun f =>
    ((assocConst f.items "NAME").bind (g.const f.scope [])).bind fun v =>
      match v with
      | .str s => some s
      | _ => none

end Crevice.Tables
