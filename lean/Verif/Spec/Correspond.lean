import Verif.Spec.Glsl
import Verif.Model.Types
/-
Specification: which GLSL type a Rust type corresponds to, and which GLSL value a Rust value
denotes. Purely structural: by shape and by field name, with no reference to layouts, paddings or
conversions.
-/
namespace Crevice

/-- GLSL scalar of a math component type. -/
def MScalar.glsl : MScalar → Glsl.Scalar
  | .f32 => .float
  | .f64 => .double
  | .i32 => .int
  | .u32 => .uint
  | .bool => .bool

/-- A vector or point with 2 to 4 components is a GLSL vector; a square floating point matrix is a
GLSL matrix. -/
def MathTy.glsl (m : MathTy) : Option Glsl.Ty :=
  if 2 ≤ m.dim ∧ m.dim ≤ 4 then
    match m.kind, m.scalar with
    | .matrix, .f32 => some (.mat .float m.dim m.dim)
    | .matrix, .f64 => some (.mat .double m.dim m.dim)
    | .matrix, _ => none
    | _, s => some (.vec s.glsl m.dim)
  else none

mutual
/-- The GLSL type a Rust type stands for; `none` when there is none (GLSL has no empty structs). A
type with a hand-written implementation stands for what its `rep` stands for. -/
def Ty.glsl : Ty → Option Glsl.Ty
  | .scalar .f32 => some (.scalar .float)
  | .scalar .f64 => some (.scalar .double)
  | .scalar .i32 => some (.scalar .int)
  | .scalar .u32 => some (.scalar .uint)
  | .scalar .u8 => none
  | .bool => some (.scalar .bool)
  | .math m => m.glsl
  | .foreign name => (foreignMath name).bind fun m => m.glsl
  | .struct name fs =>
    if fs.isEmpty then none else (glslMembers fs).map (.struct name)
  | .dynamic t => (Ty.glsl t).map (.aligned 256)
  | .output _ t => Ty.glsl t
  | .user _ t => Ty.glsl t
/-- Field by field. -/
def glslMembers : List (String × Ty) → Option (List (String × Glsl.Ty))
  | [] => some []
  | (n, t) :: r => (Ty.glsl t).bind fun g => (glslMembers r).map fun gs => (n, g) :: gs
end

mutual
/-- No part of the type is itself a layout (Output) type. -/
def Ty.plain : Ty → Bool
  | .struct _ fs => plainFields fs
  | .dynamic t => Ty.plain t
  | .output _ _ => false
  | .user _ t => Ty.plain t
  | _ => true
/-- Field by field. -/
def plainFields : List (String × Ty) → Bool
  | [] => true
  | (_, t) :: r => Ty.plain t && plainFields r
end

/-! ### Meaning of values -/

/-- GLSL value of a Rust scalar, `bool` or (for Output values) `Bool`. -/
def denoteLeaf : RVal → Option Glsl.Val
  | .scalar .f32 b => some (.float b)
  | .scalar .f64 b => some (.double b)
  | .scalar .i32 b => some (.int b)
  | .scalar .u32 b => some (.uint b)
  | .bool b => some (.bool b)
  | .newtype (.scalar .u32 w) => some (.bool (w != 0))
  | _ => none

/-- Components `x, y, ..` of a struct, read off by name. -/
def denoteComponents (names : List String) (v : RVal) : Option (List Glsl.Val) :=
  names.mapM fun n => (v.field n).bind denoteLeaf

/-- GLSL value of a math value, or of the Output struct of a math type: components by name, other
fields (padding) ignored. -/
def MathTy.denote (m : MathTy) (v : RVal) : Option Glsl.Val :=
  match m.kind with
  | .matrix =>
    (m.fieldNames.mapM fun n => (v.field n).bind (denoteComponents m.fieldNames)).map .mat
  | _ => (denoteComponents m.fieldNames v).map .vec

mutual
/-- GLSL value of a value of an Output type: struct fields are found by name, padding fields are
ignored. -/
def Ty.denoteOut : Ty → RVal → Option Glsl.Val
  | .scalar _, v => denoteLeaf v
  | .bool, v => denoteLeaf v
  | .math m, v => m.denote v
  | .foreign name, v => (foreignMath name).bind fun m => m.denote v
  | .struct _ fs, v => (denoteOutFields fs v).map .struct
  | .dynamic t, .newtype v => Ty.denoteOut t v
  | .dynamic _, _ => none
  | .output _ t, v => Ty.denoteOut t v
  | .user _ t, v => Ty.denoteOut t v
/-- Field by field. -/
def denoteOutFields : List (String × Ty) → RVal → Option (List (String × Glsl.Val))
  | [], _ => some []
  | (n, t) :: r, v =>
    ((v.field n).bind (Ty.denoteOut t)).bind fun x =>
      (denoteOutFields r v).map fun xs => (n, x) :: xs
end

mutual
/-- GLSL value of a Rust value of type `t`. Foreign math values mean what their mint equivalents
mean, and values with a hand-written implementation what their conversions mean. -/
def Ty.denote (env : ForeignEnv) : Ty → RVal → Option Glsl.Val
  | .scalar _, v => denoteLeaf v
  | .bool, v => denoteLeaf v
  | .math m, v => m.denote v
  | .foreign name, v =>
    (foreignMath name).bind fun m => (env.into name v).bind m.denote
  | .struct _ fs, v => (denoteFields env fs v).map .struct
  | .dynamic t, .newtype v => Ty.denote env t v
  | .dynamic _, _ => none
  | .output _ t, v => Ty.denoteOut t v
  | .user n t, v => (env.userInto n t v).bind (Ty.denote env t)
/-- Field by field. -/
def denoteFields (env : ForeignEnv) : List (String × Ty) → RVal → Option (List (String × Glsl.Val))
  | [], _ => some []
  | (n, t) :: r, v =>
    ((v.field n).bind (Ty.denote env t)).bind fun x =>
      (denoteFields env r v).map fun xs => (n, x) :: xs
end

end Crevice
