import Verif.Model.Types
/-
Specification: two types, or two values, that differ only in the names of structs and fields.
-/
namespace Crevice

mutual
/-- Same type up to the names of structs and of fields. (A layout type used as a field type
and a type with a hand-written implementation are required to be the same.) -/
def Ty.Renamed : Ty → Ty → Prop
  | .struct _ fs, .struct _ gs => RenamedFields fs gs
  | .dynamic t, .dynamic u => Ty.Renamed t u
  | .scalar s, .scalar s' => s = s'
  | .bool, .bool => True
  | .math m, .math m' => m = m'
  | .foreign n, .foreign n' => n = n'
  | .output l t, .output l' t' => l = l' ∧ t = t'
  | .user n t, .user n' t' => n = n' ∧ t = t'
  | _, _ => False
/-- Field by field, in order. -/
def RenamedFields : List (String × Ty) → List (String × Ty) → Prop
  | [], [] => True
  | (_, t) :: r, (_, u) :: s => Ty.Renamed t u ∧ RenamedFields r s
  | _, _ => False
end

mutual
/-- Same value up to the names of the fields of the structs in the type. -/
def Ty.RenamedVal : Ty → RVal → RVal → Prop
  | .struct _ fs, .struct vs, .struct ws => RenamedVals fs vs ws
  | .dynamic t, .newtype v, .newtype w => Ty.RenamedVal t v w
  | .scalar _, v, w => v = w
  | .bool, v, w => v = w
  | .math _, v, w => v = w
  | .foreign _, v, w => v = w
  | .output _ _, v, w => v = w
  | .user _ _, v, w => v = w
  | _, _, _ => False
/-- Field by field, in order. -/
def RenamedVals : List (String × Ty) → List (String × RVal) → List (String × RVal) → Prop
  | [], [], [] => True
  | (_, t) :: r, (_, v) :: vs, (_, w) :: ws => Ty.RenamedVal t v w ∧ RenamedVals r vs ws
  | _, _, _ => False
end

end Crevice
