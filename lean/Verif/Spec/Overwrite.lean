import Verif.Spec.Item
/-
Specification: overwriting part of a buffer, and changing one field of a value, at any depth.
-/
namespace Crevice

/-- `buf[off .. off + bs.len()].copy_from_slice(bs)`. -/
def overwrite (buf : List Byte) (off : Nat) (bs : List Byte) : List Byte :=
  buf.take off ++ bs ++ buf.drop (off + bs.length)

/-- `Assigned path v x v'`: `v'` is `v` after the assignment `v.path = x`. -/
inductive Assigned : List String → RVal → RVal → RVal → Prop
  | here {v x} : Assigned [] v x x
  | field {n p v x v' a a'} : v.field n = some a → Assigned p a x a' → v'.field n = some a' →
      (∀ m, m ≠ n → v'.field m = v.field m) → Assigned (n :: p) v x v'

/-- The type of the field `path` of the struct `t`. -/
def Ty.fieldTy : Ty → List String → Option Ty
  | t, [] => some t
  | .struct _ fs, n :: p => (fs.lookup n).bind fun u => Ty.fieldTy u p
  | _, _ => none

end Crevice
