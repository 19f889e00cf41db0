import Verif.Spec.Item
import Verif.Spec.Correspond
/-
Specification vocabulary: the members of a GLSL block written one after the other, each a single
value or an array of values of one type.
-/
namespace Crevice

/-- One member of a block: a value, or an array of values of type `ty`. -/
inductive Entry (tg : Target) (env : ForeignEnv) (l : Layout)
  | one (x : Item tg env l)
  | many (ty : Ty) (xs : List (Item tg env l))

namespace Entry
variable {tg : Target} {env : ForeignEnv} {l : Layout}

/-- What is passed to `Writer::write`: the value, or the slice. -/
def arg : Entry tg env l → WVal
  | one x => x.arg
  | many _ xs => .slice (xs.map Item.arg)

/-- The GLSL type the member is declared with. -/
def glsl : Entry tg env l → Option Glsl.Ty
  | one x => x.ty.glsl
  | many t xs => t.glsl.map fun g => .array g xs.length

/-- The GLSL value the member should have. -/
def denote : Entry tg env l → Option Glsl.Val
  | one x => x.ty.denote env x.val
  | many _ xs => (xs.mapM fun (x : Item tg env l) => x.ty.denote env x.val).map .array

/-- Elements of an array have the type of the array, and an alignment that std140 does not round
up (every derived struct, matrix, `vec3` and `vec4`; see `C21_std140_iff`). -/
def ElemsOk : Entry tg env l → Prop
  | one _ => True
  | many t xs => ∀ x ∈ xs, x.ty = t ∧ (l = .std430 ∨ 16 ≤ x.impl.alignment)

/-- Elements of an array fill their array slots completely (every derived struct, see `C14_size`),
and there is at least one. -/
def Full : Entry tg env l → Prop
  | one _ => True
  | many _ xs => xs ≠ [] ∧ ∀ x ∈ xs, x.impl.alignment ∣ x.bytes.length

/-- No raw layout-typed parts (whose padding bytes are part of the Rust value). -/
def Plain : Entry tg env l → Prop
  | one x => x.ty.plain = true
  | many t _ => t.plain = true

end Entry

/-- The members of the block in GLSL, by name. -/
def blockMembers {tg : Target} {env : ForeignEnv} {l : Layout} :
    List (String × Entry tg env l) → Option (List (String × Glsl.Ty))
  | [] => some []
  | (n, e) :: r => e.glsl.bind fun g => (blockMembers r).map fun gs => (n, g) :: gs

/-- The values of the members, by name. -/
def blockValues {tg : Target} {env : ForeignEnv} {l : Layout} :
    List (String × Entry tg env l) → Option (List (String × Glsl.Val))
  | [] => some []
  | (n, e) :: r => e.denote.bind fun v => (blockValues r).map fun vs => (n, v) :: vs

end Crevice
