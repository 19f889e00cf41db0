import Verif.Spec.Glsl
/-
Specification: a sufficient condition, read off the GLSL type, for std140 and std430 to lay it out
the same way.
-/
namespace Glsl

mutual
/-- No matrix has columns with alignment below 16 (that is `mat2`), and every structure has a member
whose std430 base alignment is at least 16. -/
def Ty.coincides : Ty → Bool
  | .scalar _ => true
  | .vec _ _ => true
  | .mat s _ r => decide (16 ≤ vecAlign s r)
  | .array t _ => Ty.coincides t && decide (16 ≤ t.align .std430)
  | .struct _ ms => coincidesMembers ms && decide (16 ≤ maxAlign .std430 ms)
  | .aligned _ t => Ty.coincides t
/-- Member by member. -/
def coincidesMembers : List (String × Ty) → Bool
  | [] => true
  | (_, t) :: r => Ty.coincides t && coincidesMembers r
end

end Glsl
