import Verif.Model.Types
/-
Specification: the type obtained by putting the representation in place of every type with a
hand-written implementation.
-/
namespace Crevice

mutual
/-- Every type with a hand-written implementation replaced by the type it is represented by. -/
def Ty.strip : Ty → Ty
  | .struct n fs => .struct n (stripFields fs)
  | .dynamic t => .dynamic (Ty.strip t)
  | .output l t => .output l (Ty.strip t)
  | .user _ t => Ty.strip t
  | t => t
/-- Field by field. -/
def stripFields : List (String × Ty) → List (String × Ty)
  | [] => []
  | (n, t) :: r => (n, Ty.strip t) :: stripFields r
end

mutual
/-- The value with every part of a type with a hand-written implementation replaced by what the
user's conversion makes of it. -/
def Ty.stripVal (env : ForeignEnv) : Ty → RVal → Option RVal
  | .struct _ fs, .struct vs => (stripVals env fs vs).map .struct
  | .dynamic t, .newtype v => (Ty.stripVal env t v).map .newtype
  | .user n t, v => (env.userInto n t v).bind (Ty.stripVal env t)
  | _, v => some v
/-- Field by field. -/
def stripVals (env : ForeignEnv) :
    List (String × Ty) → List (String × RVal) → Option (List (String × RVal))
  | (_, t) :: r, (m, v) :: s =>
    (Ty.stripVal env t v).bind fun w => (stripVals env r s).map fun ws => (m, w) :: ws
  | _, _ => some []
end

end Crevice
