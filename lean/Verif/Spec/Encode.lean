import Verif.Spec.Glsl
/-
Specification: a reference encoder. It writes a GLSL value into memory the way the std140 and std430
rules of `Spec/Glsl.lean` say, with zeros wherever the rules leave a byte unused and the word 0 or 1
for a `bool`. Written without reference to crevice.
-/
namespace Glsl
open Crevice (Byte Endian Layout)

/-- The `n` lowest bytes of a number in memory. -/
def numberBytes : Endian → Nat → Nat → List Byte
  | .little, n, w => (List.range n).map fun i => BitVec.ofNat 8 (w / 256 ^ i)
  | .big, n, w => ((List.range n).map fun i => BitVec.ofNat 8 (w / 256 ^ i)).reverse

/-- The bytes of a scalar; `none` if the value is not one of that type. -/
def storeScalar (e : Endian) : Scalar → Val → Option (List Byte)
  | .float, .float b => some (numberBytes e 4 b.toNat)
  | .double, .double b => some (numberBytes e 8 b.toNat)
  | .int, .int b => some (numberBytes e 4 b.toNat)
  | .uint, .uint b => some (numberBytes e 4 b.toNat)
  | .bool, .bool b => some (numberBytes e 4 (if b then 1 else 0))
  | _, _ => none

/-- The bytes of `n` consecutive scalars. -/
def storeScalars (e : Endian) (s : Scalar) (n : Nat) (vs : List Val) : Option (List Byte) :=
  if vs.length = n then (vs.mapM (storeScalar e s)).map List.flatten else none

/-- The bytes followed by zeros, `n` bytes in all. -/
def padTo (n : Nat) (bs : List Byte) : List Byte := bs ++ List.replicate (n - bs.length) 0

mutual
/-- The bytes of a value; `none` if it is not a value of that type. -/
def store (e : Endian) (l : Layout) : Ty → Val → Option (List Byte)
  | .scalar s, v => storeScalar e s v
  | .vec s n, .vec vs => storeScalars e s n vs
  | .mat s c r, .mat cols =>
    if cols.length = c then
      (cols.mapM fun col => (storeScalars e s r col).map (padTo (columnStride l s r))).map List.flatten
    else none
  | .array t n, .array vs =>
    if vs.length = n then
      (vs.mapM fun v => (store e l t v).map (padTo (arrayStride l t))).map List.flatten
    else none
  | .struct nm ms, .struct vs => (storeMembers e l ms vs 0).map (padTo ((Ty.struct nm ms).size l))
  | .aligned _ t, v => store e l t v
  | _, _ => none
/-- The bytes of the members of a structure from relative offset `cur` on. -/
def storeMembers (e : Endian) (l : Layout) :
    List (String × Ty) → List (String × Val) → Nat → Option (List Byte)
  | [], [], _ => some []
  | (n, t) :: r, (m, v) :: vs, cur =>
    if n = m then
      (store e l t v).bind fun bs =>
        (storeMembers e l r vs (roundUp cur (t.align l) + t.size l)).map fun rest =>
          List.replicate (roundUp cur (t.align l) - cur) 0 ++ bs ++ rest
    else none
  | _, _, _ => none
end

/-- Positions of the bools among `n` consecutive scalars. -/
def scalarBools (s : Scalar) (n off : Nat) : List Nat :=
  if s = .bool then (List.range n).map fun i => off + i * s.size else []

mutual
/-- Offsets of the `bool`s in a type placed at offset `off`. -/
def bools (l : Layout) : Ty → Nat → List Nat
  | .scalar s, off => if s = .bool then [off] else []
  | .vec s n, off => scalarBools s n off
  | .mat s c r, off => (List.range c).flatMap fun i => scalarBools s r (off + i * columnStride l s r)
  | .array t n, off => (List.range n).flatMap fun i => bools l t (off + i * arrayStride l t)
  | .struct _ ms, off => memberBools l ms off 0
  | .aligned _ t, off => bools l t off
/-- Those in the members of a structure that starts at `base`. -/
def memberBools (l : Layout) : List (String × Ty) → Nat → Nat → List Nat
  | [], _, _ => []
  | (_, t) :: r, base, cur =>
    bools l t (base + roundUp cur (t.align l)) ++
      memberBools l r base (roundUp cur (t.align l) + t.size l)
end

/-- Every `bool` of the type is stored as the word 0 or 1. -/
def CanonicalBools (e : Endian) (l : Layout) (t : Ty) (buf : List Byte) : Prop :=
  ∀ k ∈ bools l t 0, ∃ w, wordAt e buf k 4 = some w ∧ (w = 0 ∨ w = 1)

/-- Every byte that belongs to no scalar component is zero. -/
def ZeroPadding (l : Layout) (t : Ty) (buf : List Byte) : Prop :=
  ∀ k (hk : k < buf.length), ¬ Occupied l t k → buf[k] = 0

end Glsl
