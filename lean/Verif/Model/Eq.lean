import Verif.Model.Types
/-
Observers of layout values other than their bytes: `==` and `{:?}`.
-/
namespace Crevice

/-- Rust's `==` on a float type of `w` bits, by bit patterns (IEEE 754 `compareQuietEqual`): the
magnitude is the pattern without the sign bit; magnitudes above that of infinity are NaNs; zeros of
either sign are equal; otherwise equal patterns are equal numbers. Language semantics. -/
def floatEq {w : Nat} (inf : Nat) (a b : BitVec w) : Bool :=
  let mag (x : BitVec w) : Nat := x.toNat % 2 ^ (w - 1)
  decide (mag a ≤ inf) && decide (mag b ≤ inf) && (a == b || (mag a == 0 && mag b == 0))

/-- `==` of the primitive types. Language semantics. -/
def scalarEq : (s : Scalar) → BitVec (8 * s.size) → BitVec (8 * s.size) → Bool
  | .f32, a, b => floatEq (w := 32) 0x7f800000 a b
  | .f64, a, b => floatEq (w := 64) 0x7ff0000000000000 a b
  | .i32, a, b => a == b
  | .u32, a, b => a == b
  | .u8, a, b => a == b

mutual
/-- `#[derive(PartialEq)]`: field by field, in declaration order. Language semantics. -/
def eqVal : RVal → RVal → Option Bool
  | .scalar s a, .scalar s' b => if h : s' = s then some (scalarEq s a (h ▸ b)) else none
  | .newtype a, .newtype b => eqVal a b
  | .struct fs, .struct gs => eqFields fs gs
  | _, _ => none
/-- `self.x == other.x && …`. -/
def eqFields : List (String × RVal) → List (String × RVal) → Option Bool
  | [], [] => some true
  | (n, a) :: r, (m, b) :: s =>
    if n = m then
      (eqVal a b).bind fun x => if x then eqFields r s else some false
    else none
  | _, _ => none
end

/-- `src/bool.rs:8` `#[derive(Clone, Copy, Eq, PartialEq)]` on `struct Bool(u32)`. -/
def boolEq (a b : RVal) : Option Bool := eqVal a b

/-- The derive list of `vectors!`: `PartialEq` in `src/std140/primitives.rs:48`, not in
`src/std430/primitives.rs:48`. -/
def Layout.vectorsHaveEq : Layout → Bool
  | .std140 => true
  | .std430 => false

/-- `==` of the vector type called `name` in a layout module; `none` = does not compile. -/
def vectorEq (l : Layout) (name : String) (a b : RVal) : Option Bool :=
  if l.vectorsHaveEq && (l.vecPrimitive name).isSome then eqVal a b else none

/-- `src/bool.rs:27-31` `impl Debug for Bool`: `write!(f, "Bool({:?})", bool::from(*self))`. -/
def boolDebug (v : RVal) : Option String :=
  (boolOfBool v).map fun b => "Bool(" ++ (if b then "true" else "false") ++ ")"

end Crevice
