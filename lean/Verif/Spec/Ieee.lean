import Verif.Basic
/-
IEEE 754 binary32 and binary64 bit patterns: sign, exponent and fraction fields. Only what is needed
to say when two floats are equal.
-/
namespace Ieee

/-- An interchange format: number of exponent and of fraction bits. -/
structure Format where
  exponentBits : Nat
  fractionBits : Nat

/-- Width in bits. -/
def Format.width (f : Format) : Nat := 1 + f.exponentBits + f.fractionBits

def binary32 : Format := ⟨8, 23⟩
def binary64 : Format := ⟨11, 52⟩

/-- The fraction field. -/
def Format.fraction (f : Format) (bits : Nat) : Nat := bits % 2 ^ f.fractionBits

/-- The exponent field. -/
def Format.exponent (f : Format) (bits : Nat) : Nat := bits / 2 ^ f.fractionBits % 2 ^ f.exponentBits

/-- Not a number: the exponent is all ones and the fraction is not zero. -/
def Format.IsNaN (f : Format) (bits : Nat) : Prop :=
  f.exponent bits = 2 ^ f.exponentBits - 1 ∧ f.fraction bits ≠ 0

/-- Positive or negative zero. -/
def Format.IsZero (f : Format) (bits : Nat) : Prop := f.exponent bits = 0 ∧ f.fraction bits = 0

/-- Equality of floats: no NaNs, and the same pattern or zeros of either sign. -/
def Format.Equal (f : Format) (a b : Nat) : Prop :=
  ¬ f.IsNaN a ∧ ¬ f.IsNaN b ∧ (a = b ∨ (f.IsZero a ∧ f.IsZero b))

end Ieee
