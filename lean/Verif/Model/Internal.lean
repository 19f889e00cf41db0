/-
Model of `src/internal.rs`: the const helpers the derive macro, `Writer` and `Sizer` share.
-/
namespace Crevice

/-- `src/internal.rs:7-13` `align_offset`: number of bytes needed to make `offset` be aligned to
`alignment`. `usize` is modelled as `Nat` here (see `Model/Usize.lean` for the w-bit version;
the only operation is a subtraction that cannot underflow). -/
def alignOffset (offset alignment : Nat) : Nat :=
  if alignment = 0 ∨ offset % alignment = 0 then
    0
  else
    alignment - offset % alignment

/-- `src/internal.rs:17-23` `max`: const maximum of two `usize`. -/
def constMax (a b : Nat) : Nat :=
  if a > b then a else b

/-- `src/internal.rs:27-40` `max_arr`: maximum of an array of `usize`. The `while` loop over the
index `i` with accumulator `max` is a left fold over the array. -/
def maxArr (input : List Nat) : Nat :=
  input.foldl (fun max x => if x > max then x else max) 0

end Crevice
