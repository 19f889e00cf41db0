import Verif.Spec.TextClient
import Verif.Spec.Item
/-
Specification: a client of the program text whose values are those of the model of the types: values of convertible types,
with the sizes, alignments and bytes of their implementations, written to a `Vec<u8>`.
-/
namespace RustCode
open Crevice

/-- An implementation whose size and alignment are `usize`s. -/
abbrev FitImpl (tg : Target) (bits : Nat) := { i : Impl // i.alignment < 2 ^ bits ∧ i.out.size tg < 2 ^ bits }

/-- A value of a type with such an implementation. -/
abbrev FitItem (tg : Target) (env : ForeignEnv) (l : Layout) (bits : Nat) :=
  { x : Crevice.Item tg env l // x.impl.alignment < 2 ^ bits ∧ x.impl.out.size tg < 2 ^ bits }

/-- The client. A converted value is represented by the value it comes from. -/
def itemSetting (tg : Target) (env : ForeignEnv) (l : Layout) (bits : Nat) (checked : Bool) : Setting :=
  { bits := bits
    checked := checked
    Sink := List Byte
    Err := Unit
    ConvTy := FitImpl tg bits
    Conv := FitItem tg env l bits
    StdTy := FitImpl tg bits
    Std := FitItem tg env l bits
    convTy := fun x => ⟨x.1.impl, x.2⟩
    stdTy := fun x => ⟨x.1.impl, x.2⟩
    World := Unit
    writeAll := fun s bs => (.returns (.ok ()), s ++ bs)
    next := fun w => (.returns none, w)
    outTy := fun t => t
    convert := fun x => .returns x
    restore := fun _ x => .returns x
    convert_ty := fun c d h => by cases h; rfl
    align := fun i => i.1.alignment
    size := fun i => i.1.out.size tg
    bytes := fun x => x.1.bytes }

end RustCode
