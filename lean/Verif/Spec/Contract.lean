import Verif.Model.Types
import Verif.Basic
/-
Specification: what crevice asks of implementations of its public traits that are written outside
the crate. `unsafe trait StdN: Copy + Zeroable + Pod` (`std140/traits.rs:12-30`,
`std430/traits.rs:12-30`) and `trait AsStdN` (`std140/traits.rs:74-89`, `std430/traits.rs:74-89`).
Stated with the memory images of `Model/Rust` only.
-/
namespace Crevice

/-- What `unsafe impl StdN for Output` promises, on every target: ALIGNMENT is a power of two and a
multiple of the alignment rustc gives to the type; and `Pod`: no value has uninitialised bytes, all
bytes are valid values. -/
structure StdContract (i : Impl) : Prop where
  pow2 : ∃ k, i.alignment = 2 ^ k
  align : ∀ tg : Target, tg.Valid → i.out.align tg ∣ i.alignment
  init : ∀ tg : Target, tg.Valid → ∀ o, RVal.HasTy i.out o → ∃ bs, bytesOf tg i.out o = some bs
  valid : ∀ tg : Target, tg.Valid → ∀ bs, bs.length = i.out.size tg →
    ∃ o, RVal.HasTy i.out o ∧ decode tg i.out bs = some o

/-- What `impl AsStdN for T` promises: both conversions are total and type-correct, and
`from_stdN` undoes `as_stdN`. `P` are the values of `T`. -/
structure AsContract (P : RVal → Prop) (i : Impl) : Prop where
  as_std : ∀ v, P v → ∃ o, i.asStd v = some o ∧ RVal.HasTy i.out o ∧ i.fromStd o = some v
  from_std : ∀ o, RVal.HasTy i.out o → ∃ v, i.fromStd o = some v ∧ P v

/-- `v` is a value of a struct with the given field names, in this order, and the field called `n`
satisfies `P n`. -/
def StructVal (names : List String) (P : String → RVal → Prop) (v : RVal) : Prop :=
  ∃ vs, v = .struct vs ∧ vs.map Prod.fst = names ∧ ∀ x ∈ vs, P x.1 x.2

end Crevice
