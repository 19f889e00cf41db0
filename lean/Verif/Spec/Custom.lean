import Verif.Model.Custom
import Verif.Spec.Place
/-
Specification of what a user-written `write_stdN` does to a buffer, without a Writer or a sink.
-/
namespace Crevice

/-- `Performs p off xs fin r`: started when `off` bytes have been written, the body `p` writes the
values `xs`, in this order and each at the next offset its alignment allows, at which point `fin`
bytes have been written, and returns `r`, provided that no write fails. -/
inductive Performs {ε : Type} : Prog ε → Nat → List StdVal → Nat → Except ε Nat → Prop
  | ret {off r} : Performs (.ret r) off [] off r
  | len {off k xs fin r} : Performs (k off) off xs fin r → Performs (.len k) off xs fin r
  | writeStd {off x k o xs fin r} : IsNext x.alignment off o →
      Performs (k (.ok o)) (o + x.size) xs fin r → Performs (.writeStd x k) off (x :: xs) fin r

/-- `Holds off xs img fin`: `img` is what a buffer holds from offset `off` to `fin` when the values
`xs` have been laid out there one after the other: each value's bytes are at the next offset its
alignment allows, and all other bytes are zero. -/
def Holds (off : Nat) (xs : List StdVal) (img : List Byte) (fin : Nat) : Prop :=
  off + img.length = fin ∧
  ∃ offs, Placed off (xs.map fun x => (x.alignment, x.size)) offs fin ∧
    (∀ m (hm : m < xs.length) (hm' : m < offs.length),
      off ≤ offs[m] ∧ SliceAt img (offs[m] - off) xs[m].bytes) ∧
    ∀ p (hp : p < img.length), (∀ m (hm : m < xs.length) (hm' : m < offs.length),
      ¬ (offs[m] ≤ off + p ∧ off + p < offs[m] + xs[m].size)) → img[p] = 0

/-- Every failing write makes the body return the error (all calls are followed by `?`). -/
inductive Prog.Propagates {ε : Type} : Prog ε → Prop
  | ret {r} : Propagates (.ret r)
  | len {k} : (∀ n, Propagates (k n)) → Propagates (.len k)
  | writeStd {x k} : (∀ e, k (.error e) = .ret (.error e)) → (∀ o, Propagates (k (.ok o))) →
      Propagates (.writeStd x k)

/-- `Moved d p q`: `q` does at offsets larger by `d` what `p` does. -/
inductive Moved {ε : Type} (d : Nat) : Prog ε → Prog ε → Prop
  | ok {o} : Moved d (.ret (.ok o)) (.ret (.ok (o + d)))
  | error {e} : Moved d (.ret (.error e)) (.ret (.error e))
  | len {k k'} : (∀ n, Moved d (k n) (k' (n + d))) → Moved d (.len k) (.len k')
  | writeStd {x k k'} : (∀ n, Moved d (k (.ok n)) (k' (.ok (n + d)))) →
      (∀ e, Moved d (k (.error e)) (k' (.error e))) → Moved d (.writeStd x k) (.writeStd x k')

/-- Shift a result. -/
def shiftResult {ε : Type} (d : Nat) : Except ε Nat → Except ε Nat
  | .ok o => .ok (o + d)
  | .error e => .error e

end Crevice
