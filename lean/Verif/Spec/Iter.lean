import Verif.Model.Iter
/-
Specification vocabulary: what an iterator yields.
-/
namespace Crevice

/-- Asked `xs.length` times, the iterator yields exactly `xs` and is then `st'`. -/
inductive Iter.Takes {ι : Type} (it : Iter ι) : ι → List WVal → ι → Prop
  | nil {st} : Takes it st [] st
  | cons {st st' st'' x xs} : it.next st = (some x, st') → Takes it st' xs st'' →
      Takes it st (x :: xs) st''

/-- The iterator yields exactly `xs`, then says `None`, and is then `st'`. -/
def Iter.Yields {ι : Type} (it : Iter ι) (st : ι) (xs : List WVal) (st' : ι) : Prop :=
  ∃ mid, it.Takes st xs mid ∧ it.next mid = (none, st')

/-- The iterator never says `None`; `items n` is the item with index `n`. -/
def Iter.Endless {ι : Type} (it : Iter ι) (st : ι) (items : Nat → WVal) : Prop :=
  ∀ n, ∃ st', it.Takes st ((List.range n).map items) st'

/-- `Vec::into_iter`, `slice::iter`: yields the elements and then says `None` for ever. -/
def listIter : Iter (List WVal) :=
  { next := fun s =>
      match s with
      | [] => (none, [])
      | x :: r => (some x, r) }

end Crevice
