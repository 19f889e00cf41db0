import Verif.Model.Writer
/-
`Writer::write_iter` on an arbitrary iterator (`std140/writer.rs:105-123`, `std430/writer.rs:105-123`),
which need not be finite, may have side effects and may yield items again after `None`.
-/
namespace Crevice

/-- `std::iter::Iterator`: `next` returns an item or `None`, and the iterator afterwards. -/
structure Iter (ι : Type) where
  next : ι → Option WVal × ι

/-- `for item in iter { item.write_stdN(self)?; }` (`writer.rs:118-120`), run for at most `fuel`
calls of `next`; `none` when it has not ended by then. -/
def Writer.forLoop {σ ε ι : Type} (k : Sink σ ε) (it : Iter ι) :
    Nat → Writer σ → ι → Option (Except ε Unit × Writer σ × ι)
  | 0, _, _ => none
  | fuel + 1, w, st =>
    match it.next st with
    | (none, st) => some (.ok (), w, st)
    | (some x, st) =>
      match w.write k x with
      | (.error e, w) => some (.error e, w, st)
      | (.ok _, w) => Writer.forLoop k it fuel w st

/-- `Writer::write_iter` (`writer.rs:105-123`). The result comes with the Writer and the iterator
afterwards (which the caller can look at if it was passed by reference). -/
def Writer.runIter {σ ε ι : Type} (k : Sink σ ε) (it : Iter ι) (fuel : Nat) (w : Writer σ) (st : ι) :
    Option (Except ε Nat × Writer σ × ι) :=
  -- writer.rs:110
  let offset := w.offset
  -- writer.rs:114-116
  match it.next st with
  | (some x, st) =>
    match w.write k x with
    | (.error e, w) => some (.error e, w, st)
    | (.ok offset, w) =>
      match Writer.forLoop k it fuel w st with
      | none => none
      | some (.error e, w, st) => some (.error e, w, st)
      -- writer.rs:122
      | some (.ok (), w, st) => some (.ok offset, w, st)
  | (none, st) =>
    -- `iter` was not consumed by `if let`, the loop asks it again
    match Writer.forLoop k it fuel w st with
    | none => none
    | some (.error e, w, st) => some (.error e, w, st)
    | some (.ok (), w, st) => some (.ok offset, w, st)

/-- `w.write_iter(iter)` ends, with this result, Writer and iterator. -/
def Writer.IterReturns {σ ε ι : Type} (k : Sink σ ε) (it : Iter ι) (w : Writer σ) (st : ι)
    (r : Except ε Nat) (w' : Writer σ) (st' : ι) : Prop :=
  ∃ fuel, Writer.runIter k it fuel w st = some (r, w', st')

/-- `w.write_iter(iter)` runs forever. -/
def Writer.IterDiverges {σ ε ι : Type} (k : Sink σ ε) (it : Iter ι) (w : Writer σ) (st : ι) : Prop :=
  ∀ fuel, Writer.runIter k it fuel w st = none

end Crevice
