import Verif.Spec.Iter
import Verif.Proof.History
/-
Lemmas about `write_iter` on arbitrary iterators.
-/
namespace Crevice

variable {σ ε ι : Type}

/-- What happens when the items `xs` are written one after the other until one fails. -/
inductive StopsAt (k : Sink σ ε) : Writer σ → List WVal → ε → Writer σ → Nat → Prop
  | here {w x xs e w'} : w.write k x = (.error e, w') → StopsAt k w (x :: xs) e w' 0
  | later {w x xs o w₁ e w' m} : w.write k x = (.ok o, w₁) → StopsAt k w₁ xs e w' m →
      StopsAt k w (x :: xs) e w' (m + 1)

theorem writeRest_cases (k : Sink σ ε) (w : Writer σ) (xs : List WVal) :
    (∃ w', w.writeRest k xs = (.ok (), w')) ∨
      ∃ e w' m, w.writeRest k xs = (.error e, w') ∧ StopsAt k w xs e w' m := by
  induction xs generalizing w with
  | nil => exact .inl ⟨w, by rw [Writer.writeRest]⟩
  | cons x r ih =>
    rw [Writer.writeRest]
    rcases hx : w.write k x with ⟨e | o, w₁⟩
    · exact .inr ⟨e, w₁, 0, rfl, .here hx⟩
    · rcases ih w₁ with ⟨w', h⟩ | ⟨e, w', m, h, hs⟩
      · exact .inl ⟨w', h⟩
      · exact .inr ⟨e, w', m + 1, h, .later hx hs⟩

theorem StopsAt.lt {k : Sink σ ε} {w w' : Writer σ} {xs : List WVal} {e : ε} {m : Nat}
    (h : StopsAt k w xs e w' m) : m < xs.length := by
  induction h with
  | here _ => simp
  | later _ _ ih => simpa using ih

/-- In terms of the API: the items before the failing one are written with success. -/
theorem StopsAt.history {k : Sink σ ε} {w w' : Writer σ} {xs : List WVal} {e : ε} {m : Nat}
    (h : StopsAt k w xs e w' m) : ∃ os : List Nat, ∃ w₁, ∃ hm : m < xs.length,
      w.history k (xs.take m) = (os.map .ok, w₁) ∧ w₁.write k xs[m] = (.error e, w') := by
  induction h with
  | here hx => exact ⟨[], _, by simp, rfl, hx⟩
  | later hx h ih =>
    rename_i w x xs o w₁ e w' m
    obtain ⟨os, w₂, hm, h1, h2⟩ := ih
    refine ⟨o :: os, w₂, by simpa using hm, ?_, by simpa using h2⟩
    rw [List.take_succ_cons, history_cons, hx, h1]
    rfl

theorem forLoop_yields {k : Sink σ ε} {it : Iter ι} {w w' : Writer σ} {st st' : ι} {xs : List WVal}
    (hy : it.Yields st xs st') (h : w.writeRest k xs = (.ok (), w')) :
    w.forLoop k it (xs.length + 1) st = some (.ok (), w', st') := by
  obtain ⟨mid, ht, hn⟩ := hy
  induction ht generalizing w with
  | nil =>
    rw [Writer.writeRest] at h
    cases h
    simp [Writer.forLoop, hn]
  | cons hx _ ih =>
    rename_i x xs _
    rw [Writer.writeRest] at h
    rw [List.length_cons, Writer.forLoop, hx]
    rcases hw : w.write k x with ⟨e | o, w₁⟩
    · simp [hw] at h
    · simp only [hw] at h ⊢
      exact ih h hn

theorem forLoop_stops {k : Sink σ ε} {it : Iter ι} {w w' : Writer σ} {st mid : ι} {xs : List WVal}
    {e : ε} {m : Nat} (ht : it.Takes st xs mid) (h : StopsAt k w xs e w' m) :
    ∃ st', it.Takes st (xs.take (m + 1)) st' ∧
      w.forLoop k it (m + 1) st = some (.error e, w', st') := by
  induction ht generalizing w m with
  | nil => cases h
  | cons hx _ ih =>
    cases h with
    | here hw =>
      exact ⟨_, Iter.Takes.cons hx (Iter.Takes.nil (it := it)), by rw [Writer.forLoop, hx]; simp [hw]⟩
    | later hw hs =>
      obtain ⟨st', h1, h2⟩ := ih hs
      refine ⟨st', ?_, ?_⟩
      · rw [List.take_succ_cons]; exact .cons hx h1
      · rw [Writer.forLoop, hx]; simp [hw, h2]

theorem forLoop_diverges {k : Sink σ ε} {it : Iter ι} {w : Writer σ} {st mid : ι} {xs : List WVal}
    (ht : it.Takes st xs mid) {os : List Nat} {w' : Writer σ}
    (h : w.history k xs = (os.map .ok, w')) {fuel : Nat} (hf : fuel ≤ xs.length) :
    w.forLoop k it fuel st = none := by
  induction ht generalizing w os fuel with
  | nil =>
    obtain rfl : fuel = 0 := by simpa using hf
    rfl
  | cons hx _ ih =>
    cases fuel with
    | zero => rfl
    | succ fuel =>
      rw [history_cons] at h
      cases os with
      | nil => simp at h
      | cons o os =>
        simp only [Prod.mk.injEq, List.map_cons, List.cons.injEq] at h
        rw [Writer.forLoop, hx]
        rename_i x xs _
        rcases hw : w.write k x with ⟨e | o', w₁⟩
        · simp [hw] at h
        · simp only [hw] at h ⊢
          exact ih (w := w₁) (os := os) (Prod.ext h.1.2 h.2) (by simpa using hf)

theorem forLoop_mono {k : Sink σ ε} {it : Iter ι} {w : Writer σ} {st : ι} {fuel : Nat}
    {r : Except ε Unit × Writer σ × ι} (h : w.forLoop k it fuel st = some r) {fuel' : Nat}
    (hf : fuel ≤ fuel') : w.forLoop k it fuel' st = some r := by
  induction fuel generalizing w st fuel' with
  | zero => simp [Writer.forLoop] at h
  | succ n ih =>
    obtain ⟨m, rfl⟩ : ∃ m, fuel' = m + 1 := ⟨fuel' - 1, by omega⟩
    rw [Writer.forLoop] at h ⊢
    rcases hx : it.next st with ⟨_ | x, st₁⟩
    · simpa [hx] using h
    · simp only [hx] at h ⊢
      rcases hw : w.write k x with ⟨e | o, w₁⟩
      · simpa [hw] using h
      · simp only [hw] at h ⊢
        exact ih h (by omega)

theorem runIter_mono {k : Sink σ ε} {it : Iter ι} {w : Writer σ} {st : ι} {fuel : Nat}
    {r : Except ε Nat × Writer σ × ι} (h : w.runIter k it fuel st = some r) {fuel' : Nat}
    (hf : fuel ≤ fuel') : w.runIter k it fuel' st = some r := by
  unfold Writer.runIter at h ⊢
  rcases hx : it.next st with ⟨_ | x, st₁⟩
  · simp only [hx] at h ⊢
    cases hl : w.forLoop k it fuel st₁ with
    | none => simp [hl] at h
    | some s => rw [forLoop_mono hl hf]; simpa [hl] using h
  · simp only [hx] at h ⊢
    rcases hw : w.write k x with ⟨e | o, w₁⟩
    · simpa [hw] using h
    · simp only [hw] at h ⊢
      cases hl : w₁.forLoop k it fuel st₁ with
      | none => simp [hl] at h
      | some s => rw [forLoop_mono hl hf]; simpa [hl] using h

theorem listIter_takes (xs ys : List WVal) : listIter.Takes (xs ++ ys) xs ys := by
  induction xs with
  | nil => exact .nil
  | cons x r ih => exact .cons rfl ih

theorem listIter_yields (xs : List WVal) : listIter.Yields xs xs [] :=
  ⟨[], by simpa using listIter_takes xs [], rfl⟩

end Crevice
