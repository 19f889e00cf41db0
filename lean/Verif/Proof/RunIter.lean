import Verif.Proof.RunNat
import Verif.Proof.Iter
/-
`write_iter` with an iterator of the client: the function found in the program text in terms of the models.
-/
namespace RustCode
open Crevice

section
variable {S : Setting} (hS : Sane S) (delivered : S.Sink → List Byte)
  (hnext : ∀ w w', S.next w ≠ (.panics, w'))
  (hconv : ∀ w x w', S.next w = (.returns (some x), w') → (viewArg x).panicking = false)
include hS hnext hconv

theorem offset_mono_forLoop {σ ε ι : Type} (k : Crevice.Sink σ ε) (it : Iter ι) : ∀ (n : Nat) (w : Writer σ) (st : ι)
    {r w' st'}, w.forLoop k it n st = some (r, w', st') → w.offset ≤ w'.offset := by
  intro n
  induction n with
  | zero => intro w st r w' st' h; cases h
  | succ n ih =>
    intro w st r w' st' h
    rw [Writer.forLoop] at h
    rcases hn : it.next st with ⟨_ | x, st₁⟩
    · simp only [hn, Option.some.injEq, Prod.mk.injEq] at h
      rw [← h.2.1]; exact Nat.le_refl _
    · simp only [hn] at h
      have hm := offset_mono_write k w x
      rcases hw : w.write k x with ⟨e | o, w₁⟩
      · simp only [hw, Option.some.injEq, Prod.mk.injEq] at h
        rw [hw] at hm
        rw [← h.2.1]; exact hm
      · simp only [hw] at h hm
        exact Nat.le_trans hm (ih _ _ h)

/-- One item. -/
theorem item_nat {x : Arg S.Conv S.Std} (hp : (viewArg x).panicking = false) {u : WriterU S.bits S.Sink}
    {w : Writer S.Sink} (h : AgreeMod u w)
    (hfin : (w.write (callerSink S delivered) (viewArg x).plain).2.offset < 2 ^ S.bits) :
    (writeArg (callerSink S delivered) u x).1 =
        some ((w.write (callerSink S delivered) (viewArg x).plain).1.map (BitVec.ofNat _)) ∧
      AgreeMod (writeArg (callerSink S delivered) u x).2 (w.write (callerSink S delivered) (viewArg x).plain).2 := by
  have hf := fits_written hS x
  rw [UVal.written, hp, if_neg (by simp)] at hf
  rw [writeArg_plain _ x u hp]
  exact write_fits (mode S) _ _ hf h hfin

theorem nextArgs_nat (n : Nat) : ∀ {u : WriterU S.bits S.Sink} {w : Writer S.Sink} {world : S.World}, AgreeMod u w →
    ∀ {r w' world'}, w.forLoop (callerSink S delivered) (clientIter S) n world = some (r, w', world') →
      w'.offset < 2 ^ S.bits →
      ∃ u', nextArgs (callerSink S delivered) n u world = some (some r, u', world') ∧ AgreeMod u' w' := by
  induction n with
  | zero => intro u w world _ r w' world' h; cases h
  | succ n ih =>
    intro u w world hag r w' world' h hlt
    rw [Writer.forLoop] at h
    rw [nextArgs]
    rcases hn : S.next world with ⟨(_ | x) | _, world₁⟩
    · simp only [clientIter, hn, Option.some.injEq, Prod.mk.injEq] at h
      obtain ⟨rfl, rfl, rfl⟩ := h
      exact ⟨u, rfl, hag⟩
    · have hi : (clientIter S).next world = (some (viewArg x).plain, world₁) := by simp [clientIter, hn]
      simp only [hi] at h
      have hm : (w.write (callerSink S delivered) (viewArg x).plain).2.offset < 2 ^ S.bits := by
        rcases hw : w.write (callerSink S delivered) (viewArg x).plain with ⟨e | o, w₁⟩
        · simp only [hw, Option.some.injEq, Prod.mk.injEq] at h
          rw [h.2.1]; exact hlt
        · simp only [hw] at h
          exact Nat.lt_of_le_of_lt (offset_mono_forLoop hS hnext hconv _ _ _ _ _ h) hlt
      obtain ⟨h1, h2⟩ := item_nat hS delivered hnext hconv (hconv _ _ _ hn) hag hm
      rcases hw : w.write (callerSink S delivered) (viewArg x).plain with ⟨e | o, w₁⟩ <;>
        rcases hu : writeArg (callerSink S delivered) u x with ⟨c, u₁⟩ <;>
        rw [hw, hu] at h1 h2 <;> dsimp only [Except.map] at h1 h2 <;> subst h1 <;> simp only [hw] at h
      · simp only [Option.some.injEq, Prod.mk.injEq] at h
        obtain ⟨rfl, rfl, rfl⟩ := h
        exact ⟨u₁, by simp only [hu], h2⟩
      · simp only [hu]
        exact ih h2 h hlt
    · exact absurd hn (hnext _ _)

/-- `write_iter` when nothing overflows and nothing panics. -/
theorem writeNext_nat {u : WriterU S.bits S.Sink} {w : Writer S.Sink} {world : S.World} (hag : AgreeMod u w) {n : Nat}
    {r w' world'} (h : w.runIter (callerSink S delivered) (clientIter S) n world = some (r, w', world'))
    (hlt : w'.offset < 2 ^ S.bits) :
    ∃ u', writeNext (callerSink S delivered) n u world = some (some (r.map (BitVec.ofNat _)), u', world') ∧
      AgreeMod u' w' := by
  rw [Writer.runIter] at h
  rw [writeNext]
  rcases hn : S.next world with ⟨(_ | x) | _, world₁⟩
  · simp only [clientIter, hn] at h
    rcases hf : Writer.forLoop (callerSink S delivered) (clientIter S) n w world₁ with _ | ⟨e | ⟨⟩, w₁, st₁⟩ <;>
      simp only [clientIter] at hf <;> simp only [hf] at h
    · cases h
    · simp only [Option.some.injEq, Prod.mk.injEq] at h
      obtain ⟨rfl, rfl, rfl⟩ := h
      obtain ⟨u', h1, h2⟩ := nextArgs_nat hS delivered hnext hconv n hag (by simpa only [clientIter] using hf) hlt
      exact ⟨u', by simp [h1, Except.map], h2⟩
    · simp only [Option.some.injEq, Prod.mk.injEq] at h
      obtain ⟨rfl, rfl, rfl⟩ := h
      obtain ⟨u', h1, h2⟩ := nextArgs_nat hS delivered hnext hconv n hag (by simpa only [clientIter] using hf) hlt
      exact ⟨u', by simp [h1, Except.map, hag.2], h2⟩
  · have hi : (clientIter S).next world = (some (viewArg x).plain, world₁) := by simp [clientIter, hn]
    simp only [hi] at h
    have hm : (w.write (callerSink S delivered) (viewArg x).plain).2.offset < 2 ^ S.bits := by
      rcases hw : w.write (callerSink S delivered) (viewArg x).plain with ⟨e | o, w₁⟩
      · simp only [hw, Option.some.injEq, Prod.mk.injEq] at h
        rw [h.2.1]; exact hlt
      · simp only [hw] at h
        rcases hf : Writer.forLoop (callerSink S delivered) (clientIter S) n w₁ world₁ with _ | ⟨e | ⟨⟩, w₂, st₁⟩ <;>
          simp only [hf] at h
        · cases h
        · simp only [Option.some.injEq, Prod.mk.injEq] at h
          obtain ⟨rfl, rfl, rfl⟩ := h
          exact Nat.lt_of_le_of_lt (offset_mono_forLoop hS hnext hconv _ _ _ _ _ hf) hlt
        · simp only [Option.some.injEq, Prod.mk.injEq] at h
          obtain ⟨rfl, rfl, rfl⟩ := h
          exact Nat.lt_of_le_of_lt (offset_mono_forLoop hS hnext hconv _ _ _ _ _ hf) hlt
    obtain ⟨h1, h2⟩ := item_nat hS delivered hnext hconv (hconv _ _ _ hn) hag hm
    rcases hw : w.write (callerSink S delivered) (viewArg x).plain with ⟨e | o, w₁⟩ <;>
      rcases hu : writeArg (callerSink S delivered) u x with ⟨c, u₁⟩ <;>
      rw [hw, hu] at h1 h2 <;> dsimp only [Except.map] at h1 h2 <;> subst h1 <;> simp only [hw] at h
    · simp only [Option.some.injEq, Prod.mk.injEq] at h
      obtain ⟨rfl, rfl, rfl⟩ := h
      exact ⟨u₁, by simp only [hu, Except.map], h2⟩
    · simp only [hu]
      rcases hf : Writer.forLoop (callerSink S delivered) (clientIter S) n w₁ world₁ with _ | ⟨e | ⟨⟩, w₂, st₁⟩ <;>
        simp only [hf] at h
      · cases h
      · simp only [Option.some.injEq, Prod.mk.injEq] at h
        obtain ⟨rfl, rfl, rfl⟩ := h
        obtain ⟨u', h1, h3⟩ := nextArgs_nat hS delivered hnext hconv n h2 hf hlt
        exact ⟨u', by simp [h1, Except.map], h3⟩
      · simp only [Option.some.injEq, Prod.mk.injEq] at h
        obtain ⟨rfl, rfl, rfl⟩ := h
        obtain ⟨u', h1, h3⟩ := nextArgs_nat hS delivered hnext hconv n h2 hf hlt
        exact ⟨u', by simp [h1, Except.map], h3⟩
  · exact absurd hn (hnext _ _)

end

section
variable {S : Setting} {σ : Type} (k : Crevice.Sink σ (Option S.Err))

theorem nextArgs_unwinds {xs : List (Arg S.Conv S.Std)} {world world₁ world₂ : S.World} (ht : TakesArgs S world xs world₁)
    (hn : S.next world₁ = (.panics, world₂)) : ∀ {u u' : WriterU S.bits σ}, writeArgs k u xs = (some (.ok ()), u') →
    ∀ n, xs.length < n → nextArgs k n u world = some (none, u', world₂) := by
  induction ht with
  | nil w =>
    intro u u' h n hn'
    obtain ⟨m, rfl⟩ : ∃ m, n = m + 1 := ⟨n - 1, by simp at hn'; omega⟩
    rw [writeArgs] at h; cases h
    rw [nextArgs, hn]
  | cons h r ih =>
    intro u u' hw n hn'
    obtain ⟨m, rfl⟩ : ∃ m, n = m + 1 := ⟨n - 1, by simp at hn'; omega⟩
    rename_i x xs
    rw [writeArgs] at hw
    rcases hx : writeArg k u x with ⟨_ | e | o, u₁⟩
    · simp [hx] at hw
    · simp [hx] at hw
    · simp only [hx] at hw
      rw [nextArgs, h]
      simp only [hx]
      exact ih hn hw m (by simp at hn'; omega)

/-- `write_iter` when `next` panics after some items, which were written. -/
theorem writeNext_unwinds {xs : List (Arg S.Conv S.Std)} {world world₁ world₂ : S.World} (ht : TakesArgs S world xs world₁)
    (hn : S.next world₁ = (.panics, world₂)) {u u' : WriterU S.bits σ} (hw : writeArgs k u xs = (some (.ok ()), u'))
    (n : Nat) (hlt : xs.length < n) : writeNext k n u world = some (none, u', world₂) := by
  cases ht with
  | nil =>
    rw [writeArgs] at hw; cases hw
    rw [writeNext, hn]
  | cons h r =>
    rename_i x xs
    rw [writeArgs] at hw
    rcases hx : writeArg k u x with ⟨_ | e | o, u₁⟩
    · simp [hx] at hw
    · simp [hx] at hw
    · simp only [hx] at hw
      rw [writeNext, h]
      simp only [hx, nextArgs_unwinds k r hn hw n (by simp at hlt; omega)]
      rfl

/-- `write_iter` of an iterator without end never ends if writing never fails. -/
theorem nextArgs_endless (hn : ∀ w, ∃ x w', S.next w = (.returns (some x), w'))
    (hw : ∀ w x w' u, S.next w = (.returns (some x), w') → ∃ o, (writeArg k u x).1 = some (.ok o)) :
    ∀ (n : Nat) (u : WriterU S.bits σ) (world : S.World), nextArgs k n u world = none := by
  intro n
  induction n with
  | zero => intro u world; rfl
  | succ n ih =>
    intro u world
    obtain ⟨x, w', h⟩ := hn world
    obtain ⟨o, ho⟩ := hw _ _ _ u h
    rw [nextArgs, h]
    rcases hx : writeArg k u x with ⟨c, u₁⟩
    rw [hx] at ho
    dsimp only at ho
    subst ho
    simp only [hx]
    exact ih _ _

theorem writeNext_endless (hn : ∀ w, ∃ x w', S.next w = (.returns (some x), w'))
    (hw : ∀ w x w' u, S.next w = (.returns (some x), w') → ∃ o, (writeArg k u x).1 = some (.ok o))
    (n : Nat) (u : WriterU S.bits σ) (world : S.World) : writeNext k n u world = none := by
  obtain ⟨x, w', h⟩ := hn world
  obtain ⟨o, ho⟩ := hw _ _ _ u h
  rw [writeNext, h]
  rcases hx : writeArg k u x with ⟨c, u₁⟩
  rw [hx] at ho
  dsimp only at ho
  subst ho
  simp only [hx, nextArgs_endless k hn hw]
  rfl

end

end RustCode
