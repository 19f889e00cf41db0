import Verif.Model.Cursor
import Verif.Spec.Sessions
import Verif.Proof.Overwrite
import Verif.Props.C24_C39
/-
Lemmas for C52 and C53.
-/
namespace Crevice

theorem cursorSliceSink_lawful : cursorSliceSink.Lawful := by
  have key : ∀ (s : CursorState) (bs : List Byte), ∃ p, p <+: bs ∧
      (cursorSliceSink.writeAll s bs).2.buf.take (cursorSliceSink.writeAll s bs).2.pos =
        s.buf.take s.pos ++ p ∧ ((cursorSliceSink.writeAll s bs).1 = .ok () → p = bs) := by
    intro s bs
    refine ⟨bs.take (min bs.length (s.buf.length - min s.pos s.buf.length)), List.take_prefix _ _, ?_, ?_⟩
    · have e : (cursorSliceSink.writeAll s bs).2 =
          { buf := s.buf.take (min s.pos s.buf.length) ++
              bs.take (min bs.length (s.buf.length - min s.pos s.buf.length)) ++
              s.buf.drop (min s.pos s.buf.length + min bs.length (s.buf.length - min s.pos s.buf.length))
            pos := s.pos + min bs.length (s.buf.length - min s.pos s.buf.length) } := by
        simp only [cursorSliceSink]
        split <;> rfl
      rw [e]
      simp only
      by_cases hp : s.pos ≤ s.buf.length
      · rw [Nat.min_eq_left hp]
        rw [List.take_left']
        simp [Nat.min_eq_left hp]
      · have h1 : min s.pos s.buf.length = s.buf.length := Nat.min_eq_right (by omega)
        simp only [h1, Nat.sub_self, Nat.min_zero, List.take_zero, List.append_nil, Nat.add_zero,
          List.drop_length, List.take_length]
    · intro h
      simp only [cursorSliceSink] at h
      split at h
      · simp at h
      · rw [List.take_of_length_le (by omega)]
  refine ⟨?_, ?_⟩
  · intro s bs s' h
    obtain ⟨p, -, h2, h3⟩ := key s bs
    rw [h] at h2 h3
    obtain rfl := h3 rfl
    exact h2
  · intro s bs e s' h
    obtain ⟨p, h1, h2, -⟩ := key s bs
    rw [h] at h2
    exact ⟨p, h1, h2⟩

theorem padded_length_ge (s : CursorState) : s.pos ≤ s.padded.length := by
  simp [CursorState.padded]; omega

theorem padded_of_le {s : CursorState} (h : s.pos ≤ s.buf.length) : s.padded = s.buf := by
  simp [CursorState.padded, Nat.sub_eq_zero_of_le h]

theorem cursorVecSink_lawful (ε : Type) : (cursorVecSink ε).Lawful := by
  refine ⟨?_, by intro s bs e s' h; simp [cursorVecSink] at h⟩
  intro s bs s' h
  simp only [cursorVecSink, Prod.mk.injEq, true_and] at h
  subst h
  have hl := padded_length_ge s
  simp only [cursorVecSink]
  rw [padded_of_le]
  · rw [List.take_left']
    simp [Nat.min_eq_left hl]
  · simp [Nat.min_eq_left hl]

theorem cursorVecSink_infallible (ε : Type) : (cursorVecSink ε).Infallible := fun _ _ => ⟨_, rfl⟩

theorem byRef_lawful {σ ε : Type} {k : Sink σ ε} (hk : k.Lawful) : k.byRef.Lawful := ⟨hk.ok, hk.err⟩

/-! ### Writers on related sinks -/

section
variable {σ τ ε : Type} {k : Sink σ ε} {k' : Sink τ ε} {R : σ → τ → Prop}

/-- Two sinks that do the same as far as `R` can tell. -/
def Sim (k : Sink σ ε) (k' : Sink τ ε) (R : σ → τ → Prop) : Prop :=
  ∀ s t, R s t → ∀ bs, (k.writeAll s bs).1 = (k'.writeAll t bs).1 ∧
    R (k.writeAll s bs).2 (k'.writeAll t bs).2

theorem sim_zeros (h : Sim k k' R) (n : Nat) {s : σ} {t : τ} (hr : R s t) :
    (writeZeros k n s).1 = (writeZeros k' n t).1 ∧ R (writeZeros k n s).2 (writeZeros k' n t).2 := by
  induction n generalizing s t with
  | zero => exact ⟨rfl, hr⟩
  | succ n ih =>
    obtain ⟨h1, h2⟩ := h s t hr [0]
    simp only [writeZeros]
    rcases ha : k.writeAll s [0] with ⟨e | u, s'⟩ <;> rcases hb : k'.writeAll t [0] with ⟨e' | u', t'⟩ <;>
      simp only [ha, hb] at h1 h2 ⊢
    · exact ⟨h1, h2⟩
    · cases h1
    · cases h1
    · exact ih h2

theorem sim_writeStd (h : Sim k k' R) (x : StdVal) {s : σ} {t : τ} (n : Nat) (hr : R s t) :
    (Writer.writeStd k ⟨s, n⟩ x).1 = (Writer.writeStd k' ⟨t, n⟩ x).1 ∧
    (Writer.writeStd k ⟨s, n⟩ x).2.offset = (Writer.writeStd k' ⟨t, n⟩ x).2.offset ∧
    R (Writer.writeStd k ⟨s, n⟩ x).2.sink (Writer.writeStd k' ⟨t, n⟩ x).2.sink := by
  obtain ⟨h1, h2⟩ := sim_zeros h (alignOffset n x.alignment) hr
  simp only [Writer.writeStd]
  rcases ha : writeZeros k (alignOffset n x.alignment) s with ⟨e | u, s'⟩ <;>
    rcases hb : writeZeros k' (alignOffset n x.alignment) t with ⟨e' | u', t'⟩ <;>
    simp only [ha, hb] at h1 h2 ⊢
  · cases h1
    exact ⟨rfl, trivial, h2⟩
  · cases h1
  · cases h1
  · obtain ⟨h3, h4⟩ := h s' t' h2 x.bytes
    rcases hc : k.writeAll s' x.bytes with ⟨e | u, s''⟩ <;>
      rcases hd : k'.writeAll t' x.bytes with ⟨e' | u', t''⟩ <;>
      simp only [hc, hd] at h3 h4 ⊢
    · cases h3
      exact ⟨rfl, trivial, h4⟩
    · cases h3
    · cases h3
    · exact ⟨trivial, trivial, h4⟩

theorem sim_seq (h : Sim k k' R) (xs : List StdVal) {s : σ} {t : τ} (n : Nat) (hr : R s t) :
    (seqStd k ⟨s, n⟩ xs).1 = (seqStd k' ⟨t, n⟩ xs).1 ∧
    (seqStd k ⟨s, n⟩ xs).2.offset = (seqStd k' ⟨t, n⟩ xs).2.offset ∧
    R (seqStd k ⟨s, n⟩ xs).2.sink (seqStd k' ⟨t, n⟩ xs).2.sink := by
  induction xs generalizing s t n with
  | nil => exact ⟨rfl, rfl, hr⟩
  | cons x r ih =>
    obtain ⟨h1, h2, h3⟩ := sim_writeStd h x n hr
    simp only [seqStd]
    rcases ha : Writer.writeStd k ⟨s, n⟩ x with ⟨e | u, s', m⟩ <;>
      rcases hb : Writer.writeStd k' ⟨t, n⟩ x with ⟨e' | u', t', m'⟩ <;>
      simp only [ha, hb] at h1 h2 h3 ⊢
    · cases h1
      exact ⟨rfl, h2, h3⟩
    · cases h1
    · cases h1
    · subst h2
      exact ih m h3

theorem sim_write (h : Sim k k' R) (v : WVal) {s : σ} {t : τ} (n : Nat) (hr : R s t) :
    (Writer.write k ⟨s, n⟩ v).1 = (Writer.write k' ⟨t, n⟩ v).1 ∧
    (Writer.write k ⟨s, n⟩ v).2.offset = (Writer.write k' ⟨t, n⟩ v).2.offset ∧
    R (Writer.write k ⟨s, n⟩ v).2.sink (Writer.write k' ⟨t, n⟩ v).2.sink := by
  obtain ⟨h1, h2, h3⟩ := sim_seq h v.leaves n hr
  simp only [write_eq_seq]
  rcases ha : seqStd k ⟨s, n⟩ v.leaves with ⟨e | u, s', m⟩ <;>
    rcases hb : seqStd k' ⟨t, n⟩ v.leaves with ⟨e' | u', t', m'⟩ <;>
    simp only [ha, hb] at h1 h2 h3 ⊢
  · cases h1
    exact ⟨rfl, h2, h3⟩
  · cases h1
  · cases h1
  · exact ⟨trivial, h2, h3⟩

theorem sim_history (h : Sim k k' R) (vs : List WVal) {s : σ} {t : τ} (n : Nat) (hr : R s t) :
    (Writer.history k ⟨s, n⟩ vs).1 = (Writer.history k' ⟨t, n⟩ vs).1 ∧
    (Writer.history k ⟨s, n⟩ vs).2.offset = (Writer.history k' ⟨t, n⟩ vs).2.offset ∧
    R (Writer.history k ⟨s, n⟩ vs).2.sink (Writer.history k' ⟨t, n⟩ vs).2.sink := by
  induction vs generalizing s t n with
  | nil => exact ⟨rfl, rfl, hr⟩
  | cons v r ih =>
    obtain ⟨h1, h2, h3⟩ := sim_write h v n hr
    simp only [Writer.history]
    rcases ha : Writer.write k ⟨s, n⟩ v with ⟨a, s', m⟩
    rcases hb : Writer.write k' ⟨t, n⟩ v with ⟨b, t', m'⟩
    simp only [ha, hb] at h1 h2 h3 ⊢
    subst h2 h1
    obtain ⟨i1, i2, i3⟩ := ih m h3
    exact ⟨by rw [i1], i2, i3⟩

end

/-- A cursor over a slice is the slice from the position on. -/
theorem sim_cursorSlice (pre : List Byte) : Sim cursorSliceSink sliceSink fun s t =>
    s.buf = pre ++ t.filled ++ t.rest ∧ s.pos = pre.length + t.filled.length := by
  rintro ⟨buf, pos⟩ ⟨filled, rest⟩ ⟨h1, h2⟩ bs
  simp only at h1 h2
  subst h1 h2
  have hs : min (pre.length + filled.length) (pre ++ filled ++ rest).length =
      pre.length + filled.length := by simp
  have hd : (pre ++ filled ++ rest).length - (pre.length + filled.length) = rest.length := by simp; try omega
  simp only [cursorSliceSink, sliceSink, hs, hd]
  have hb : (pre ++ filled ++ rest).take (pre.length + filled.length) = pre ++ filled := by
    rw [List.take_left' (by simp)]
  have hc : (pre ++ filled ++ rest).drop (pre.length + filled.length + min bs.length rest.length) =
      rest.drop (min bs.length rest.length) := by
    rw [← List.drop_drop, List.drop_left' (by simp)]
  rw [hb, hc]
  split <;> simp [Nat.add_assoc]

/-- A cursor over a vector appends to what is before the position, and takes that much of what is
after it away. -/
theorem sim_cursorVec (ε : Type) (pre post : List Byte) : Sim (cursorVecSink ε) (vecSink ε) fun s t =>
    s.buf = pre ++ t ++ post.drop t.length ∧ s.pos = pre.length + t.length := by
  rintro ⟨buf, pos⟩ t ⟨h1, h2⟩ bs
  simp only at h1 h2
  refine ⟨rfl, ?_, by simp [cursorVecSink, vecSink, h2, Nat.add_assoc]⟩
  have hl : pos ≤ buf.length := by rw [h1, h2]; simp
  simp only [cursorVecSink, vecSink]
  rw [padded_of_le (by exact hl)]
  simp only [h1]
  rw [List.take_left' (by simp [h2]), ← List.drop_drop, List.drop_left' (by simp [h2])]
  simp [List.drop_drop]

/-! ### Shifting -/

theorem places_shift {d : Nat} (xs : List StdVal) (h : ∀ x ∈ xs, x.alignment = 0 ∨ x.alignment ∣ d)
    (off : Nat) : places (off + d) xs = (places off xs).map (· + d) := by
  induction xs generalizing off with
  | nil => rfl
  | cons x r ih =>
    simp only [places, List.map_cons]
    rw [nextOffset_shift (h x (by simp)), ← ih (fun y hy => h y (by simp [hy]))]
    congr 2
    omega

theorem image_shift {d : Nat} (xs : List StdVal) (h : ∀ x ∈ xs, x.alignment = 0 ∨ x.alignment ∣ d)
    (off : Nat) : image (off + d) xs = image off xs := by
  induction xs generalizing off with
  | nil => rfl
  | cons x r ih =>
    simp only [image]
    rw [nextOffset_shift (h x (by simp)), Nat.add_sub_add_right]
    rw [← ih (fun y hy => h y (by simp [hy])) (nextOffset off x.alignment + x.bytes.length)]
    congr 2
    omega

theorem history_append {σ ε : Type} (k : Sink σ ε) (w : Writer σ) (xs ys : List WVal) :
    w.history k (xs ++ ys) =
      ((w.history k xs).1 ++ ((w.history k xs).2.history k ys).1, ((w.history k xs).2.history k ys).2) := by
  induction xs generalizing w with
  | nil => rfl
  | cons x r ih => simp only [List.cons_append, history_cons, ih]

end Crevice
