import Verif.Props.C52_C53
/-
C52, cursors placed past the end of their buffer.
-/
namespace Crevice

variable {tg : Target} {env : ForeignEnv} {l : Layout}

theorem writeStd_same {σ ε : Type} {k : Sink σ ε} {s s' : σ} (h : ∀ bs, k.writeAll s bs = k.writeAll s' bs)
    (n : Nat) (x : StdVal) : Writer.writeStd k ⟨s, n⟩ x = Writer.writeStd k ⟨s', n⟩ x := by
  simp only [Writer.writeStd]
  cases alignOffset n x.alignment with
  | zero => simp only [writeZeros, h]
  | succ m => simp only [writeZeros, h]

/-- C52: a `Cursor<Vec<u8>>` placed at or past the end. Unless nothing at all is written, the gap is
filled with zeros and the values follow it; all writes succeed. -/
theorem C52_cursor_vec_gap (htg : tg.Valid) (henv : env.Lawful tg) (xs : List (Item tg env l))
    (hne : xs ≠ []) (buf : List Byte) {pos : Nat} (hpos : buf.length ≤ pos) (ε : Type) :
    ∃ (os : List Nat) (img : List Byte),
      (Writer.new ([] : List Byte)).history (vecSink ε) (xs.map Item.arg) =
        (os.map .ok, ⟨img, img.length⟩) ∧
      (Writer.new ⟨buf, pos⟩).history (cursorVecSink ε) (xs.map Item.arg) =
        (os.map .ok,
          ⟨⟨buf ++ List.replicate (pos - buf.length) 0 ++ img, pos + img.length⟩, img.length⟩) := by
  have hl : (buf ++ List.replicate (pos - buf.length) (0 : Byte)).length = pos := by
    rw [List.length_append, List.length_replicate]; omega
  obtain ⟨os, img, h1, h2⟩ := C52_cursor_vec htg henv xs (buf ++ List.replicate (pos - buf.length) 0)
    (pos := pos) (by omega) ε
  refine ⟨os, img, h1, ?_⟩
  have hs : ∀ bs, (cursorVecSink ε).writeAll ⟨buf, pos⟩ bs =
      (cursorVecSink ε).writeAll ⟨buf ++ List.replicate (pos - buf.length) 0, pos⟩ bs := by
    intro bs
    have e1 : (CursorState.mk buf pos).padded = buf ++ List.replicate (pos - buf.length) 0 := rfl
    have e2 : (CursorState.mk (buf ++ List.replicate (pos - buf.length) 0) pos).padded =
        buf ++ List.replicate (pos - buf.length) 0 := padded_of_le (by simp only; omega)
    simp only [cursorVecSink, e1, e2]
  have ho : overwrite (buf ++ List.replicate (pos - buf.length) 0) pos img =
      buf ++ List.replicate (pos - buf.length) 0 ++ img := by
    rw [overwrite, List.take_of_length_le (by omega), List.drop_of_length_le (by omega),
      List.append_nil]
  rw [ho] at h2
  rw [← h2]
  cases xs with
  | nil => exact absurd rfl hne
  | cons x r =>
    have := writeStd_same hs 0 x.std
    simp only [List.map_cons, Writer.history, Writer.new, x.arg_std, Writer.write, this]

/-- C52: a `Cursor<&mut [u8]>` placed at or past the end has no room: the writes succeed exactly if
they need none, and then change nothing. -/
theorem C52_cursor_slice_past (htg : tg.Valid) (henv : env.Lawful tg) (xs : List (Item tg env l))
    (buf : List Byte) {pos : Nat} (hpos : buf.length ≤ pos) :
    ((∃ (os : List Nat) (w : Writer CursorState),
        (Writer.new ⟨buf, pos⟩).history cursorSliceSink (xs.map Item.arg) = (os.map .ok, w)) ↔
      (Sizer.new.addAll tg (xs.map Item.impl)).2.len = 0) ∧
    ((Writer.new ⟨buf, pos⟩).history cursorSliceSink (xs.map Item.arg)).2.sink = ⟨buf, pos⟩ := by
  have hsim : Sim cursorSliceSink sliceSink fun c s => c = ⟨buf, pos⟩ ∧ s = ⟨[], []⟩ := by
    rintro s t ⟨rfl, rfl⟩ bs
    cases bs with
    | nil => simp [cursorSliceSink, sliceSink, Nat.min_eq_right hpos]
    | cons b bs => simp [cursorSliceSink, sliceSink, Nat.min_eq_right hpos]
  obtain ⟨r1, r2, r3, r4⟩ := sim_history hsim (xs.map Item.arg) 0 ⟨rfl, rfl⟩
  obtain ⟨f1, -⟩ := C25_fixed_buffer htg henv xs []
  refine ⟨?_, r3⟩
  rw [List.length_nil, Nat.le_zero] at f1
  rw [← f1]
  constructor
  · rintro ⟨os, w, h⟩
    have hh : (Writer.new (CursorState.mk buf pos)).history cursorSliceSink (xs.map Item.arg) = (os.map .ok, w) := h
    simp only [Writer.new] at hh ⊢
    rw [hh] at r1
    exact ⟨os, _, Prod.ext r1.symm rfl⟩
  · rintro ⟨os, w, h⟩
    simp only [Writer.new] at h ⊢
    rw [h] at r1
    exact ⟨os, _, Prod.ext r1 rfl⟩

/-- Two bytes, a gap of three, then the struct `Light`. -/
example (l : Layout) : ∃ x : Item x86_64 Ex.env l, x.ty = Ex.light ∧ ∃ os img,
    (Writer.new ⟨[9, 9], 5⟩).history (cursorVecSink Unit) [x.arg] =
      (List.map Except.ok os, ⟨⟨[9, 9, 0, 0, 0] ++ img, 5 + img.length⟩, img.length⟩) := by
  obtain ⟨i, hi⟩ := Ex.light_resolves x86_64 l
  obtain ⟨x, h1, h2, _⟩ := Item.exists Ex.x86_64_valid Ex.env_lawful hi (Ex.light_hasVal _)
  obtain ⟨os, img, -, h⟩ := C52_cursor_vec_gap Ex.x86_64_valid Ex.env_lawful [x] (by simp) [9, 9]
    (pos := 5) (by decide) Unit
  exact ⟨x, h1, os, img, h⟩

end Crevice
