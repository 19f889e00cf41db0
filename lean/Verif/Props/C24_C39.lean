import Verif.Props.C17_C20
/-
C24 sink errors, C25 fixed buffers, C34 sizes of slices, C39 independence of the sink.
-/
namespace Crevice

/-! ## C24 -/

theorem runCalls_error_stops {σ ε : Type} {k : Sink σ ε} {s s' : σ} {cs : List (List Byte)} {e : ε}
    (h : runCalls k s cs = (.error e, s')) : ∃ s₀ bs, bs ∈ cs ∧ k.writeAll s₀ bs = (.error e, s') := by
  induction cs generalizing s with
  | nil => simp [runCalls] at h
  | cons c r ih =>
    simp only [runCalls] at h
    rcases hc : k.writeAll s c with ⟨e' | u, s₁⟩
    · rw [hc] at h
      simp only [Prod.mk.injEq, Except.error.injEq] at h
      obtain ⟨rfl, rfl⟩ := h
      exact ⟨s, c, by simp, hc⟩
    · rw [hc] at h
      obtain ⟨s₀, bs, hm, hb⟩ := ih h
      exact ⟨s₀, bs, by simp [hm], hb⟩

/-- C24: when a write fails, the bytes it delivered are a prefix of those that the same write would
deliver to a sink that does not fail (here a `Vec<u8>`), `len()` has advanced by at most as much,
the error is the one the sink returned, and the sink was not used after its error. -/
theorem C24_error {σ ε : Type} {k : Sink σ ε} (hk : k.Lawful) {w w' : Writer σ} {v : WVal}
    (hwf : v.Wf) {e : ε} (h : w.write k v = (.error e, w')) :
    (∃ (p full : List Byte) (off : Nat) (w₂ : Writer (List Byte)),
      (⟨[], w.len⟩ : Writer (List Byte)).write (vecSink Unit) v = (.ok off, w₂) ∧ w₂.sink = full ∧
      p <+: full ∧ k.delivered w'.sink = k.delivered w.sink ++ p ∧
      w.len ≤ w'.len ∧ w'.len ≤ w.len + p.length) ∧
    (∃ s₀ bs, k.writeAll s₀ bs = (.error e, w'.sink)) := by
  refine ⟨?_, ?_⟩
  · obtain ⟨p, h1, h2, h3, h4⟩ := write_error hk hwf h
    obtain ⟨w₂, e1, _⟩ := write_infallible (vecSink_infallible Unit)
      (⟨[], w.len⟩ : Writer (List Byte)) hwf
    obtain ⟨_, _, e3⟩ := write_ok (vecSink_lawful Unit) hwf e1
    have e4 : w₂.sink = image w.len v.leaves := by simpa [vecSink] using e3
    exact ⟨p, _, _, w₂, e1, e4, h1, h2, h3, h4⟩
  · rw [write_eq_seq] at h
    obtain ⟨t1, t2, _⟩ := seqStd_trace k w v.leaves hwf
    rcases hs : seqStd k w v.leaves with ⟨e' | u, w₁⟩
    · rw [hs] at h t1 t2
      simp only [Prod.mk.injEq, Except.error.injEq] at h
      obtain ⟨rfl, rfl⟩ := h
      have hr : runCalls k w.sink (calls w.offset v.leaves) = (.error e', w₁.sink) :=
        Prod.ext t1.symm t2.symm
      obtain ⟨s₀, bs, _, hb⟩ := runCalls_error_stops hr
      exact ⟨s₀, bs, hb⟩
    · simp [hs] at h

/-- C24: over any history, errors included, `len()` never exceeds the number of bytes delivered;
they are equal as long as there was no error. -/
theorem C24_len {σ ε : Type} {k : Sink σ ε} (hk : k.Lawful) {w : Writer σ} {s : σ} {vs : List WVal}
    (hwf : ∀ v ∈ vs, v.Wf)
    (hw : (k.delivered s).length + w.len ≤ (k.delivered w.sink).length) :
    (k.delivered s).length + (w.history k vs).2.len ≤ (k.delivered (w.history k vs).2.sink).length ∧
    ((∀ r ∈ (w.history k vs).1, ∃ o, r = .ok o) →
      (k.delivered s).length + w.len = (k.delivered w.sink).length →
      (k.delivered s).length + (w.history k vs).2.len =
        (k.delivered (w.history k vs).2.sink).length) := by
  induction vs generalizing w with
  | nil => exact ⟨hw, fun _ h => h⟩
  | cons v r ih =>
    rw [history_cons]
    rcases hwv : w.write k v with ⟨e | o, w₁⟩
    · obtain ⟨p, _, h2, _, h4⟩ := write_error hk (hwf v (by simp)) hwv
      have : (k.delivered s).length + w₁.len ≤ (k.delivered w₁.sink).length := by
        rw [h2, List.length_append]
        have : w₁.len ≤ w.len + p.length := h4
        omega
      obtain ⟨a, _⟩ := ih (w := w₁) (fun x hx => hwf x (by simp [hx])) this
      refine ⟨a, fun hall => ?_⟩
      obtain ⟨o, ho⟩ := hall (.error e) (by simp)
      cases ho
    · obtain ⟨_, h2, h3⟩ := write_ok hk (hwf v (by simp)) hwv
      have hl := image_length w.offset v.leaves
      have hlen : w₁.len = w.len + (image w.offset v.leaves).length := by
        rw [Writer.len, h2, ← hl]; rfl
      have hd : (k.delivered w₁.sink).length =
          (k.delivered w.sink).length + (image w.offset v.leaves).length := by
        rw [h3, List.length_append]
      obtain ⟨a, b⟩ := ih (w := w₁) (fun x hx => hwf x (by simp [hx])) (by omega)
      exact ⟨a, fun hall heq => b (fun x hx => hall x (by simp [hx])) (by omega)⟩

/-- C24, for a fresh Writer. -/
theorem C24_len_fresh {σ ε : Type} {k : Sink σ ε} (hk : k.Lawful) (s : σ) {vs : List WVal}
    (hwf : ∀ v ∈ vs, v.Wf) {rs : List (Except ε Nat)} {w' : Writer σ}
    (h : (Writer.new s).history k vs = (rs, w')) :
    (k.delivered s).length + w'.len ≤ (k.delivered w'.sink).length ∧
    ((∀ r ∈ rs, ∃ o, r = .ok o) →
      (k.delivered s).length + w'.len = (k.delivered w'.sink).length) := by
  have := C24_len hk (w := Writer.new s) (s := s) hwf (by simp [Writer.new, Writer.len])
  rw [h] at this
  exact ⟨this.1, fun hall => this.2 hall (by simp [Writer.new, Writer.len])⟩

/-- C24: a failed write is not the end: what is delivered after it, by a write that succeeds, is
still padding and the complete bytes of the value (`C17_write_std` holds in every state). But after
an error inside the padding the Writer's idea of its position is behind the sink's: retrying
returns offset 16, while the value stands at 20 in the sink, where it is not aligned. -/
theorem C24_retry_misaligns :
    ∃ (s : Scheduled Unit) (x y : StdVal) (w' : Writer (Scheduled Unit)),
      (Writer.new s).history (scheduledSink ()) [.std x, .std y, .std y] =
        ([.ok 0, .error (), .ok 16], w') ∧
      y.alignment = 16 ∧ w'.len = 20 ∧ w'.sink.received.length = 24 ∧
      SliceAt w'.sink.received 20 y.bytes ∧ ¬ SliceAt w'.sink.received 16 y.bytes ∧
      ¬ y.alignment ∣ 20 := by
  refine ⟨⟨[], [.accept 4, .accept 1, .accept 1, .accept 1, .accept 1, .fail ()]⟩,
    ⟨4, 4, [1, 1, 1, 1]⟩, ⟨16, 4, [2, 2, 2, 2]⟩, _, rfl, rfl, rfl, rfl, ?_, ?_, ?_⟩
  · unfold SliceAt; rfl
  · unfold SliceAt; decide
  · decide

/-! ## C25 -/

theorem runCalls_slice (cs : List (List Byte)) (s : SliceState) :
    ((runCalls sliceSink s cs).1 = .ok () ↔ cs.flatten.length ≤ s.rest.length) ∧
    ((runCalls sliceSink s cs).1 = .ok () → (runCalls sliceSink s cs).2 =
      ⟨s.filled ++ cs.flatten, s.rest.drop cs.flatten.length⟩) ∧
    ((runCalls sliceSink s cs).2.filled.length + (runCalls sliceSink s cs).2.rest.length =
      s.filled.length + s.rest.length) := by
  induction cs generalizing s with
  | nil => simp [runCalls]
  | cons c r ih =>
    simp only [runCalls, sliceSink]
    by_cases hlt : s.rest.length < c.length
    · rw [Nat.min_eq_right (by omega), if_pos hlt]
      simp only [List.flatten_cons, List.length_append]
      refine ⟨?_, ?_, ?_⟩
      · constructor
        · intro h; cases h
        · intro h; omega
      · intro h; cases h
      · simp; omega
    · rw [Nat.min_eq_left (by omega), if_neg (by omega)]
      have := ih ⟨s.filled ++ c.take c.length, s.rest.drop c.length⟩
      simp only [List.take_length, List.length_drop] at this
      simp only [List.take_length]
      obtain ⟨i1, i2, i3⟩ := this
      refine ⟨?_, ?_, ?_⟩
      · refine Iff.trans i1 ?_
        simp only [List.flatten_cons, List.length_append]
        omega
      · intro h
        refine (i2 h).trans ?_
        simp [List.append_assoc]
      · refine i3.trans ?_
        simp; omega

/-- C25 for arbitrary arguments: they all fit into a buffer exactly when it has room for the layout
of their parts; then the front of the buffer is filled and the rest is untouched. -/
theorem C25_general {vs : List WVal} (hwf : ∀ v ∈ vs, v.Wf) {offs : List Nat} {total : Nat}
    (hp : Placed 0 ((leavesList vs).map fun x => (x.alignment, x.size)) offs total)
    (buf : List Byte) :
    ((∃ (os : List Nat) (w' : Writer SliceState),
        (Writer.new ⟨[], buf⟩).history sliceSink vs = (os.map .ok, w')) ↔ total ≤ buf.length) ∧
    ∀ (os : List Nat) (w' : Writer SliceState),
      (Writer.new ⟨[], buf⟩).history sliceSink vs = (os.map .ok, w') →
      w'.len = total ∧ ∃ img, img.length = total ∧
        (Writer.new ([] : List Byte)).history (vecSink Unit) vs = (os.map .ok, ⟨img, total⟩) ∧
        w'.sink.buffer = img ++ buf.drop total := by
  have hwl := wf_leaves hwf
  have hsz : ((leavesList vs).map fun x => (x.alignment, x.bytes.length)) =
      (leavesList vs).map fun x => (x.alignment, x.size) :=
    List.map_congr_left fun x hx => by rw [hwl x hx]
  have hpp := placed_places 0 (leavesList vs)
  rw [hsz] at hpp
  obtain ⟨_, htot⟩ := hp.unique hpp
  have himg : (image 0 (leavesList vs)).length = total := by
    have := image_length 0 (leavesList vs)
    omega
  have htr := seqStd_trace sliceSink (Writer.new ⟨[], buf⟩) (leavesList vs) hwl
  obtain ⟨t1, t2, t3⟩ := htr
  obtain ⟨r1, r2, _⟩ := runCalls_slice (calls 0 (leavesList vs)) ⟨[], buf⟩
  rw [calls_flatten, himg] at r1 r2
  refine ⟨?_, ?_⟩
  · constructor
    · rintro ⟨os, w', h⟩
      have := (history_ok_iff_seq _ _ _ _).1 ⟨os, h⟩
      rw [this] at t1
      exact r1.1 t1.symm
    · intro hle
      have h1 := r1.2 hle
      have h2 : (seqStd sliceSink (Writer.new ⟨[], buf⟩) (leavesList vs)).1 = .ok () := t1.trans h1
      have h3 : seqStd sliceSink (Writer.new ⟨[], buf⟩) (leavesList vs) =
          (.ok (), (seqStd sliceSink (Writer.new ⟨[], buf⟩) (leavesList vs)).2) := Prod.ext h2 rfl
      obtain ⟨os, hos⟩ := (history_ok_iff_seq _ _ _ _).2 h3
      exact ⟨os, _, hos⟩
  · intro os w' h
    have hs := (history_ok_iff_seq _ _ _ _).1 ⟨os, h⟩
    rw [hs] at t1 t2 t3
    obtain ⟨e1, e2, _⟩ := history_ok sliceSink_lawful hwf h
    have hsink : w'.sink = ⟨[] ++ image 0 (leavesList vs), buf.drop total⟩ := by
      have := r2 t1.symm
      exact t2.trans this
    refine ⟨by rw [Writer.len, e2]; exact htot.symm, image 0 (leavesList vs), himg, ?_, ?_⟩
    · obtain ⟨w₂, f1, f2⟩ := history_infallible (vecSink_infallible Unit) (Writer.new []) hwf
      obtain ⟨_, _, f3⟩ := history_ok (vecSink_lawful Unit) hwf f1
      rw [f1]
      have e3 : os = returned 0 vs := e1
      rw [e3]
      refine Prod.ext rfl (writer_ext ?_ ?_)
      · simpa [vecSink, Writer.new] using f3
      · rw [f2, htot]; rfl
    · rw [hsink]; rfl

/-- C25: a sequence of values can be written into a fixed buffer exactly when the buffer has at
least as many bytes as a Sizer says; then `len()` is that number, the buffer begins with the bytes a
`Vec<u8>` would have received, and the rest of the buffer is untouched. -/
theorem C25_fixed_buffer {tg : Target} (htg : tg.Valid) {env : ForeignEnv} (henv : env.Lawful tg)
    {l : Layout} (xs : List (Item tg env l)) (buf : List Byte) :
    ((∃ (os : List Nat) (w' : Writer SliceState),
        (Writer.new ⟨[], buf⟩).history sliceSink (xs.map Item.arg) = (os.map .ok, w')) ↔
      (Sizer.new.addAll tg (xs.map Item.impl)).2.len ≤ buf.length) ∧
    ∀ (os : List Nat) (w' : Writer SliceState),
      (Writer.new ⟨[], buf⟩).history sliceSink (xs.map Item.arg) = (os.map .ok, w') →
      w'.len = (Sizer.new.addAll tg (xs.map Item.impl)).2.len ∧
      ∃ img, img.length = w'.len ∧
        (Writer.new ([] : List Byte)).history (vecSink Unit) (xs.map Item.arg) =
          (os.map .ok, ⟨img, w'.len⟩) ∧
        w'.sink.buffer = img ++ buf.drop w'.len := by
  have hp := C19_sizer_placement tg (xs.map Item.impl) Sizer.new
  have he : ((xs.map Item.impl).map fun i => (i.alignment, i.out.size tg)) =
      (leavesList (xs.map Item.arg)).map fun x => (x.alignment, x.size) := by
    rw [items_leaves, List.map_map, List.map_map]; rfl
  rw [he] at hp
  obtain ⟨h1, h2⟩ := C25_general (items_wf htg henv xs) hp buf
  refine ⟨h1, fun os w' h => ?_⟩
  obtain ⟨a, img, b, c, d⟩ := h2 os w' h
  rw [a]
  exact ⟨rfl, img, b, c, d⟩

/-- Exactly enough and one byte too few. -/
example :
    ((Writer.new ⟨[], List.replicate 20 9⟩).history sliceSink
      [.std ⟨4, 4, [1, 1, 1, 1]⟩, .std ⟨16, 4, [2, 2, 2, 2]⟩]).1 = [.ok 0, .ok 16] ∧
    ((Writer.new ⟨[], List.replicate 19 9⟩).history sliceSink
      [.std ⟨4, 4, [1, 1, 1, 1]⟩, .std ⟨16, 4, [2, 2, 2, 2]⟩]).1 = [.ok 0, .error ()] := ⟨rfl, rfl⟩

/-! ## C34 -/

theorem nextOffset_shift {a d off : Nat} (h : a = 0 ∨ a ∣ d) :
    nextOffset (off + d) a = nextOffset off a + d := by
  refine (IsNext.unique (isNext_nextOffset (off + d) a) ?_)
  have hn := isNext_nextOffset off a
  refine ⟨by have := hn.1; omega, fun h0 => by rw [hn.2.1 h0], fun hpos => ?_⟩
  rcases h with h | h
  · omega
  · obtain ⟨h1, h2⟩ := hn.2.2 hpos
    refine ⟨Nat.dvd_add h1 h, fun m hm hle => ?_⟩
    have := h2 (m - d) (Nat.dvd_sub hm h) (by omega)
    omega

theorem endOf_shift {d : Nat} (xs : List StdVal) (h : ∀ x ∈ xs, x.alignment = 0 ∨ x.alignment ∣ d)
    (off : Nat) : endOf (off + d) xs = endOf off xs + d := by
  induction xs generalizing off with
  | nil => rfl
  | cons x r ih =>
    simp only [endOf]
    rw [nextOffset_shift (h x (by simp)), ← ih (fun y hy => h y (by simp [hy]))]
    congr 1
    omega

theorem stdSize_slice {xs : List WVal} (hwf : ∀ x ∈ xs, x.Wf) :
    (WVal.slice xs).stdSize = some (endOf 0 (leavesList xs)) := by
  obtain ⟨w', h1, h2⟩ := write_infallible (nullSink_infallible Unit) (Writer.new []) (wf_slice hwf)
  simp only [WVal.stdSize, h1]
  simp only [WVal.leaves] at h2
  rw [Writer.len, h2]; rfl

/-- C34: `stdN_size()` of a slice does not panic and is the number of bytes that writing the slice
to an empty Writer delivers, and its `len()`, whatever the sink. -/
theorem C34_size_is_len {xs : List WVal} (hwf : ∀ x ∈ xs, x.Wf) :
    ∃ n, (WVal.slice xs).stdSize = some n ∧
      ∀ {σ ε : Type} (k : Sink σ ε) (s : σ) (o : Nat) (w' : Writer σ), k.Lawful →
        (Writer.new s).write k (.slice xs) = (.ok o, w') →
        w'.len = n ∧ (k.delivered w'.sink).length = (k.delivered s).length + n := by
  refine ⟨_, stdSize_slice hwf, ?_⟩
  intro σ ε k s o w' hk h
  obtain ⟨_, h2, h3⟩ := write_ok hk (wf_slice hwf) h
  simp only [WVal.leaves, Writer.new] at h2 h3
  have := image_length 0 (leavesList xs)
  exact ⟨h2, by rw [h3, List.length_append]; omega⟩

/-- C34: for slices whose elements all have the same type, the size is also the distance from the
returned offset to the new `len()`, wherever the slice is written. -/
theorem C34_size_anywhere {tg : Target} (htg : tg.Valid) {env : ForeignEnv} (henv : env.Lawful tg)
    {l : Layout} {t : Ty} (xs : List (Item tg env l)) (ht : ∀ x ∈ xs, x.ty = t)
    {σ ε : Type} {k : Sink σ ε} (hk : k.Lawful) {w w' : Writer σ} {o : Nat}
    (h : w.write k (.slice (xs.map Item.arg)) = (.ok o, w')) :
    (WVal.slice (xs.map Item.arg)).stdSize = some (w'.len - o) ∧ o ≤ w'.len := by
  have hwf := items_wf htg henv xs
  obtain ⟨h1, h2, _⟩ := write_ok hk (wf_slice hwf) h
  rw [stdSize_slice hwf]
  rw [items_slice_leaves] at h2
  rw [items_leaves]
  cases xs with
  | nil =>
    simp only [List.map_nil, WVal.firstOffset] at h1
    simp only [List.map_nil, endOf] at h2
    simp [endOf, Writer.len, h1, h2]
  | cons x r =>
    have hal : ∀ y ∈ (x :: r).map Item.std, y.alignment = x.impl.alignment := by
      intro y hy
      obtain ⟨z, hz, rfl⟩ := List.mem_map.1 hy
      have e1 := z.resolves
      have e2 := x.resolves
      rw [ht z hz] at e1
      rw [ht x (by simp), e1, Option.some.injEq] at e2
      rw [← e2]; rfl
    have ho : o = nextOffset w.offset x.impl.alignment := by
      rw [h1, List.map_cons, x.arg_std]; simp [WVal.firstOffset, Item.std]
    have hn := isNext_nextOffset w.offset x.impl.alignment
    rw [← ho] at hn
    have hsame : endOf w.offset ((x :: r).map Item.std) = endOf o ((x :: r).map Item.std) := by
      have e : nextOffset o x.impl.alignment = o := by
        refine IsNext.unique (isNext_nextOffset _ _) ⟨Nat.le_refl _, fun _ => rfl, fun hp => ?_⟩
        exact ⟨(hn.2.2 hp).1, fun m _ hm => hm⟩
      simp only [List.map_cons, endOf]
      rw [show x.std.alignment = x.impl.alignment from rfl, ← ho, e]
    have hsh := endOf_shift (d := o) ((x :: r).map Item.std) (fun y hy => by
      rw [hal y hy]
      rcases Nat.eq_zero_or_pos x.impl.alignment with h0 | hp
      · exact .inl h0
      · exact .inr (hn.2.2 hp).1) 0
    rw [Nat.zero_add] at hsh
    rw [hsame, hsh] at h2
    rw [Writer.len, h2]
    exact ⟨by rw [Nat.add_sub_cancel], by omega⟩

/-- C34 needs the elements to have one type: a user-defined `WriteStdN` type that writes an `f32` and
a `vec4` takes 32 bytes at offset 0 and 28 from offset 4 on. -/
example : (WVal.slice [.std ⟨4, 4, [1, 1, 1, 1]⟩, .std ⟨16, 16, List.replicate 16 2⟩]).stdSize = some 32 ∧
    ∃ w', (⟨[], 4⟩ : Writer (List Byte)).write (vecSink Unit)
      (.slice [.std ⟨4, 4, [1, 1, 1, 1]⟩, .std ⟨16, 16, List.replicate 16 2⟩]) = (.ok 4, w') ∧
      w'.len - 4 = 28 := ⟨rfl, _, rfl, rfl⟩

/-! ## C39 -/

/-- C39: two Writers on any two sinks, at the same `len()`, fed the same values: if all writes
succeed, they return the same offsets, have the same `len()` and deliver the same bytes. -/
theorem C39_sink_independent {σ₁ ε₁ σ₂ ε₂ : Type} {k₁ : Sink σ₁ ε₁} {k₂ : Sink σ₂ ε₂}
    (hk₁ : k₁.Lawful) (hk₂ : k₂.Lawful) {w₁ w₁' : Writer σ₁} {w₂ w₂' : Writer σ₂}
    (hw : w₁.len = w₂.len) {vs : List WVal} (hwf : ∀ v ∈ vs, v.Wf) {os₁ os₂ : List Nat}
    (h₁ : w₁.history k₁ vs = (os₁.map .ok, w₁')) (h₂ : w₂.history k₂ vs = (os₂.map .ok, w₂')) :
    os₁ = os₂ ∧ w₁'.len = w₂'.len ∧
      ∃ img, k₁.delivered w₁'.sink = k₁.delivered w₁.sink ++ img ∧
        k₂.delivered w₂'.sink = k₂.delivered w₂.sink ++ img := by
  obtain ⟨a1, a2, a3⟩ := history_ok hk₁ hwf h₁
  obtain ⟨b1, b2, b3⟩ := history_ok hk₂ hwf h₂
  have hw' : w₁.offset = w₂.offset := hw
  rw [hw'] at a1 a2 a3
  exact ⟨a1.trans b1.symm, a2.trans b2.symm, _, a3, b3⟩

/-- A vector and a sink that accepts one or two bytes at a time and is interrupted in between. -/
example : ∃ (w₁ : Writer (List Byte)) (w₂ : Writer (Scheduled Unit)),
    (Writer.new []).history (vecSink Unit) [.std ⟨4, 4, [1, 1, 1, 1]⟩, .std ⟨8, 4, [2, 2, 2, 2]⟩] =
      ([0, 8].map .ok, w₁) ∧
    (Writer.new ⟨[], [.accept 1, .interrupted, .accept 2, .accept 1, .interrupted]⟩).history
      (scheduledSink ()) [.std ⟨4, 4, [1, 1, 1, 1]⟩, .std ⟨8, 4, [2, 2, 2, 2]⟩] =
      ([0, 8].map .ok, w₂) := ⟨_, _, rfl, rfl⟩

end Crevice
