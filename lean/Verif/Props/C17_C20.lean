import Verif.Proof.Item
/-
C17 write, C18 histories, C19 Sizer, C20 slices and iterators.
-/
namespace Crevice

/-! ## C17 -/

/-- C17 for any value of any type that implements `StdN` (derived or hand-written): whatever the
state of the Writer, a successful write returns the least multiple of ALIGNMENT at or after `len()`,
delivers exactly that many zeros and then the value's bytes, and advances `len()` to the end. -/
theorem C17_write_std {σ ε : Type} {k : Sink σ ε} (hk : k.Lawful) {w w' : Writer σ} {x : StdVal}
    (hx : x.bytes.length = x.size) {off : Nat} (h : w.writeStd k x = (.ok off, w')) :
    IsNext x.alignment w.len off ∧
      k.delivered w'.sink = k.delivered w.sink ++ List.replicate (off - w.len) 0 ++ x.bytes ∧
      w'.len = off + x.size := by
  have h' : w.write k (.std x) = (.ok off, w') := by rw [Writer.write]; exact h
  obtain ⟨h1, h2, h3⟩ := write_ok hk (wf_std hx) h'
  simp only [WVal.firstOffset, WVal.leaves, endOf, image, List.append_nil] at h1 h2 h3
  subst h1
  exact ⟨isNext_nextOffset _ _, by rw [h3, List.append_assoc]; rfl, by rw [Writer.len, h2, hx]⟩

/-- C17: the same for `write(&value)`, for every value of every convertible type. -/
theorem C17_write {tg : Target} (htg : tg.Valid) {env : ForeignEnv} (henv : env.Lawful tg) {l : Layout}
    (x : Item tg env l) {σ ε : Type} {k : Sink σ ε} (hk : k.Lawful) {w w' : Writer σ} {off : Nat}
    (h : w.write k x.arg = (.ok off, w')) :
    IsNext x.impl.alignment w.len off ∧
      k.delivered w'.sink = k.delivered w.sink ++ List.replicate (off - w.len) 0 ++ x.bytes ∧
      w'.len = off + x.bytes.length ∧ x.bytes.length = x.impl.out.size tg := by
  have hl := x.length htg henv
  rw [x.arg_std, Writer.write] at h
  obtain ⟨h1, h2, h3⟩ := C17_write_std hk (x := x.std) hl h
  exact ⟨h1, h2, by rw [h3, hl]; rfl, hl⟩

/-- C17: writes to a sink that never fails (such as `Vec<u8>`) succeed. -/
theorem C17_succeeds {tg : Target} (htg : tg.Valid) {env : ForeignEnv} (henv : env.Lawful tg)
    {l : Layout} (x : Item tg env l) {σ ε : Type} {k : Sink σ ε} (hk : k.Infallible) (w : Writer σ) :
    ∃ off w', w.write k x.arg = (.ok off, w') := by
  obtain ⟨w', h, _⟩ := write_infallible hk w (x.wf htg henv)
  exact ⟨_, _, h⟩

/-- `Light` values are items, and `Vec<u8>` is a sink as required. -/
example (l : Layout) : ∃ x : Item x86_64 Ex.env l, x.ty = Ex.light ∧ x.val = Ex.lightVal ∧
    (vecSink Unit).Lawful ∧ (vecSink Unit).Infallible ∧ sliceSink.Lawful ∧
    ∀ zero : Unit, (scheduledSink zero).Lawful := by
  obtain ⟨i, hi⟩ := Ex.light_resolves x86_64 l
  obtain ⟨x, h1, h2, _⟩ := Item.exists Ex.x86_64_valid Ex.env_lawful hi (Ex.light_hasVal _)
  exact ⟨x, h1, h2, vecSink_lawful _, vecSink_infallible _, sliceSink_lawful, scheduledSink_lawful⟩

/-- Padding really occurs: a value of alignment 16 written at `len()` 4 goes to 16. -/
example : (⟨[1, 2, 3, 4], 4⟩ : Writer (List Byte)).writeStd (vecSink Unit) ⟨16, 4, [5, 6, 7, 8]⟩ =
    (.ok 16, ⟨[1, 2, 3, 4] ++ List.replicate 12 0 ++ [5, 6, 7, 8], 20⟩) := rfl

/-! ## C18 -/

/-- C18 for sequences of values: the offsets returned are those obtained by laying the values out
one after the other; the sink has received, after what it had before, exactly `len()` bytes; in
them each value's bytes stand at the offset its write returned, the values are in order and
disjoint, and all other bytes are zero. -/
theorem C18_history {tg : Target} (htg : tg.Valid) {env : ForeignEnv} (henv : env.Lawful tg)
    {l : Layout} (xs : List (Item tg env l)) {σ ε : Type} {k : Sink σ ε} (hk : k.Lawful) {s : σ}
    {os : List Nat} {w' : Writer σ}
    (h : (Writer.new s).history k (xs.map Item.arg) = (os.map .ok, w')) :
    Placed 0 (xs.map fun x => (x.impl.alignment, x.bytes.length)) os w'.len ∧
    ∃ img, k.delivered w'.sink = k.delivered s ++ img ∧ img.length = w'.len ∧
      (∀ m (hm : m < xs.length) (hm' : m < os.length), SliceAt img os[m] xs[m].bytes) ∧
      (∀ m n (_ : m < n) (hn : n < xs.length) (hn' : n < os.length),
        os[m] + xs[m].bytes.length ≤ os[n]) ∧
      (∀ p (hp : p < img.length), (∀ m (hm : m < xs.length) (hm' : m < os.length),
        ¬ (os[m] ≤ p ∧ p < os[m] + xs[m].bytes.length)) → img[p] = 0) := by
  obtain ⟨h1, h2, h3⟩ := history_ok hk (items_wf htg henv xs) h
  rw [items_returned] at h1
  rw [items_leaves] at h2 h3
  simp only [Writer.new] at h1 h2 h3
  have hp := placed_places 0 (xs.map Item.std)
  rw [List.map_map, ← h1, ← h2] at hp
  have hp' : Placed 0 (xs.map fun x => (x.impl.alignment, x.bytes.length)) os w'.len := hp
  refine ⟨hp', _, h3, ?_, ?_, ?_, ?_⟩
  · have := image_length 0 (xs.map Item.std)
    rw [Nat.zero_add] at this
    rw [this, Writer.len, h2]
  · intro m hm hm'
    subst h1
    have := (image_slice 0 (xs.map Item.std) m (by simpa using hm)).2
    simpa [Item.std] using this
  · intro m n hmn hn hn'
    have := hp'.disjoint m n hmn (by simpa using hn) hn'
    simpa using this
  · intro p hpl hout
    subst h1
    refine image_zero 0 (xs.map Item.std) p hpl ?_
    intro m hm
    have := hout m (by simpa using hm) (by rw [places_length]; exact hm)
    simpa [Item.std] using this

/-- C18 for arbitrary arguments of `write`: values, slices, and user-defined `WriteStdN` types that
write their parts in order. The parts (`leaves`) are laid out one after the other; each write
returns the offset of its first part, or `len()` if it begins with an empty slice. -/
theorem C18_history_general {σ ε : Type} {k : Sink σ ε} (hk : k.Lawful) {s : σ} {vs : List WVal}
    (hwf : ∀ v ∈ vs, v.Wf) {os : List Nat} {w' : Writer σ}
    (h : (Writer.new s).history k vs = (os.map .ok, w')) :
    ∃ offs img, Placed 0 ((leavesList vs).map fun x => (x.alignment, x.size)) offs w'.len ∧
      k.delivered w'.sink = k.delivered s ++ img ∧ img.length = w'.len ∧
      (∀ m (hm : m < (leavesList vs).length) (hm' : m < offs.length),
        SliceAt img offs[m] (leavesList vs)[m].bytes) ∧
      (∀ p (hp : p < img.length), (∀ m (hm : m < (leavesList vs).length) (hm' : m < offs.length),
        ¬ (offs[m] ≤ p ∧ p < offs[m] + (leavesList vs)[m].size)) → img[p] = 0) ∧
      os.length = vs.length ∧
      (∀ m (hm : m < vs.length) (hm' : m < os.length), vs[m].startsWithValue = true →
        offs[(leavesList (vs.take m)).length]? = some os[m]) ∧
      (∀ m (hm : m < vs.length) (hm' : m < os.length), vs[m].startsWithValue = false →
        ∃ before, Placed 0 ((leavesList (vs.take m)).map fun x => (x.alignment, x.size)) before
          os[m]) := by
  have hwl := wf_leaves hwf
  obtain ⟨h1, h2, h3⟩ := history_ok hk hwf h
  simp only [Writer.new] at h1 h2 h3
  have hsz : ∀ ys : List StdVal, (∀ x ∈ ys, x.bytes.length = x.size) →
      (ys.map fun x => (x.alignment, x.bytes.length)) = ys.map fun x => (x.alignment, x.size) :=
    fun ys hy => List.map_congr_left fun x hx => by rw [hy x hx]
  have hfirst : ∀ (v : WVal) (off : Nat),
      (v.startsWithValue = true → (places off v.leaves)[0]? = some (v.firstOffset off)) ∧
      (v.startsWithValue = false → v.firstOffset off = off) := by
    intro v
    induction v using WVal.ind with
    | h1 x => intro off; exact ⟨fun _ => rfl, fun h => by simp [WVal.startsWithValue] at h⟩
    | h2 xs ih =>
      intro off
      cases xs with
      | nil => exact ⟨fun h => by simp [WVal.startsWithValue] at h, fun _ => by simp [WVal.firstOffset]⟩
      | cons x r =>
        obtain ⟨a, b⟩ := ih x (by simp) off
        simp only [WVal.startsWithValue, WVal.firstOffset]
        refine ⟨fun h => ?_, b⟩
        have := a h
        simp only [WVal.leaves, leavesList_cons, places_append]
        rw [List.getElem?_append_left]
        · exact this
        · apply Classical.byContradiction
          intro hc
          rw [List.getElem?_eq_none (by omega)] at this
          simp at this
  refine ⟨places 0 (leavesList vs), _, ?_, h3, ?_, ?_, ?_, ?_, ?_, ?_⟩
  · have hp := placed_places 0 (leavesList vs)
    rw [hsz _ hwl, ← h2] at hp
    exact hp
  · have := image_length 0 (leavesList vs)
    rw [Nat.zero_add] at this
    rw [this, Writer.len, h2]
  · intro m hm hm'
    simpa using (image_slice 0 (leavesList vs) m hm).2
  · intro p hp hout
    refine image_zero 0 _ p hp ?_
    intro m hm
    have := hout m hm (by rw [places_length]; exact hm)
    rw [hwl _ (List.getElem_mem hm)]
    simpa using this
  · rw [h1, returned_length]
  · intro m hm hm' hv
    subst h1
    rw [returned_get 0 vs m hm]
    have hsp : places 0 (leavesList vs) = places 0 (leavesList (vs.take m)) ++
        places (endOf 0 (leavesList (vs.take m))) (leavesList (vs.drop m)) := by
      rw [← places_append, ← leavesList_append, List.take_append_drop]
    rw [hsp, List.getElem?_append_right (by rw [places_length]; simp), places_length,
      Nat.sub_self, List.drop_eq_getElem_cons hm, leavesList_cons, places_append]
    have := (hfirst vs[m] (endOf 0 (leavesList (vs.take m)))).1 hv
    rw [List.getElem?_append_left]
    · exact this
    · apply Classical.byContradiction
      intro hc
      rw [List.getElem?_eq_none (by omega)] at this
      simp at this
  · intro m hm hm' hv
    subst h1
    rw [returned_get 0 vs m hm, (hfirst _ _).2 hv]
    have hp := placed_places 0 (leavesList (vs.take m))
    rw [hsz] at hp
    · exact ⟨_, hp⟩
    · intro x hx
      obtain ⟨v, hv, hxv⟩ := mem_leavesList hx
      exact hwf v (List.mem_of_mem_take hv) x hxv

/-- A history with padding, a slice and an empty slice. -/
example : ∃ w', (Writer.new []).history (vecSink Unit)
    [.std ⟨4, 4, [1, 1, 1, 1]⟩, .slice [.std ⟨8, 8, List.replicate 8 2⟩, .std ⟨8, 8, List.replicate 8 3⟩],
      .slice [], .std ⟨16, 4, [4, 4, 4, 4]⟩] = ([0, 8, 24, 32].map .ok, w') ∧ w'.len = 36 := ⟨_, rfl, rfl⟩

/-! ## C19 -/

theorem addAll_eq {tg : Target} (htg : tg.Valid) {env : ForeignEnv} (henv : env.Lawful tg) {l : Layout}
    (xs : List (Item tg env l)) (s : Sizer) :
    s.addAll tg (xs.map Item.impl) =
      (places s.offset (xs.map Item.std), ⟨endOf s.offset (xs.map Item.std)⟩) := by
  induction xs generalizing s with
  | nil => rfl
  | cons x r ih =>
    have hl := x.length htg henv
    simp only [List.map_cons, Sizer.addAll, Sizer.add, ih, places, endOf, ← nextOffset_eq]
    simp only [Item.std, hl]

/-- C19: whenever a sequence of values is written successfully, adding their types to a Sizer
returns the same offsets, one by one, and the same `len()`. -/
theorem C19_sizer_predicts_writer {tg : Target} (htg : tg.Valid) {env : ForeignEnv}
    (henv : env.Lawful tg) {l : Layout} (xs : List (Item tg env l)) {σ ε : Type} {k : Sink σ ε}
    (hk : k.Lawful) {s : σ} {os : List Nat} {w' : Writer σ}
    (h : (Writer.new s).history k (xs.map Item.arg) = (os.map .ok, w')) :
    Sizer.new.addAll tg (xs.map Item.impl) = (os, ⟨w'.len⟩) := by
  obtain ⟨h1, h2, _⟩ := history_ok hk (items_wf htg henv xs) h
  rw [items_returned] at h1
  rw [items_leaves] at h2
  rw [addAll_eq htg henv, h1, Writer.len, h2]
  rfl

theorem addAll_placed (tg : Target) (is : List Impl) (s : Sizer) :
    Placed s.len (is.map fun i => (i.alignment, i.out.size tg)) (s.addAll tg is).1
      (s.addAll tg is).2.len := by
  induction is generalizing s with
  | nil => exact .nil
  | cons i r ih =>
    simp only [Sizer.addAll, Sizer.add, List.map_cons]
    exact .cons (isNext_alignOffset _ _) (ih _)

/-- C19: for every sequence of types (from any state of the Sizer), the offsets a Sizer returns and
its `len()` are those of laying the types out one after the other. -/
theorem C19_sizer_placement (tg : Target) (is : List Impl) (s : Sizer) :
    Placed s.len (is.map fun i => (i.alignment, i.out.size tg)) (s.addAll tg is).1
      (s.addAll tg is).2.len := addAll_placed tg is s

/-- The hypotheses of C19 can be met: two `Light`s written to a vector. -/
example : ∃ (x : Item x86_64 Ex.env .std430) (os : List Nat) (w' : Writer (List Byte)),
    x.ty = Ex.light ∧
    (Writer.new []).history (vecSink Unit) ([x, x].map Item.arg) = (os.map .ok, w') := by
  obtain ⟨i, hi⟩ := Ex.light_resolves x86_64 .std430
  obtain ⟨x, h1, h2, _⟩ := Item.exists Ex.x86_64_valid Ex.env_lawful hi (Ex.light_hasVal _)
  obtain ⟨w', h, _⟩ := history_infallible (vecSink_infallible Unit) (Writer.new [])
    (items_wf Ex.x86_64_valid Ex.env_lawful [x, x])
  exact ⟨x, _, w', h1, h⟩

/-! ## C20 -/

/-- C20: `write_iter`, `write_slice` and `write` of a slice are the same operation on every sink,
also when it fails. -/
theorem C20_iter_eq_slice {σ ε : Type} (k : Sink σ ε) (w : Writer σ) (xs : List WVal) :
    w.writeIter k xs = w.write k (.slice xs) ∧ w.writeSlice k xs = w.write k (.slice xs) := by
  refine ⟨?_, rfl⟩
  cases xs with
  | nil => simp only [Writer.writeIter, Writer.write]; rfl
  | cons x r => simp only [Writer.writeIter, Writer.write]

/-- C20: writing a slice succeeds exactly when writing its elements one by one does, with the same
final state; the offset returned is that of the first element, or `len()` when there is none. -/
theorem C20_elementwise {σ ε : Type} (k : Sink σ ε) (w w' : Writer σ) (xs : List WVal) (o : Nat) :
    w.write k (.slice xs) = (.ok o, w') ↔
      ∃ os : List Nat, w.history k xs = (os.map .ok, w') ∧ o = os.headD w.len := by
  have hwr : ∀ (x : WVal) (w₁ : Writer σ) (o' : Nat), w.write k x = (.ok o', w₁) →
      o' = x.firstOffset w.offset := by
    intro x w₁ o' h
    rw [write_eq_seq] at h
    rcases hs : seqStd k w x.leaves with ⟨e | u, w₂⟩
    · simp [hs] at h
    · simp [hs] at h; exact h.1.symm
  have hhead : ∀ os : List Nat, w.history k xs = (os.map .ok, w') →
      os.headD w.len = (WVal.slice xs).firstOffset w.offset := by
    intro os h
    cases xs with
    | nil =>
      cases os with
      | nil => simp [WVal.firstOffset, Writer.len]
      | cons o os => simp [Writer.history] at h
    | cons x r =>
      cases os with
      | nil => simp [history_cons] at h
      | cons o os =>
        rw [history_cons] at h
        simp only [List.map_cons, Prod.mk.injEq, List.cons.injEq] at h
        have hw : w.write k x = (.ok o, (w.write k x).2) := Prod.ext h.1.1 rfl
        simp only [List.headD_cons, WVal.firstOffset]
        exact hwr x _ _ hw
  constructor
  · intro h
    have ho := h
    rw [write_eq_seq] at h
    rcases hs : seqStd k w (WVal.slice xs).leaves with ⟨e | u, w₁⟩
    · simp [hs] at h
    · simp only [hs, Prod.mk.injEq, Except.ok.injEq] at h
      obtain ⟨h1, rfl⟩ := h
      simp only [WVal.leaves] at hs
      obtain ⟨os, hos⟩ := (history_ok_iff_seq k w w₁ xs).2 hs
      exact ⟨os, hos, by rw [hhead os hos, h1]⟩
  · rintro ⟨os, hos, rfl⟩
    have := (history_ok_iff_seq k w w' xs).1 ⟨os, hos⟩
    rw [write_eq_seq, hhead os hos]
    simp only [WVal.leaves, this]

/-- C20: a successful slice write delivers every element's bytes exactly once, in order, each at its
place, and nothing else but zeros: it delivers what laying out all the parts gives. -/
theorem C20_each_once {σ ε : Type} {k : Sink σ ε} (hk : k.Lawful) {w w' : Writer σ} {xs : List WVal}
    (hwf : ∀ x ∈ xs, x.Wf) {o : Nat} (h : w.write k (.slice xs) = (.ok o, w')) :
    ∃ offs img, Placed w.len ((leavesList xs).map fun x => (x.alignment, x.bytes.length)) offs w'.len ∧
      k.delivered w'.sink = k.delivered w.sink ++ img ∧ w.len + img.length = w'.len ∧
      (∀ m (hm : m < (leavesList xs).length) (hm' : m < offs.length),
        w.len ≤ offs[m] ∧ SliceAt img (offs[m] - w.len) (leavesList xs)[m].bytes) ∧
      (∀ p (hp : p < img.length), (∀ m (hm : m < (leavesList xs).length) (hm' : m < offs.length),
        ¬ (offs[m] ≤ w.len + p ∧ w.len + p < offs[m] + (leavesList xs)[m].bytes.length)) →
        img[p] = 0) := by
  obtain ⟨h1, h2, h3⟩ := write_ok hk (wf_slice hwf) h
  simp only [WVal.leaves] at h2 h3
  refine ⟨places w.len (leavesList xs), _, ?_, h3, ?_, ?_, ?_⟩
  · have := placed_places w.len (leavesList xs)
    rw [show endOf w.len (leavesList xs) = w'.len from h2.symm] at this
    exact this
  · have := image_length w.len (leavesList xs)
    exact this.trans h2.symm
  · intro m hm hm'
    exact image_slice w.len (leavesList xs) m hm
  · intro p hp hout
    exact image_zero w.len _ p hp fun m hm => hout m hm (by rw [places_length]; exact hm)

/-- C20: writing `xs ++ ys` is writing `xs` and then, if that succeeded, `ys`: same final state and
same error, if any. -/
theorem C20_append {σ ε : Type} (k : Sink σ ε) (w : Writer σ) (xs ys : List WVal) :
    (∀ e w₁, w.write k (.slice xs) = (.error e, w₁) →
      w.write k (.slice (xs ++ ys)) = (.error e, w₁)) ∧
    (∀ o w₁, w.write k (.slice xs) = (.ok o, w₁) →
      (w.write k (.slice (xs ++ ys))).2 = (w₁.write k (.slice ys)).2 ∧
      (∀ e, (w₁.write k (.slice ys)).1 = .error e → (w.write k (.slice (xs ++ ys))).1 = .error e) ∧
      (∀ o', (w₁.write k (.slice ys)).1 = .ok o' →
        (w.write k (.slice (xs ++ ys))).1 = .ok (if xs.isEmpty then o' else o))) := by
  have hseq : ∀ zs : List WVal, w.write k (.slice zs) = match seqStd k w (leavesList zs) with
      | (.error e, w') => (.error e, w')
      | (.ok (), w') => (.ok ((WVal.slice zs).firstOffset w.offset), w') := by
    intro zs; rw [write_eq_seq]; rfl
  have hseq' : ∀ (w : Writer σ) (zs : List WVal), w.write k (.slice zs) = match seqStd k w (leavesList zs) with
      | (.error e, w') => (.error e, w')
      | (.ok (), w') => (.ok ((WVal.slice zs).firstOffset w.offset), w') := by
    intro w zs; rw [write_eq_seq]; rfl
  refine ⟨?_, ?_⟩
  · intro e w₁ h
    rw [hseq] at h
    rw [hseq, leavesList_append, seqStd_append]
    rcases hs : seqStd k w (leavesList xs) with ⟨e' | u, w₂⟩
    · simpa [hs] using h
    · simp [hs] at h
  · intro o w₁ h
    rw [hseq] at h
    rcases hs : seqStd k w (leavesList xs) with ⟨e' | u, w₂⟩
    · simp [hs] at h
    · simp only [hs, Prod.mk.injEq, Except.ok.injEq] at h
      obtain ⟨h1, rfl⟩ := h
      rw [hseq, leavesList_append, seqStd_append, hs, hseq' w₂]
      rcases hs2 : seqStd k w₂ (leavesList ys) with ⟨e' | u, w₃⟩
      · simp [hs2]
      · simp only [hs2, Except.ok.injEq, true_and]
        refine ⟨by simp, ?_⟩
        rintro o' rfl
        cases xs with
        | nil =>
          simp only [leavesList, seqStd, Prod.mk.injEq, true_and] at hs
          subst hs
          simp
        | cons x r =>
          simp only [List.cons_append, WVal.firstOffset, List.isEmpty_cons, Bool.false_eq_true,
            if_false]
          rw [← h1]; simp [WVal.firstOffset]

example : ∃ o w', (Writer.new []).write (vecSink Unit)
    (.slice [.std ⟨16, 4, [1, 1, 1, 1]⟩, .std ⟨16, 4, [2, 2, 2, 2]⟩]) = (.ok o, w') ∧ w'.len = 20 :=
  ⟨_, _, rfl, rfl⟩

end Crevice
