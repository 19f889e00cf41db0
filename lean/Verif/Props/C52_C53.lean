import Verif.Proof.Sessions
import Verif.Props.C51
import Verif.Props.C41_C42
/-
C52: Writers on part of a buffer, and several Writers one after the other. C53: buffers determine
what was written.
-/
namespace Crevice

variable {tg : Target} {env : ForeignEnv} {l : Layout}

theorem history_vec {vs : List WVal} (hwf : ∀ v ∈ vs, v.Wf) :
    (Writer.new ([] : List Byte)).history (vecSink Unit) vs =
      ((returned 0 vs).map .ok, ⟨image 0 (leavesList vs), endOf 0 (leavesList vs)⟩) := by
  obtain ⟨w, hw, -⟩ := history_infallible (vecSink_infallible Unit) (Writer.new []) hwf
  obtain ⟨h1, h2, h3⟩ := history_ok (vecSink_lawful Unit) hwf hw
  rw [hw]
  refine Prod.ext rfl ?_
  refine writer_ext ?_ h2
  simpa [vecSink, Writer.new] using h3

/-! ## C52 -/

/-- C52: use one Writer after the other on the same sink, without errors. Every Writer returns the
offsets, and delivers the bytes, that it would on an empty `Vec<u8>`, and what they deliver stands
one after the other in the sink. -/
theorem C52_sessions {σ ε : Type} {k : Sink σ ε} (hk : k.Lawful) {vss : List (List WVal)}
    (hwf : ∀ vs ∈ vss, ∀ v ∈ vs, v.Wf) {s s' : σ} {rs : List (List Nat × Nat)}
    (h : sessions k s vss = (okSessions rs, s')) :
    rs.length = vss.length ∧
    ∃ buf, k.delivered s' = k.delivered s ++ buf ∧ buf.length = (rs.map Prod.snd).sum ∧
      ∀ j (hj : j < vss.length) (hj' : j < rs.length),
        (Writer.new ([] : List Byte)).history (vecSink Unit) vss[j] =
          (rs[j].1.map .ok, ⟨(buf.drop ((rs.take j).map Prod.snd).sum).take rs[j].2, rs[j].2⟩) := by
  induction vss generalizing s rs with
  | nil =>
    simp only [sessions, Prod.mk.injEq] at h
    obtain ⟨h1, rfl⟩ := h
    have : rs = [] := by cases rs <;> simp [okSessions] at h1 ⊢
    subst this
    exact ⟨rfl, [], by simp, rfl, by intro j hj; simp at hj⟩
  | cons vs r ih =>
    simp only [sessions, Prod.mk.injEq] at h
    cases rs with
    | nil => simp [okSessions] at h
    | cons a rs =>
      obtain ⟨h1, h2⟩ := h
      simp only [okSessions, List.map_cons, List.cons.injEq, Prod.mk.injEq] at h1
      obtain ⟨⟨h1, h3⟩, h4⟩ := h1
      rcases hh : (Writer.new s).history k vs with ⟨ra, w⟩
      rw [hh] at h1 h2 h3 h4
      simp only at h1 h2 h3 h4
      subst h1
      have hwf0 := hwf vs (by simp)
      obtain ⟨g1, g2, g3⟩ := history_ok hk hwf0 hh
      simp only [Writer.new] at g1 g2 g3
      obtain ⟨i1, buf, i2, i3, i4⟩ := ih (fun vs hvs => hwf vs (by simp [hvs])) (s := w.sink) (rs := rs)
        (Prod.ext h4 h2)
      have hlen : (image 0 (leavesList vs)).length = a.2 := by
        have := image_length 0 (leavesList vs)
        rw [Writer.len] at h3
        omega
      refine ⟨by simp [i1], image 0 (leavesList vs) ++ buf, ?_, ?_, ?_⟩
      · rw [i2, g3, List.append_assoc]
      · simp [i3, hlen]
      · intro j hj hj'
        cases j with
        | zero =>
          simp only [List.getElem_cons_zero, List.take_zero, List.map_nil, List.sum_nil, List.drop_zero]
          rw [history_vec hwf0, g1, List.take_left' hlen, ← h3, Writer.len, g2]
        | succ j =>
          simp only [List.getElem_cons_succ, List.take_succ_cons, List.map_cons, List.sum_cons]
          rw [← List.drop_drop, List.drop_left' hlen]
          exact i4 j (by simpa using hj) (by simpa using hj')

/-- C52: in particular the value that write `m` of Writer `j` wrote stands at (bytes delivered by the
Writers before) + (the offset returned), and if these Writers, and what was in the sink before,
cover a multiple of its ALIGNMENT, that is an aligned position of the whole sink. -/
theorem C52_positions (htg : tg.Valid) (henv : env.Lawful tg) (xss : List (List (Item tg env l)))
    {σ ε : Type} {k : Sink σ ε} (hk : k.Lawful) {s s' : σ} {rs : List (List Nat × Nat)}
    (h : sessions k s (xss.map fun xs => xs.map Item.arg) = (okSessions rs, s')) :
    ∃ buf, k.delivered s' = k.delivered s ++ buf ∧
      ∀ j (hj : j < xss.length) (hj' : j < rs.length) m (hm : m < xss[j].length)
        (hm' : m < rs[j].1.length),
        SliceAt buf (((rs.take j).map Prod.snd).sum + rs[j].1[m]) xss[j][m].bytes ∧
        (0 < xss[j][m].impl.alignment →
          xss[j][m].impl.alignment ∣ (k.delivered s).length + ((rs.take j).map Prod.snd).sum →
          xss[j][m].impl.alignment ∣
            (k.delivered s).length + (((rs.take j).map Prod.snd).sum + rs[j].1[m])) := by
  have hwf : ∀ vs ∈ xss.map fun xs => xs.map Item.arg, ∀ v ∈ vs, v.Wf := by
    intro vs hvs
    obtain ⟨xs, -, rfl⟩ := List.mem_map.1 hvs
    exact items_wf htg henv xs
  obtain ⟨-, buf, h2, -, h4⟩ := C52_sessions hk hwf h
  refine ⟨buf, h2, ?_⟩
  intro j hj hj' m hm hm'
  have h5 := h4 j (by simpa using hj) hj'
  simp only [List.getElem_map] at h5
  obtain ⟨hp, img, q1, q2, q3, -⟩ := C18_history htg henv xss[j] (vecSink_lawful Unit) h5
  simp only [vecSink, Writer.new, id_eq, List.nil_append] at q1
  subst q1
  have hs := q3 m hm hm'
  have hb := (hp.bounds.2 m (by simpa using hm) hm').2
  simp only [List.getElem_map, Writer.len] at hb
  refine ⟨?_, fun h0 hd => ?_⟩
  · unfold SliceAt at hs ⊢
    rw [List.drop_take, List.take_take, Nat.min_eq_left (by omega), List.drop_drop] at hs
    exact hs
  · rw [← Nat.add_assoc]
    refine Nat.dvd_add hd ?_
    have := hp.aligned m (by simpa using hm) hm' (by simpa using h0)
    simpa using this

/-- C52: starting a new Writer instead of going on with the old one makes no difference exactly if
the alignments of all later values divide the `len()` reached: then the offsets are those of the one
Writer, counted from there, and the bytes are the same. -/
theorem C52_split (htg : tg.Valid) (henv : env.Lawful tg) (xs ys : List (Item tg env l))
    {σ σ' ε ε' : Type} {k : Sink σ ε} (hk : k.Lawful) {k' : Sink σ' ε'} (hk' : k'.Lawful)
    {s : σ} {w : Writer σ} {os : List Nat} {s₁ s₂ : σ'} {os₁ os₂ : List Nat} {n₁ n₂ : Nat}
    (h : (Writer.new s).history k ((xs ++ ys).map Item.arg) = (os.map .ok, w))
    (h' : sessions k' s₁ [xs.map Item.arg, ys.map Item.arg] = (okSessions [(os₁, n₁), (os₂, n₂)], s₂)) :
    (os = os₁ ++ os₂.map (· + n₁) ↔
      ∀ y ∈ ys, 0 < y.impl.alignment → y.impl.alignment ∣ n₁) ∧
    ((∀ y ∈ ys, 0 < y.impl.alignment → y.impl.alignment ∣ n₁) →
      w.len = n₁ + n₂ ∧ ∃ img, k.delivered w.sink = k.delivered s ++ img ∧
        k'.delivered s₂ = k'.delivered s₁ ++ img) := by
  have hwf : ∀ vs ∈ [xs.map Item.arg, ys.map (Item.arg (l := l))], ∀ v ∈ vs, v.Wf := by
    intro vs hvs
    simp only [List.mem_cons, List.not_mem_nil, or_false] at hvs
    rcases hvs with rfl | rfl
    · exact items_wf htg henv xs
    · exact items_wf htg henv ys
  obtain ⟨-, buf, b1, b2, b3⟩ := C52_sessions hk' hwf h'
  have c1 := b3 0 (by simp) (by simp)
  have c2 := b3 1 (by simp) (by simp)
  simp only [List.getElem_cons_zero, List.getElem_cons_succ, history_vec (items_wf htg henv xs),
    history_vec (items_wf htg henv ys), items_returned, items_leaves, List.take_zero, List.map_nil,
    List.sum_nil, List.drop_zero, Prod.mk.injEq, Writer.mk.injEq, List.take_succ_cons, List.map_cons,
    List.sum_cons, Nat.add_zero] at c1 c2
  obtain ⟨d1, d2, d3⟩ := c1
  obtain ⟨e1, e2, e3⟩ := c2
  have hinj : ∀ {a b : List Nat}, a.map (Except.ok (ε := Unit)) = b.map .ok → a = b := by
    intro a b hab
    refine (List.map_inj_right ?_).1 hab
    intro x y hxy
    exact Except.ok.inj hxy
  have d1 := hinj d1
  have e1 := hinj e1
  obtain ⟨g1, g2, g3⟩ := history_ok hk (items_wf htg henv (xs ++ ys)) h
  rw [items_returned, List.map_append, places_append] at g1
  rw [items_leaves, List.map_append, endOf_append] at g2
  rw [items_leaves, List.map_append, image_append] at g3
  simp only [Writer.new] at g1 g2 g3
  rw [d1, d3] at g1
  rw [d3] at g2 g3
  have halign : (∀ y ∈ ys, 0 < y.impl.alignment → y.impl.alignment ∣ n₁) →
      ∀ y ∈ ys.map Item.std, y.alignment = 0 ∨ y.alignment ∣ n₁ := by
    intro ha y hy
    obtain ⟨z, hz, rfl⟩ := List.mem_map.1 hy
    by_cases h0 : z.impl.alignment = 0
    · exact .inl h0
    · exact .inr (ha z hz (Nat.pos_of_ne_zero h0))
  refine ⟨⟨fun ho y hy hpos => ?_, fun ha => ?_⟩, fun ha => ?_⟩
  · rw [ho, ← e1] at g1
    have g1 := List.append_cancel_left g1
    obtain ⟨m, hm, rfl⟩ := List.getElem_of_mem hy
    have p1 := (placed_places 0 (ys.map Item.std)).aligned m (by simpa using hm)
      (by rw [places_length]; simpa using hm) (by simpa [Item.std] using hpos)
    have p2 := (placed_places n₁ (ys.map Item.std)).aligned m (by simpa using hm)
      (by rw [places_length]; simpa using hm) (by simpa [Item.std] using hpos)
    simp only [← g1, List.getElem_map, Item.std] at p1 p2
    exact (Nat.dvd_add_right p1).1 p2
  · rw [g1, ← e1]
    have := places_shift (ys.map Item.std) (halign ha) 0
    rw [Nat.zero_add] at this
    rw [this]
  · have q1 := endOf_shift (ys.map Item.std) (halign ha) 0
    have q2 := image_shift (ys.map Item.std) (halign ha) 0
    rw [Nat.zero_add] at q1 q2
    rw [q1, e3] at g2
    rw [q2] at g3
    refine ⟨by rw [Writer.len, g2, Nat.add_comm], _, g3, ?_⟩
    rw [b1]
    congr 1
    rw [d2, e2]
    simp only [List.map_cons, List.map_nil, List.sum_cons, List.sum_nil, Nat.add_zero] at b2
    rw [List.take_of_length_le (l := buf.drop n₁) (by simp; omega), List.take_append_drop]

/-- C52: write into the middle of an existing buffer, from position `pos` on, through a
`Cursor<&mut [u8]>`. It succeeds exactly if a Sizer says there is room after `pos`; then the bytes
from `pos` on are overwritten with what a `Vec<u8>` would have received, nothing else is changed, and
the offsets returned count from `pos`. -/
theorem C52_cursor_slice (htg : tg.Valid) (henv : env.Lawful tg) (xs : List (Item tg env l))
    (buf : List Byte) {pos : Nat} (hpos : pos ≤ buf.length) :
    ((∃ (os : List Nat) (w : Writer CursorState),
        (Writer.new ⟨buf, pos⟩).history cursorSliceSink (xs.map Item.arg) = (os.map .ok, w)) ↔
      pos + (Sizer.new.addAll tg (xs.map Item.impl)).2.len ≤ buf.length) ∧
    ∀ (os : List Nat) (w : Writer CursorState),
      (Writer.new ⟨buf, pos⟩).history cursorSliceSink (xs.map Item.arg) = (os.map .ok, w) →
      w.len = (Sizer.new.addAll tg (xs.map Item.impl)).2.len ∧
      ∃ img, img.length = w.len ∧
        (Writer.new ([] : List Byte)).history (vecSink Unit) (xs.map Item.arg) =
          (os.map .ok, ⟨img, w.len⟩) ∧
        w.sink = ⟨overwrite buf pos img, pos + w.len⟩ := by
  have hR : (CursorState.mk buf pos).buf = buf.take pos ++ (SliceState.mk [] (buf.drop pos)).filled ++
      (SliceState.mk [] (buf.drop pos)).rest ∧ (CursorState.mk buf pos).pos =
        (buf.take pos).length + (SliceState.mk [] (buf.drop pos)).filled.length := by
    simp [Nat.min_eq_left hpos]
  obtain ⟨r1, r2, r3, r4⟩ := sim_history (sim_cursorSlice (buf.take pos)) (xs.map Item.arg) 0 hR
  obtain ⟨f1, f2⟩ := C25_fixed_buffer htg henv xs (buf.drop pos)
  have hnew : ∀ {σ : Type} (s : σ), (⟨s, 0⟩ : Writer σ) = Writer.new s := fun _ => rfl
  simp only [hnew] at r1 r2 r3 r4
  refine ⟨⟨?_, ?_⟩, ?_⟩
  · rintro ⟨os, w, h⟩
    rw [h] at r1
    have := f1.1 ⟨os, _, Prod.ext r1.symm rfl⟩
    rw [List.length_drop] at this
    omega
  · intro hle
    obtain ⟨os, w', h⟩ := f1.2 (by rw [List.length_drop]; omega)
    rw [h] at r1
    exact ⟨os, _, Prod.ext r1 rfl⟩
  · intro os w h
    rw [h] at r1 r2 r3 r4
    rcases hh : (Writer.new (SliceState.mk [] (buf.drop pos))).history sliceSink (xs.map Item.arg) with
      ⟨os', w'⟩
    rw [hh] at r1 r2 r3 r4
    simp only at r1 r2 r3 r4
    subst r1
    obtain ⟨g1, img, g2, g3, g4⟩ := f2 os w' hh
    have hwl : w.len = w'.len := r2
    rw [hwl]
    have hd : sliceSink.delivered w'.sink = [] ++ img := by
      obtain ⟨-, q2, q3⟩ := history_ok sliceSink_lawful (items_wf htg henv xs) hh
      have q4 := history_vec (items_wf htg henv xs)
      rw [g3, Prod.mk.injEq] at q4
      rw [q3]
      have : img = image 0 (leavesList (xs.map Item.arg)) := congrArg Writer.sink q4.2
      rw [this]
      rfl
    have hfl : w'.sink.filled = img := by simpa [sliceSink] using hd
    have hrest : w'.sink.rest = (buf.drop pos).drop w'.len := by
      unfold SliceState.buffer at g4
      rw [hfl] at g4
      exact List.append_cancel_left g4
    refine ⟨g1, img, g2, g3, ?_⟩
    rcases w with ⟨⟨b, p⟩, n⟩
    simp only at r3 r4
    subst r3 r4
    rw [CursorState.mk.injEq, overwrite, hfl, hrest, List.drop_drop, g2]
    simp [Nat.min_eq_left hpos]

/-- C52 for a `Cursor<Vec<u8>>`, which never fails: the vector grows if there is not enough room. -/
theorem C52_cursor_vec (htg : tg.Valid) (henv : env.Lawful tg) (xs : List (Item tg env l))
    (buf : List Byte) {pos : Nat} (hpos : pos ≤ buf.length) (ε : Type) :
    ∃ (os : List Nat) (img : List Byte),
      (Writer.new ([] : List Byte)).history (vecSink ε) (xs.map Item.arg) =
        (os.map .ok, ⟨img, img.length⟩) ∧
      (Writer.new ⟨buf, pos⟩).history (cursorVecSink ε) (xs.map Item.arg) =
        (os.map .ok, ⟨⟨overwrite buf pos img, pos + img.length⟩, img.length⟩) := by
  have hR : (CursorState.mk buf pos).buf = buf.take pos ++ [] ++
      (buf.drop pos).drop ([] : List Byte).length ∧ (CursorState.mk buf pos).pos =
        (buf.take pos).length + ([] : List Byte).length := by
    simp [Nat.min_eq_left hpos]
  obtain ⟨r1, r2, r3, r4⟩ := sim_history (sim_cursorVec ε (buf.take pos) (buf.drop pos))
    (xs.map Item.arg) 0 hR
  have hnew : ∀ {σ : Type} (s : σ), (⟨s, 0⟩ : Writer σ) = Writer.new s := fun _ => rfl
  simp only [hnew] at r1 r2 r3 r4
  obtain ⟨⟨img, n⟩, hw, -⟩ := history_infallible (vecSink_infallible ε) (Writer.new [])
    (items_wf htg henv xs)
  obtain ⟨-, q2, q3⟩ := history_ok (vecSink_lawful ε) (items_wf htg henv xs) hw
  simp only [vecSink, Writer.new, id_eq, List.nil_append] at q2 q3
  have hn : n = img.length := by
    have := image_length 0 (leavesList (xs.map Item.arg))
    rw [q2, ← this, q3]; omega
  subst hn
  rw [hw] at r1 r2 r3 r4
  simp only at r1 r2 r3 r4
  refine ⟨_, img, hw, Prod.ext r1 (writer_ext ?_ r2)⟩
  rcases hc : (Writer.new (CursorState.mk buf pos)).history (cursorVecSink ε) (xs.map Item.arg) with
    ⟨rs, ⟨⟨b, p⟩, m⟩⟩
  rw [hc] at r3 r4
  simp only at r3 r4 ⊢
  have hp : p = pos + img.length := by rw [r4]; simp [Nat.min_eq_left hpos]
  rw [CursorState.mk.injEq]
  refine ⟨?_, hp⟩
  rw [r3, overwrite, List.drop_drop]

/-! ## C53 -/

/-- C53: two sequences of writes of the same types that deliver the same bytes wrote the same
values. -/
theorem C53_contents (htg : tg.Valid) (henv : env.Lawful tg) (xs ys : List (Item tg env l))
    (ht : xs.map Item.ty = ys.map Item.ty)
    {σ σ' ε ε' : Type} {k : Sink σ ε} (hk : k.Lawful) {k' : Sink σ' ε'} (hk' : k'.Lawful)
    {s : σ} {s' : σ'} {os os' : List Nat} {w : Writer σ} {w' : Writer σ'}
    (h : (Writer.new s).history k (xs.map Item.arg) = (os.map .ok, w))
    (h' : (Writer.new s').history k' (ys.map Item.arg) = (os'.map .ok, w')) {img : List Byte}
    (hd : k.delivered w.sink = k.delivered s ++ img)
    (hd' : k'.delivered w'.sink = k'.delivered s' ++ img) :
    xs.map Item.val = ys.map Item.val ∧ os = os' := by
  have hl : xs.length = ys.length := by simpa using congrArg List.length ht
  have hty : ∀ m (hm : m < xs.length) (hm' : m < ys.length), xs[m].ty = ys[m].ty := by
    intro m hm hm'
    have : (xs.map Item.ty)[m]'(by simpa using hm) = (ys.map Item.ty)[m]'(by simpa using hm') := by
      simp [ht]
    simpa using this
  obtain ⟨hp, -⟩ := C18_history htg henv xs hk h
  obtain ⟨hp', -⟩ := C18_history htg henv ys hk' h'
  have he : (xs.map fun x => (x.impl.alignment, x.bytes.length)) =
      ys.map fun x => (x.impl.alignment, x.bytes.length) := by
    apply List.ext_getElem
    · simpa using hl
    · intro m hm hm'
      simp only [List.length_map] at hm hm'
      have hi := Item.same_impl (hty m hm hm')
      simp only [List.getElem_map, Item.length htg henv, hi]
  rw [he] at hp
  have hos : os = os' := (hp.unique hp').1
  subst hos
  obtain ⟨buf, b1, -, b2, b3⟩ := C41_read_back htg henv xs hk h
  obtain ⟨buf', c1, -, c2, c3⟩ := C41_read_back htg henv ys hk' h'
  obtain rfl : img = buf := List.append_cancel_left (hd.symm.trans b1)
  obtain rfl : img = buf' := List.append_cancel_left (hd'.symm.trans c1)
  refine ⟨?_, rfl⟩
  apply List.ext_getElem
  · simpa using hl
  · intro m hm hm'
    simp only [List.length_map] at hm hm'
    have e1 := (b3 m hm (by omega)).1
    have e2 := (c3 m hm' (by omega)).1
    rw [Item.same_impl (hty m hm hm'), e2] at e1
    simpa using e1.symm

/-! ## Non-vacuity -/

/-- Two Writers on a cursor at position 32 of a buffer of ones: the light twice, each as it would be
alone. -/
example : ∃ (x : Item x86_64 Ex.env .std140) (rs : List (List Nat × Nat)) (s' : CursorState),
    x.ty = Ex.light ∧
    sessions (cursorVecSink Unit) ⟨List.replicate 40 1, 32⟩ ([[x], [x, x]].map fun xs => xs.map Item.arg) =
      (okSessions rs, s') := by
  obtain ⟨i, hi⟩ := Ex.light_resolves x86_64 .std140
  obtain ⟨x, h1, h2, _⟩ := Item.exists Ex.x86_64_valid Ex.env_lawful hi (Ex.light_hasVal _)
  refine ⟨x, ?_⟩
  simp only [List.map_cons, List.map_nil, sessions]
  obtain ⟨w, hw, -⟩ := history_infallible (cursorVecSink_infallible Unit)
    (Writer.new ⟨List.replicate 40 1, 32⟩) (items_wf Ex.x86_64_valid Ex.env_lawful [x])
  simp only [List.map_cons, List.map_nil] at hw
  rw [hw]
  obtain ⟨w', hw', -⟩ := history_infallible (cursorVecSink_infallible Unit)
    (Writer.new w.sink) (items_wf Ex.x86_64_valid Ex.env_lawful [x, x])
  simp only [List.map_cons, List.map_nil] at hw'
  rw [hw']
  exact ⟨[(_, w.len), (_, w'.len)], w'.sink, h1, rfl⟩

/-- Splitting does make a difference otherwise: 4 bytes, then a value of alignment 16. -/
example :
    (Writer.new []).history (vecSink Unit) [.std ⟨4, 4, [1, 1, 1, 1]⟩, .std ⟨16, 4, [2, 2, 2, 2]⟩] =
      ([.ok 0, .ok 16], ⟨[1, 1, 1, 1] ++ List.replicate 12 0 ++ [2, 2, 2, 2], 20⟩) ∧
    sessions (vecSink Unit) [] [[.std ⟨4, 4, [1, 1, 1, 1]⟩], [.std ⟨16, 4, [2, 2, 2, 2]⟩]] =
      (okSessions [([0], 4), ([0], 4)], [1, 1, 1, 1, 2, 2, 2, 2]) := ⟨rfl, rfl⟩

/-- Writing 6 bytes in the middle of a slice, and past the end of a vector. -/
example :
    (Writer.new ⟨[9, 9, 9, 9, 9, 9, 9, 9, 9, 9], 2⟩).history cursorSliceSink
        [.std ⟨4, 2, [1, 1]⟩, .std ⟨4, 2, [2, 2]⟩] =
      ([.ok 0, .ok 4], ⟨⟨[9, 9, 1, 1, 0, 0, 2, 2, 9, 9], 8⟩, 6⟩) ∧
    (Writer.new ⟨[9, 9], 4⟩).history (cursorVecSink Unit) [.std ⟨4, 2, [1, 1]⟩, .std ⟨4, 2, [2, 2]⟩] =
      ([.ok 0, .ok 4], ⟨⟨[9, 9, 0, 0, 1, 1, 0, 0, 2, 2], 10⟩, 6⟩) := ⟨rfl, rfl⟩

end Crevice
