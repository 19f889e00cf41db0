import Verif.Proof.Iter
import Verif.Props.C24_C39
/-
C50: `write_iter` on arbitrary iterators.
-/
namespace Crevice

variable {σ ε ι : Type}

/-- C50: `write_iter` has at most one outcome. -/
theorem C50_deterministic {k : Sink σ ε} {it : Iter ι} {w : Writer σ} {st : ι}
    {r r' : Except ε Nat} {w₁ w₂ : Writer σ} {st₁ st₂ : ι}
    (h : w.IterReturns k it st r w₁ st₁) (h' : w.IterReturns k it st r' w₂ st₂) :
    r = r' ∧ w₁ = w₂ ∧ st₁ = st₂ := by
  obtain ⟨f, h⟩ := h
  obtain ⟨f', h'⟩ := h'
  have := (runIter_mono h (Nat.le_max_left f f')).symm.trans (runIter_mono h' (Nat.le_max_right f f'))
  simpa using this

/-- C50: if the iterator yields the items `x, xs...` and then says `None`, `write_iter` ends with the
result and the Writer that writing the slice of these items gives. On success the iterator has been
asked until it said `None`, and not again. -/
theorem C50_ok {k : Sink σ ε} {it : Iter ι} {w w' : Writer σ} {st st' : ι} {x : WVal} {xs : List WVal}
    (hy : it.Yields st (x :: xs) st') {o : Nat} (h : w.write k (.slice (x :: xs)) = (.ok o, w')) :
    w.IterReturns k it st (.ok o) w' st' := by
  obtain ⟨mid, ht, hn⟩ := hy
  cases ht with
  | cons hx ht =>
    rw [Writer.write] at h
    rcases hw : w.write k x with ⟨e | o₁, w₁⟩
    · simp [hw] at h
    · simp only [hw] at h
      rcases hr : w₁.writeRest k xs with ⟨e | u, w₂⟩
      · simp [hr] at h
      · simp only [hr, Prod.mk.injEq, Except.ok.injEq] at h
        obtain ⟨rfl, rfl⟩ := h
        refine ⟨xs.length + 1, ?_⟩
        unfold Writer.runIter
        simp only [hx, hw]
        rw [forLoop_yields ⟨mid, ht, hn⟩ hr]

/-- C50: if writing item `m` of those the iterator yields is the first to fail, `write_iter` returns
that error, and exactly the items up to and including `m` have been taken from the iterator. (What
it would have yielded later, if anything, does not matter.) -/
theorem C50_error {k : Sink σ ε} {it : Iter ι} {w w₁ w' : Writer σ} {st mid : ι} {xs : List WVal}
    (ht : it.Takes st xs mid) {m : Nat} (hm : m < xs.length) {os : List Nat}
    (hbefore : w.history k (xs.take m) = (os.map .ok, w₁)) {e : ε}
    (hfail : w₁.write k xs[m] = (.error e, w')) :
    ∃ st', it.Takes st (xs.take (m + 1)) st' ∧ w.IterReturns k it st (.error e) w' st' := by
  have hs : StopsAt k w xs e w' m := by
    clear ht
    induction m generalizing xs w os with
    | zero =>
      cases xs with
      | nil => simp at hm
      | cons x r =>
        simp only [List.take_zero, Writer.history, Prod.mk.injEq] at hbefore
        obtain ⟨-, rfl⟩ := hbefore
        exact .here hfail
    | succ m ih =>
      cases xs with
      | nil => simp at hm
      | cons x r =>
        rw [List.take_succ_cons, history_cons] at hbefore
        cases os with
        | nil => simp at hbefore
        | cons o os =>
          simp only [Prod.mk.injEq, List.map_cons, List.cons.injEq] at hbefore
          rcases hw : w.write k x with ⟨e' | o', w₂⟩
          · simp [hw] at hbefore
          · rw [hw] at hbefore
            refine .later hw (ih (os := os) (by simpa using hm) (Prod.ext hbefore.1.2 hbefore.2) ?_)
            simpa using hfail
  cases ht with
  | nil => simp at hm
  | cons hx ht =>
    cases hs with
    | here hw =>
      refine ⟨_, Iter.Takes.cons hx (Iter.Takes.nil (it := it)), 0, ?_⟩
      unfold Writer.runIter
      simp only [hx, hw]
    | later hw hs =>
      obtain ⟨st', h1, h2⟩ := forLoop_stops ht hs
      rename_i m
      refine ⟨st', Iter.Takes.cons hx h1, m + 1, ?_⟩
      unfold Writer.runIter
      simp only [hx, hw, h2]

/-- C50: an iterator that says `None` at once is asked a second time. If it keeps saying `None`, as
all iterators of std do, nothing is written and `len()` is returned. -/
theorem C50_empty {k : Sink σ ε} {it : Iter ι} {w : Writer σ} {st st₁ st₂ : ι}
    (h1 : it.Yields st [] st₁) (h2 : it.Yields st₁ [] st₂) :
    w.IterReturns k it st (.ok w.len) w st₂ := by
  obtain ⟨_, ⟨⟩, h1⟩ := h1
  refine ⟨1, ?_⟩
  unfold Writer.runIter
  simp only [h1]
  have : w.writeRest k [] = (.ok (), w) := by rw [Writer.writeRest]
  rw [show (1 : Nat) = ([] : List WVal).length + 1 from rfl, forLoop_yields h2 this]
  rfl

/-- C50: if an iterator yields items after it has said `None` at once, these are written all the
same, but the offset returned is `len()` before the call, wherever the first item went. -/
theorem C50_resumes {k : Sink σ ε} {it : Iter ι} {w w' : Writer σ} {st st₁ st₂ : ι} {ys : List WVal}
    (h1 : it.Yields st [] st₁) (h2 : it.Yields st₁ ys st₂) {os : List Nat}
    (h : w.history k ys = (os.map .ok, w')) :
    w.IterReturns k it st (.ok w.len) w' st₂ := by
  obtain ⟨_, ⟨⟩, h1⟩ := h1
  refine ⟨ys.length + 1, ?_⟩
  unfold Writer.runIter
  simp only [h1]
  have : w.writeRest k ys = (.ok (), w') := by
    rw [writeRest_eq_seq]
    exact (history_ok_iff_seq k w w' ys).1 ⟨os, h⟩
  rw [forLoop_yields h2 this]
  rfl

/-- An iterator that is not fused: `None`, one item, `None`. -/
def pauseIter (x : WVal) : Iter Nat :=
  { next := fun n => if n = 1 then (some x, 2) else (none, n + 1) }

/-- C50, what does not hold: the offset returned need not be that of the first item written. After 4
bytes, an iterator that pauses and then yields a value of alignment 16: `write_iter` returns 4, but
the value is at 16. -/
theorem C50_offset_exception :
    ∃ (x : StdVal) (w' : Writer (List Byte)),
      (⟨[1, 1, 1, 1], 4⟩ : Writer (List Byte)).IterReturns (vecSink Unit) (pauseIter (.std x)) 0 (.ok 4)
        w' 3 ∧
      SliceAt w'.sink 16 x.bytes ∧ x.bytes = [2, 2, 2, 2] ∧
      w'.sink = [1, 1, 1, 1] ++ List.replicate 12 0 ++ [2, 2, 2, 2] := by
  exact ⟨⟨16, 4, [2, 2, 2, 2]⟩, _, ⟨2, rfl⟩, rfl, rfl, rfl⟩

/-- C50: on a sink that never fails, `write_iter` of an endless iterator runs forever. -/
theorem C50_diverges {k : Sink σ ε} (hk : k.Infallible) {it : Iter ι} {w : Writer σ} {st : ι}
    {items : Nat → WVal} (he : it.Endless st items) (hwf : ∀ n, (items n).Wf) :
    w.IterDiverges k it st := by
  intro fuel
  obtain ⟨mid, ht⟩ := he (fuel + 1)
  obtain ⟨w', h, -⟩ := history_infallible hk w (vs := (List.range (fuel + 1)).map items) (by
    intro v hv
    obtain ⟨n, -, rfl⟩ := List.mem_map.1 hv
    exact hwf n)
  rw [List.range_succ_eq_map, List.map_cons] at ht h
  cases ht with
  | cons hx ht =>
    rw [history_cons] at h
    simp only [Prod.mk.injEq, returned, List.map_cons, List.cons.injEq] at h
    rcases hw : w.write k (items 0) with ⟨e | o, w₁⟩
    · simp [hw] at h
    · rw [hw] at h
      unfold Writer.runIter
      simp only [hx, hw]
      rw [forLoop_diverges ht (Prod.ext h.1.2 h.2) (by simp)]

theorem runCalls_slice_full {s : SliceState} {cs : List (List Byte)} {e : Unit}
    (h : (runCalls sliceSink s cs).1 = .error e) : (runCalls sliceSink s cs).2.rest = [] := by
  induction cs generalizing s with
  | nil => simp [runCalls] at h
  | cons c r ih =>
    simp only [runCalls, sliceSink] at h ⊢
    by_cases hc : min c.length s.rest.length < c.length
    · simp only [hc, if_true]
      rw [List.drop_eq_nil_iff]
      omega
    · simp only [hc, if_false] at h ⊢
      exact ih h

theorem write_slice_full {w w' : Writer SliceState} {v : WVal} (hwf : v.Wf) {e : Unit}
    (h : w.write sliceSink v = (.error e, w')) : w'.sink.rest = [] := by
  rw [write_eq_seq] at h
  obtain ⟨t1, t2, -⟩ := seqStd_trace sliceSink w v.leaves hwf
  rcases hs : seqStd sliceSink w v.leaves with ⟨e' | u, w₁⟩
  · simp only [hs, Prod.mk.injEq] at h t1 t2
    obtain ⟨-, rfl⟩ := h
    rw [t2]
    exact runCalls_slice_full t1.symm
  · simp [hs] at h

theorem endOf_ge_length (off : Nat) (xs : List WVal) (hpos : ∀ v ∈ xs, ∃ x ∈ v.leaves, 0 < x.bytes.length) :
    off + xs.length ≤ endOf off (leavesList xs) := by
  have one : ∀ (ys : List StdVal) (off : Nat), (∃ x ∈ ys, 0 < x.bytes.length) → off + 1 ≤ endOf off ys := by
    intro ys
    induction ys with
    | nil => rintro off ⟨x, hx, -⟩; simp at hx
    | cons y r ih =>
      rintro off ⟨x, hx, hp⟩
      rw [endOf]
      have h1 := le_nextOffset off y.alignment
      rcases List.mem_cons.1 hx with rfl | hx
      · have := le_endOf (nextOffset off x.alignment + x.bytes.length) r
        omega
      · have := ih (nextOffset off y.alignment + y.bytes.length) ⟨x, hx, hp⟩
        omega
  induction xs generalizing off with
  | nil => simp [leavesList, endOf]
  | cons v r ih =>
    rw [leavesList_cons, endOf_append, List.length_cons]
    have h1 := one v.leaves off (hpos v (by simp))
    have h2 := ih (endOf off v.leaves) fun x hx => hpos x (by simp [hx])
    omega

/-- C50: writing an endless iterator of values that are not empty into a fixed buffer ends with an
error when the buffer is full. The buffer then holds as much as fits of what writing the items taken
from the iterator would give. -/
theorem C50_fixed_buffer {it : Iter ι} {st : ι} {items : Nat → WVal} (he : it.Endless st items)
    (hwf : ∀ n, (items n).Wf) (hpos : ∀ n, ∃ x ∈ (items n).leaves, 0 < x.size) (buf : List Byte) :
    ∃ (w' : Writer SliceState) (st' : ι) (m : Nat),
      (Writer.new ⟨[], buf⟩).IterReturns sliceSink it st (.error ()) w' st' ∧
      it.Takes st ((List.range (m + 1)).map items) st' ∧ m ≤ buf.length ∧
      w'.sink.rest = [] ∧ w'.sink.filled.length = buf.length ∧
      ∃ w'' : Writer (List Byte), ∃ os : List Nat,
        (Writer.new []).history (vecSink Unit) ((List.range (m + 1)).map items) = (os.map .ok, w'') ∧
          w'.sink.filled <+: w''.sink := by
  let n := buf.length + 1
  have hwfl : ∀ n, ∀ v ∈ (List.range n).map items, v.Wf := by
    intro n v hv
    obtain ⟨j, -, rfl⟩ := List.mem_map.1 hv
    exact hwf j
  have hwl : ∀ n, ∀ x ∈ leavesList ((List.range n).map items), x.bytes.length = x.size :=
    fun n => wf_leaves (hwfl n)
  rcases writeRest_cases sliceSink (Writer.new ⟨[], buf⟩) ((List.range n).map items) with
    ⟨w', h⟩ | ⟨e, w', m, h, hs⟩
  · exfalso
    rw [writeRest_eq_seq] at h
    obtain ⟨t1, -, -⟩ := seqStd_trace sliceSink (Writer.new ⟨[], buf⟩) _ (hwl n)
    rw [h] at t1
    have h1 := (runCalls_slice _ _).1.1 t1.symm
    rw [calls_flatten] at h1
    have h2 := image_length 0 (leavesList ((List.range n).map items))
    have h3 := endOf_ge_length 0 ((List.range n).map items) (by
      intro v hv
      obtain ⟨j, -, rfl⟩ := List.mem_map.1 hv
      obtain ⟨x, hx, hp⟩ := hpos j
      exact ⟨x, hx, by rw [hwf j x hx]; exact hp⟩)
    simp only [Writer.new, List.length_map, List.length_range] at h1 h3
    have h4 : (SliceState.mk [] buf).rest.length = buf.length := rfl
    omega
  · obtain ⟨os, w₁, hm, h1, h2⟩ := hs.history
    obtain ⟨mid, ht⟩ := he n
    obtain ⟨st', h3, h4⟩ := C50_error ht hm h1 h2
    have hmn : m < n := by simpa using hm
    have htk : ∀ j, j ≤ n → ((List.range n).map items).take j = (List.range j).map items := by
      intro j hj
      rw [← List.map_take, List.take_range, Nat.min_eq_left hj]
    rw [htk _ (by omega)] at h3
    have hget : ((List.range n).map items)[m] = items m := by simp
    rw [hget] at h2
    rw [htk _ (by omega)] at h1
    obtain ⟨g1, g2, g3⟩ := history_ok sliceSink_lawful (hwfl m) h1
    obtain ⟨p, hp, g4, -, -⟩ := write_error sliceSink_lawful (hwf m) h2
    obtain ⟨w'', q1, q2⟩ := history_infallible (vecSink_infallible Unit) (Writer.new [])
      (hwfl (m + 1))
    obtain ⟨q3, q4, q5⟩ := history_ok (vecSink_lawful Unit) (hwfl (m + 1)) q1
    have hrest := write_slice_full (hwf m) h2
    refine ⟨w', st', m, h4, h3, by omega, hrest, ?_, w'', _, q1, ?_⟩
    · rw [writeRest_eq_seq] at h
      obtain ⟨t1, t2, -⟩ := seqStd_trace sliceSink (Writer.new ⟨[], buf⟩) _ (hwl n)
      have := (runCalls_slice (calls (Writer.new (⟨[], buf⟩ : SliceState)).offset
          (leavesList ((List.range n).map items))) (Writer.new (⟨[], buf⟩ : SliceState)).sink).2.2
      rw [← t2, h] at this
      simp only [hrest, List.length_nil, Nat.add_zero, Writer.new, Nat.zero_add] at this
      exact this
    · have hf : w'.sink.filled = ([] ++ image 0 (leavesList ((List.range m).map items))) ++ p := by
        have : sliceSink.delivered w'.sink = w'.sink.filled := rfl
        rw [← this, g4, g3]; rfl
      have hv : w''.sink = [] ++ image 0 (leavesList ((List.range (m + 1)).map items)) := q5
      rw [hf, hv, List.range_succ, List.map_append, leavesList_append, image_append, List.nil_append,
        List.nil_append, List.prefix_append_right_inj]
      refine hp.trans ?_
      rw [g2]
      simp only [Writer.new, List.map_cons, List.map_nil, leavesList, List.append_nil]
      exact List.prefix_refl _

/-- An endless iterator: `std::iter::repeat`. -/
def repeatIter (x : WVal) : Iter Unit := { next := fun s => (some x, s) }

example (x : WVal) : (repeatIter x).Endless () fun _ => x := by
  intro n
  refine ⟨(), ?_⟩
  generalize List.range n = l
  induction l with
  | nil => exact .nil
  | cons a r ih => exact .cons rfl ih

/-- `Vec::into_iter` yields the elements of the vector. -/
example (x : WVal) (xs : List WVal) : listIter.Yields (x :: xs) (x :: xs) [] := listIter_yields _

/-- Three values into 7 bytes: the first two are taken from the iterator, the second does not fit. -/
example : (Writer.new ⟨[], List.replicate 7 9⟩).IterReturns sliceSink listIter
    [.std ⟨4, 4, [1, 1, 1, 1]⟩, .std ⟨4, 4, [2, 2, 2, 2]⟩, .std ⟨4, 4, [3, 3, 3, 3]⟩] (.error ())
    ⟨⟨[1, 1, 1, 1, 2, 2, 2], []⟩, 4⟩ [.std ⟨4, 4, [3, 3, 3, 3]⟩] := ⟨3, rfl⟩

end Crevice
