import Verif.Proof.Good
import Verif.Spec.Image
/-
The Writer against its specification.
-/
namespace Crevice

theorem WVal.ind {P : WVal → Prop} (h1 : ∀ x, P (.std x))
    (h2 : ∀ xs, (∀ x ∈ xs, P x) → P (.slice xs)) : ∀ v, P v := by
  intro v
  refine WVal.rec (motive_1 := P) (motive_2 := fun xs => ∀ x ∈ xs, P x) h1 h2 ?_ ?_ v
  · intro f hf; simp at hf
  · intro f r h1 h2 g hg
    rcases List.mem_cons.1 hg with rfl | hg
    · exact h1
    · exact h2 g hg

theorem alignOffset_zero (o : Nat) : alignOffset o 0 = 0 := by simp [alignOffset]

theorem nextOffset_eq (off a : Nat) : nextOffset off a = off + alignOffset off a := by
  unfold nextOffset
  split
  · rename_i h; subst h; rw [alignOffset_zero]; rfl
  · rw [roundUp_eq _ _ (by omega)]

theorem le_nextOffset (off a : Nat) : off ≤ nextOffset off a := by rw [nextOffset_eq]; omega

/-- `write_stdN` over a flat list. -/
def seqStd {σ ε : Type} (k : Sink σ ε) (w : Writer σ) : List StdVal → Except ε Unit × Writer σ
  | [] => (.ok (), w)
  | x :: r =>
    match w.writeStd k x with
    | (.error e, w) => (.error e, w)
    | (.ok _, w) => seqStd k w r

theorem seqStd_append {σ ε : Type} (k : Sink σ ε) (w : Writer σ) (xs ys : List StdVal) :
    seqStd k w (xs ++ ys) =
      match seqStd k w xs with
      | (.error e, w) => (.error e, w)
      | (.ok (), w) => seqStd k w ys := by
  induction xs generalizing w with
  | nil => rfl
  | cons x r ih =>
    simp only [List.cons_append, seqStd]
    rcases w.writeStd k x with ⟨e | o, w'⟩
    · rfl
    · simp only [ih]

theorem writeStd_ok_offset {σ ε : Type} {k : Sink σ ε} {w w' : Writer σ} {x : StdVal} {o : Nat}
    (h : w.writeStd k x = (.ok o, w')) :
    o = nextOffset w.offset x.alignment ∧ w'.offset = o + x.size := by
  unfold Writer.writeStd at h
  simp only at h
  rcases hz : writeZeros k (alignOffset w.offset x.alignment) w.sink with ⟨e | u, s⟩
  · simp [hz] at h
  · simp only [hz] at h
    rcases hw : k.writeAll s x.bytes with ⟨e | u, s'⟩
    · simp [hw] at h
    · simp only [hw, Prod.mk.injEq, Except.ok.injEq] at h
      obtain ⟨rfl, rfl⟩ := h
      exact ⟨(nextOffset_eq _ _).symm, rfl⟩

/-- A write is the sequence of its `write_stdN`s. -/
theorem write_eq_seq {σ ε : Type} (k : Sink σ ε) (w : Writer σ) (v : WVal) :
    w.write k v =
      match seqStd k w v.leaves with
      | (.error e, w') => (.error e, w')
      | (.ok (), w') => (.ok (v.firstOffset w.offset), w') := by
  induction v using WVal.ind generalizing w with
  | h1 x =>
    simp only [Writer.write, WVal.leaves, seqStd, WVal.firstOffset]
    rcases h : w.writeStd k x with ⟨e | o, w'⟩
    · rfl
    · simp only [(writeStd_ok_offset h).1]
  | h2 xs ih =>
    have hrest : ∀ (xs : List WVal), (∀ x ∈ xs, ∀ w : Writer σ, w.write k x =
        match seqStd k w x.leaves with
        | (.error e, w') => (.error e, w')
        | (.ok (), w') => (.ok (x.firstOffset w.offset), w')) →
        ∀ w : Writer σ, w.writeRest k xs = seqStd k w (leavesList xs) := by
      intro xs
      induction xs with
      | nil => intro _ w; simp [Writer.writeRest, leavesList, seqStd]
      | cons x r ihr =>
        intro hx w
        simp only [Writer.writeRest, leavesList, seqStd_append]
        rw [hx x (by simp) w]
        rcases seqStd k w x.leaves with ⟨e | o, w'⟩
        · rfl
        · simp only
          exact ihr (fun y hy => hx y (List.mem_cons_of_mem _ hy)) w'
    cases xs with
    | nil => simp [Writer.write, WVal.leaves, leavesList, seqStd, WVal.firstOffset, Writer.len]
    | cons x r =>
      simp only [Writer.write, WVal.leaves, leavesList, seqStd_append, WVal.firstOffset]
      rw [ih x (by simp) w]
      rcases seqStd k w x.leaves with ⟨e | o, w'⟩
      · rfl
      · simp only
        rw [hrest r (fun y hy => ih y (List.mem_cons_of_mem _ hy)) w']
        rcases seqStd k w' (leavesList r) with ⟨e | o, w''⟩ <;> rfl

theorem writeRest_eq_seq {σ ε : Type} (k : Sink σ ε) (w : Writer σ) (xs : List WVal) :
    w.writeRest k xs = seqStd k w (leavesList xs) := by
  induction xs generalizing w with
  | nil => simp [Writer.writeRest, leavesList, seqStd]
  | cons x r ih =>
    simp only [Writer.writeRest, leavesList, seqStd_append]
    rw [write_eq_seq k w x]
    rcases seqStd k w x.leaves with ⟨e | o, w'⟩
    · rfl
    · simp only; exact ih w'

theorem writeZeros_eq {σ ε : Type} (k : Sink σ ε) (n : Nat) (s : σ) :
    writeZeros k n s = runCalls k s (List.replicate n [0]) := by
  induction n generalizing s with
  | zero => rfl
  | succ n ih =>
    simp only [writeZeros, List.replicate_succ, runCalls]
    rcases k.writeAll s [0] with ⟨e | u, s'⟩
    · rfl
    · exact ih s'

theorem runCalls_append {σ ε : Type} (k : Sink σ ε) (s : σ) (xs ys : List (List Byte)) :
    runCalls k s (xs ++ ys) =
      match runCalls k s xs with
      | (.error e, s) => (.error e, s)
      | (.ok (), s) => runCalls k s ys := by
  induction xs generalizing s with
  | nil => rfl
  | cons x r ih =>
    simp only [List.cons_append, runCalls]
    rcases k.writeAll s x with ⟨e | o, s'⟩
    · rfl
    · simp only [ih]

/-- The exact interaction with the sink, and the final offset on success. -/
theorem seqStd_trace {σ ε : Type} (k : Sink σ ε) (w : Writer σ) (xs : List StdVal)
    (hwf : ∀ x ∈ xs, x.bytes.length = x.size) :
    (seqStd k w xs).1 = (runCalls k w.sink (calls w.offset xs)).1 ∧
    (seqStd k w xs).2.sink = (runCalls k w.sink (calls w.offset xs)).2 ∧
    ((seqStd k w xs).1 = .ok () → (seqStd k w xs).2.offset = endOf w.offset xs) := by
  induction xs generalizing w with
  | nil => exact ⟨rfl, rfl, fun _ => rfl⟩
  | cons x r ih =>
    simp only [seqStd, calls, runCalls_append, endOf]
    have hpad : nextOffset w.offset x.alignment - w.offset = alignOffset w.offset x.alignment := by
      rw [nextOffset_eq]; omega
    rw [hpad, ← writeZeros_eq]
    unfold Writer.writeStd
    simp only
    rcases hz : writeZeros k (alignOffset w.offset x.alignment) w.sink with ⟨e | u, s⟩
    · exact ⟨rfl, rfl, fun h => by simp at h⟩
    · simp only [runCalls]
      rcases hw : k.writeAll s x.bytes with ⟨e | u, s'⟩
      · exact ⟨rfl, rfl, fun h => by simp at h⟩
      · simp only
        have := ih { sink := s', offset := w.offset + alignOffset w.offset x.alignment + x.size }
          (fun y hy => hwf y (List.mem_cons_of_mem _ hy))
        simp only [← nextOffset_eq, ← hwf x (by simp)] at this ⊢
        exact this

/-- Bytes of the calls. -/
theorem calls_flatten (off : Nat) (xs : List StdVal) : (calls off xs).flatten = image off xs := by
  induction xs generalizing off with
  | nil => rfl
  | cons x r ih =>
    simp only [calls, image, List.flatten_append, List.flatten_cons, ih]
    have : ∀ n, (List.replicate n [(0 : Byte)]).flatten = List.replicate n 0 := by
      intro n; induction n with
      | zero => rfl
      | succ n ih => simp only [List.replicate_succ, List.flatten_cons, ih]; rfl
    rw [this, List.append_assoc]

/-- What a lawful sink has received after a sequence of calls. -/
theorem runCalls_delivered {σ ε : Type} {k : Sink σ ε} (hk : k.Lawful) (s : σ) (cs : List (List Byte)) :
    (∀ s', runCalls k s cs = (.ok (), s') → k.delivered s' = k.delivered s ++ cs.flatten) ∧
    (∀ e s', runCalls k s cs = (.error e, s') →
      ∃ p, p <+: cs.flatten ∧ k.delivered s' = k.delivered s ++ p) := by
  induction cs generalizing s with
  | nil =>
    refine ⟨?_, ?_⟩
    · intro s' h; simp [runCalls] at h; subst h; simp
    · intro e s' h; simp [runCalls] at h
  | cons c r ih =>
    simp only [runCalls, List.flatten_cons]
    rcases hc : k.writeAll s c with ⟨e | u, s₁⟩
    · refine ⟨fun s' h => by simp at h, ?_⟩
      intro e' s' h
      simp only [Prod.mk.injEq, Except.error.injEq] at h
      obtain ⟨rfl, rfl⟩ := h
      obtain ⟨p, hp, hd⟩ := hk.err s c e s₁ hc
      exact ⟨p, hp.trans (List.prefix_append _ _), hd⟩
    · have h1 := hk.ok s c s₁ hc
      obtain ⟨h2, h3⟩ := ih s₁
      refine ⟨?_, ?_⟩
      · intro s' h
        rw [h2 s' h, h1, List.append_assoc]
      · intro e s' h
        obtain ⟨p, hp, hd⟩ := h3 e s' h
        exact ⟨c ++ p, (List.prefix_append_right_inj c).2 hp, by rw [hd, h1, List.append_assoc]⟩

theorem image_length (off : Nat) (xs : List StdVal) : off + (image off xs).length = endOf off xs := by
  induction xs generalizing off with
  | nil => rfl
  | cons x r ih =>
    simp only [image, endOf, List.length_append, List.length_replicate]
    rw [← ih]
    have := le_nextOffset off x.alignment
    omega

/-- On an error the offset has advanced by no more than has been received. -/
theorem seqStd_error {σ ε : Type} {k : Sink σ ε} (hk : k.Lawful) (w w' : Writer σ) (xs : List StdVal)
    (hwf : ∀ x ∈ xs, x.bytes.length = x.size) {e : ε} (h : seqStd k w xs = (.error e, w')) :
    ∃ p, p <+: image w.offset xs ∧ k.delivered w'.sink = k.delivered w.sink ++ p ∧
      w.offset ≤ w'.offset ∧ w'.offset ≤ w.offset + p.length := by
  induction xs generalizing w with
  | nil => simp [seqStd] at h
  | cons x r ih =>
    have hpad : nextOffset w.offset x.alignment - w.offset = alignOffset w.offset x.alignment := by
      rw [nextOffset_eq]; omega
    simp only [seqStd] at h
    simp only [image]
    rw [hpad]
    rcases hx : w.writeStd k x with ⟨e' | o, w₁⟩
    · simp only [hx, Prod.mk.injEq, Except.error.injEq] at h
      obtain ⟨rfl, rfl⟩ := h
      unfold Writer.writeStd at hx
      simp only at hx
      rcases hz : writeZeros k (alignOffset w.offset x.alignment) w.sink with ⟨e | u, s⟩
      · simp only [hz, Prod.mk.injEq, Except.error.injEq] at hx
        obtain ⟨rfl, rfl⟩ := hx
        rw [writeZeros_eq] at hz
        obtain ⟨p, hp, hd⟩ := (runCalls_delivered hk _ _).2 _ _ hz
        refine ⟨p, ?_, hd, Nat.le_refl _, by simp⟩
        have : (List.replicate (alignOffset w.offset x.alignment) [(0 : Byte)]).flatten =
            List.replicate (alignOffset w.offset x.alignment) 0 := by
          generalize alignOffset w.offset x.alignment = n
          induction n with
          | zero => rfl
          | succ n ih => simp only [List.replicate_succ, List.flatten_cons, ih]; rfl
        rw [this] at hp
        rw [List.append_assoc]
        exact hp.trans (List.prefix_append _ _)
      · simp only [hz] at hx
        rw [writeZeros_eq] at hz
        have hd := (runCalls_delivered hk _ _).1 _ hz
        have hfl : (List.replicate (alignOffset w.offset x.alignment) [(0 : Byte)]).flatten =
            List.replicate (alignOffset w.offset x.alignment) 0 := by
          generalize alignOffset w.offset x.alignment = n
          induction n with
          | zero => rfl
          | succ n ih => simp only [List.replicate_succ, List.flatten_cons, ih]; rfl
        rw [hfl] at hd
        rcases hw : k.writeAll s x.bytes with ⟨e | u, s'⟩
        · simp only [hw, Prod.mk.injEq, Except.error.injEq] at hx
          obtain ⟨rfl, rfl⟩ := hx
          obtain ⟨p, hp, hd2⟩ := hk.err _ _ _ _ hw
          refine ⟨List.replicate (alignOffset w.offset x.alignment) 0 ++ p, ?_, ?_, ?_, ?_⟩
          · rw [List.append_assoc]
            exact (List.prefix_append_right_inj _).2 (hp.trans (List.prefix_append _ _))
          · rw [hd2, hd, List.append_assoc]
          · simp
          · simp
        · simp [hw] at hx
    · simp only [hx] at h
      obtain ⟨p, hp, hd, h1, h2⟩ := ih w₁ (fun y hy => hwf y (List.mem_cons_of_mem _ hy)) h
      obtain ⟨ho, hoff⟩ := writeStd_ok_offset hx
      have hsz := hwf x (by simp)
      have htr := seqStd_trace k w [x] (by intro y hy; simp at hy; subst hy; exact hsz)
      simp only [seqStd, hx] at htr
      obtain ⟨t1, t2, _⟩ := htr
      have hrc : runCalls k w.sink (calls w.offset [x]) = (.ok (), w₁.sink) := by
        rw [t2, t1]
      have hd1 := (runCalls_delivered hk _ _).1 _ hrc
      rw [calls_flatten] at hd1
      simp only [image, List.append_nil, hpad] at hd1
      refine ⟨List.replicate (alignOffset w.offset x.alignment) 0 ++ x.bytes ++ p, ?_, ?_, ?_, ?_⟩
      · rw [hoff, ho, ← hsz] at hp
        exact (List.prefix_append_right_inj _).2 hp
      · rw [hd, hd1]; simp
      · have := le_nextOffset w.offset x.alignment; omega
      · rw [nextOffset_eq] at ho
        simp only [List.length_append, List.length_replicate]
        omega

theorem writer_ext {σ : Type} {a b : Writer σ} (h1 : a.sink = b.sink) (h2 : a.offset = b.offset) : a = b := by
  cases a; cases b; simp_all

theorem leaves_mem_slice {xs : List WVal} {v : WVal} (hv : v ∈ xs) {x : StdVal} (hx : x ∈ v.leaves) :
    x ∈ leavesList xs := by
  induction xs with
  | nil => simp at hv
  | cons y r ih =>
    simp only [leavesList, List.mem_append]
    rcases List.mem_cons.1 hv with rfl | hv
    · exact .inl hx
    · exact .inr (ih hv)

theorem mem_leavesList {xs : List WVal} {x : StdVal} (h : x ∈ leavesList xs) :
    ∃ v ∈ xs, x ∈ v.leaves := by
  induction xs with
  | nil => simp [leavesList] at h
  | cons y r ih =>
    simp only [leavesList, List.mem_append] at h
    rcases h with h | h
    · exact ⟨y, by simp, h⟩
    · obtain ⟨v, hv, hx⟩ := ih h
      exact ⟨v, List.mem_cons_of_mem _ hv, hx⟩

theorem leavesList_append (xs ys : List WVal) :
    leavesList (xs ++ ys) = leavesList xs ++ leavesList ys := by
  induction xs with
  | nil => rfl
  | cons x r ih => simp [leavesList, ih]

/-- A successful write, specified. -/
theorem write_ok {σ ε : Type} {k : Sink σ ε} (hk : k.Lawful) {w w' : Writer σ} {v : WVal}
    (hwf : v.Wf) {o : Nat} (h : w.write k v = (.ok o, w')) :
    o = v.firstOffset w.offset ∧ w'.offset = endOf w.offset v.leaves ∧
      k.delivered w'.sink = k.delivered w.sink ++ image w.offset v.leaves := by
  rw [write_eq_seq] at h
  obtain ⟨t1, t2, t3⟩ := seqStd_trace k w v.leaves hwf
  rcases hs : seqStd k w v.leaves with ⟨e | u, w₁⟩
  · simp [hs] at h
  · simp only [hs, Prod.mk.injEq, Except.ok.injEq] at h
    obtain ⟨rfl, rfl⟩ := h
    rw [hs] at t1 t2 t3
    refine ⟨rfl, t3 rfl, ?_⟩
    have hrc : runCalls k w.sink (calls w.offset v.leaves) = (.ok (), w₁.sink) :=
      Prod.ext t1.symm t2.symm
    rw [(runCalls_delivered hk _ _).1 _ hrc, calls_flatten]

/-- A failed write, specified. -/
theorem write_error {σ ε : Type} {k : Sink σ ε} (hk : k.Lawful) {w w' : Writer σ} {v : WVal}
    (hwf : v.Wf) {e : ε} (h : w.write k v = (.error e, w')) :
    ∃ p, p <+: image w.offset v.leaves ∧ k.delivered w'.sink = k.delivered w.sink ++ p ∧
      w.offset ≤ w'.offset ∧ w'.offset ≤ w.offset + p.length := by
  rw [write_eq_seq] at h
  rcases hs : seqStd k w v.leaves with ⟨e' | u, w₁⟩
  · simp only [hs, Prod.mk.injEq, Except.error.injEq] at h
    obtain ⟨rfl, rfl⟩ := h
    exact seqStd_error hk w w₁ _ hwf hs
  · simp [hs] at h

theorem endOf_append (off : Nat) (xs ys : List StdVal) :
    endOf off (xs ++ ys) = endOf (endOf off xs) ys := by
  induction xs generalizing off with
  | nil => rfl
  | cons x r ih => simp only [List.cons_append, endOf, ih]

theorem image_append (off : Nat) (xs ys : List StdVal) :
    image off (xs ++ ys) = image off xs ++ image (endOf off xs) ys := by
  induction xs generalizing off with
  | nil => rfl
  | cons x r ih => simp only [List.cons_append, image, endOf, ih, List.append_assoc]

theorem places_append (off : Nat) (xs ys : List StdVal) :
    places off (xs ++ ys) = places off xs ++ places (endOf off xs) ys := by
  induction xs generalizing off with
  | nil => rfl
  | cons x r ih => simp only [List.cons_append, places, endOf, ih]

theorem le_endOf (off : Nat) (xs : List StdVal) : off ≤ endOf off xs := by
  rw [← image_length]; omega

/-! ### Sinks -/

theorem vecSink_lawful (ε : Type) : (vecSink ε).Lawful := by
  refine ⟨?_, ?_⟩
  · intro s bs s' h; simp only [vecSink, Prod.mk.injEq, true_and] at h; rw [← h]; rfl
  · intro s bs e s' h; simp [vecSink] at h

theorem vecSink_infallible (ε : Type) : (vecSink ε).Infallible := fun _ _ => ⟨_, rfl⟩

theorem nullSink_lawful (ε : Type) : (nullSink ε).Lawful := vecSink_lawful ε

theorem nullSink_infallible (ε : Type) : (nullSink ε).Infallible := fun _ _ => ⟨_, rfl⟩

theorem sliceSink_lawful : sliceSink.Lawful := by
  refine ⟨?_, ?_⟩
  · intro s bs s' h
    simp only [sliceSink] at h ⊢
    split at h
    · simp at h
    · simp only [Prod.mk.injEq, true_and] at h
      subst h
      simp only
      rw [List.take_of_length_le (by omega)]
  · intro s bs e s' h
    simp only [sliceSink] at h ⊢
    split at h
    · simp only [Prod.mk.injEq, Except.error.injEq] at h
      obtain ⟨_, rfl⟩ := h
      exact ⟨_, List.take_prefix _ _, rfl⟩
    · simp at h

theorem scheduledLoop_lawful {ε : Type} (zero : ε) (evs : List (Event ε)) (got bs : List Byte) :
    (∀ s', scheduledLoop zero evs got bs = (.ok (), s') → s'.received = got ++ bs) ∧
    (∀ e s', scheduledLoop zero evs got bs = (.error e, s') →
      ∃ p, p <+: bs ∧ s'.received = got ++ p) := by
  induction evs generalizing got bs with
  | nil =>
    refine ⟨?_, ?_⟩
    · intro s' h
      cases bs <;> simp only [scheduledLoop, Prod.mk.injEq, true_and] at h <;> subst h <;> simp
    · intro e s' h
      cases bs <;> simp [scheduledLoop] at h
  | cons ev r ih =>
    cases bs with
    | nil =>
      refine ⟨?_, ?_⟩
      · intro s' h
        simp only [scheduledLoop, Prod.mk.injEq, true_and] at h
        subst h; simp
      · intro e s' h
        simp [scheduledLoop] at h
    | cons b bs =>
      cases ev with
      | interrupted => simpa only [scheduledLoop] using ih got (b :: bs)
      | fail e =>
        refine ⟨?_, ?_⟩
        · intro s' h; simp [scheduledLoop] at h
        · intro e' s' h
          simp only [scheduledLoop, Prod.mk.injEq, Except.error.injEq] at h
          obtain ⟨_, rfl⟩ := h
          exact ⟨[], List.nil_prefix, by simp⟩
      | accept n =>
        simp only [scheduledLoop]
        split
        · refine ⟨?_, ?_⟩
          · intro s' h; simp at h
          · intro e' s' h
            simp only [Prod.mk.injEq, Except.error.injEq] at h
            obtain ⟨_, rfl⟩ := h
            exact ⟨[], List.nil_prefix, by simp⟩
        · obtain ⟨h1, h2⟩ := ih (got ++ (b :: bs).take n) ((b :: bs).drop n)
          refine ⟨?_, ?_⟩
          · intro s' h
            rw [h1 s' h, List.append_assoc, List.take_append_drop]
          · intro e s' h
            obtain ⟨p, hp, hr⟩ := h2 e s' h
            refine ⟨(b :: bs).take n ++ p, ?_, by rw [hr, List.append_assoc]⟩
            have := (List.prefix_append_right_inj ((b :: bs).take n)).2 hp
            rwa [List.take_append_drop] at this

theorem scheduledSink_lawful {ε : Type} (zero : ε) : (scheduledSink zero).Lawful :=
  ⟨fun s bs s' h => (scheduledLoop_lawful zero s.schedule s.received bs).1 s' h,
    fun s bs e s' h => (scheduledLoop_lawful zero s.schedule s.received bs).2 e s' h⟩

theorem runCalls_infallible {σ ε : Type} {k : Sink σ ε} (hk : k.Infallible) (s : σ)
    (cs : List (List Byte)) : ∃ s', runCalls k s cs = (.ok (), s') := by
  induction cs generalizing s with
  | nil => exact ⟨s, rfl⟩
  | cons c r ih =>
    obtain ⟨s₁, h1⟩ := hk s c
    obtain ⟨s₂, h2⟩ := ih s₁
    exact ⟨s₂, by simp only [runCalls, h1, h2]⟩

/-- Writing to a sink that never fails succeeds. -/
theorem write_infallible {σ ε : Type} {k : Sink σ ε} (hk : k.Infallible) (w : Writer σ) {v : WVal}
    (hwf : v.Wf) : ∃ w', w.write k v = (.ok (v.firstOffset w.offset), w') ∧
      w'.offset = endOf w.offset v.leaves := by
  rw [write_eq_seq]
  obtain ⟨s', hs⟩ := runCalls_infallible hk w.sink (calls w.offset v.leaves)
  obtain ⟨t1, t2, t3⟩ := seqStd_trace k w v.leaves hwf
  rw [hs] at t1 t2
  rcases h : seqStd k w v.leaves with ⟨e | u, w₁⟩
  · rw [h] at t1; simp at t1
  · rw [h] at t3
    exact ⟨w₁, rfl, t3 rfl⟩

end Crevice
