import Verif.Spec.Trace
import Verif.Proof.Sessions
import Verif.Props.C41_C42
import Verif.Props.C24_C39
/-
C55: what the sink sees, and what it is left with when writing stops half-way.
-/
namespace Crevice

variable {tg : Target} {env : ForeignEnv} {l : Layout}

section
variable {σ ε : Type}

theorem recording_lawful {k : Sink σ ε} (hk : k.Lawful) : k.recording.Lawful := by
  refine ⟨?_, ?_⟩
  · intro s bs s' h
    simp only [Sink.recording, Prod.mk.injEq] at h
    obtain ⟨h1, rfl⟩ := h
    exact hk.ok s.1 bs _ (Prod.ext h1 rfl)
  · intro s bs e s' h
    simp only [Sink.recording, Prod.mk.injEq] at h
    obtain ⟨h1, rfl⟩ := h
    exact hk.err s.1 bs e _ (Prod.ext h1 rfl)

theorem sim_recording (k : Sink σ ε) : Sim k.recording k fun s t => s.1 = t := by
  rintro ⟨s, tr⟩ t rfl bs
  exact ⟨rfl, rfl⟩

/-- What has been recorded after some calls. -/
theorem recording_calls (k : Sink σ ε) (s : σ × List (List Byte)) (cs : List (List Byte)) :
    (∀ s', runCalls k.recording s cs = (.ok (), s') → s'.2 = s.2 ++ cs) ∧
    (∀ e s', runCalls k.recording s cs = (.error e, s') →
      ∃ n, n < cs.length ∧ s'.2 = s.2 ++ cs.take (n + 1)) := by
  induction cs generalizing s with
  | nil =>
    refine ⟨fun s' h => ?_, fun e s' h => ?_⟩
    · simp only [runCalls, Prod.mk.injEq] at h
      simp [← h.2]
    · simp [runCalls] at h
  | cons c r ih =>
    simp only [runCalls]
    rcases hc : k.recording.writeAll s c with ⟨e | u, s₁⟩
    · have h2 : s₁.2 = s.2 ++ [c] := by
        simp only [Sink.recording, Prod.mk.injEq] at hc
        rw [← hc.2]
      refine ⟨fun s' h => by simp at h, fun e' s' h => ?_⟩
      simp only [Prod.mk.injEq] at h
      obtain ⟨-, rfl⟩ := h
      exact ⟨0, by simp, by simp [h2]⟩
    · have h2 : s₁.2 = s.2 ++ [c] := by
        simp only [Sink.recording, Prod.mk.injEq] at hc
        rw [← hc.2]
      obtain ⟨h3, h4⟩ := ih s₁
      refine ⟨fun s' h => ?_, fun e' s' h => ?_⟩
      · rw [h3 s' h, h2]; simp
      · obtain ⟨n, hn, h5⟩ := h4 e' s' h
        exact ⟨n + 1, by simpa using hn, by rw [h5, h2]; simp⟩

theorem calls_eq_deliveries (off : Nat) (xs : List StdVal) :
    calls off xs = deliveries off ((places off xs).zip (xs.map StdVal.bytes)) := by
  induction xs generalizing off with
  | nil => rfl
  | cons x r ih => simp [calls, places, deliveries, ih]

/-- C55: the calls to the sink that a successful write makes, whatever the sink and the state of the
Writer: the parts of the value (`leaves`) have offsets as `Placed` says; the sink sees, for each
part in turn, single zero bytes up to its offset and then all its bytes in one call, and nothing
else. A failed write makes some of these calls, the last of which has failed, and none after it.
Recording changes nothing. -/
theorem C55_calls {k : Sink σ ε} {v : WVal} (hwf : v.Wf) (w : Writer σ) :
    ∃ offs fin, Placed w.len (v.leaves.map fun x => (x.alignment, x.size)) offs fin ∧
      ∀ (tr : List (List Byte)) r w', (⟨(w.sink, tr), w.len⟩ : Writer _).write k.recording v = (r, w') →
        w.write k v = (r, ⟨w'.sink.1, w'.len⟩) ∧
        ((∃ o, r = .ok o) →
          w'.len = fin ∧ w'.sink.2 = tr ++ deliveries w.len (offs.zip (v.leaves.map StdVal.bytes))) ∧
        ((∃ e, r = .error e) →
          ∃ n, n < (deliveries w.len (offs.zip (v.leaves.map StdVal.bytes))).length ∧
            w'.sink.2 = tr ++ (deliveries w.len (offs.zip (v.leaves.map StdVal.bytes))).take (n + 1)) := by
  have hp := placed_places w.len v.leaves
  have hsz : (v.leaves.map fun x => (x.alignment, x.bytes.length)) =
      v.leaves.map fun x => (x.alignment, x.size) :=
    List.map_congr_left fun x hx => by rw [hwf x hx]
  rw [hsz] at hp
  refine ⟨_, _, hp, fun tr r w' h => ?_⟩
  obtain ⟨h1, h2, h3⟩ := sim_write (sim_recording k) v (s := (w.sink, tr)) (t := w.sink) w.offset rfl
  have h' : Writer.write k.recording ⟨(w.sink, tr), w.offset⟩ v = (r, w') := h
  rw [h'] at h1 h2 h3
  have hk : w.write k v = (r, ⟨w'.sink.1, w'.len⟩) :=
    Prod.ext h1.symm (writer_ext h3.symm h2.symm)
  refine ⟨hk, ?_, ?_⟩
  all_goals
    rw [write_eq_seq] at h'
    obtain ⟨t1, t2, t3⟩ := seqStd_trace k.recording ⟨(w.sink, tr), w.offset⟩ v.leaves hwf
    obtain ⟨c1, c2⟩ := recording_calls k (w.sink, tr) (calls w.offset v.leaves)
    rw [Writer.len, ← calls_eq_deliveries]
  · rintro ⟨o, rfl⟩
    rcases hs : seqStd k.recording ⟨(w.sink, tr), w.offset⟩ v.leaves with ⟨e | u, w₁⟩
    · simp [hs] at h'
    · simp only [hs, Prod.mk.injEq] at h'
      obtain ⟨-, rfl⟩ := h'
      rw [hs] at t1 t2 t3
      exact ⟨t3 rfl, c1 _ (Prod.ext t1.symm t2.symm)⟩
  · rintro ⟨e, rfl⟩
    rcases hs : seqStd k.recording ⟨(w.sink, tr), w.offset⟩ v.leaves with ⟨e' | u, w₁⟩
    · simp only [hs, Prod.mk.injEq] at h'
      obtain ⟨-, rfl⟩ := h'
      rw [hs] at t1 t2
      exact c2 _ _ (Prod.ext t1.symm t2.symm)
    · simp [hs] at h'

end

/-- C55: when writing stops half-way. Some values have been written; then a write fails, or the
machine stops inside it (a sink that takes some more bytes and then reports an error), and nothing is
written afterwards. What the sink has received is a prefix of what it would have received in the
end, `full`: all values written before are there in full and can be read back at the offsets `write`
returned for them, and so can every value whose last byte has arrived. -/
theorem C55_abandoned (htg : tg.Valid) (henv : env.Lawful tg) (xs : List (Item tg env l)) {m : Nat}
    (hm : m < xs.length) {σ ε : Type} {k : Sink σ ε} (hk : k.Lawful) {s : σ} {os : List Nat}
    {w₁ w₂ : Writer σ}
    (h : (Writer.new s).history k ((xs.take m).map Item.arg) = (os.map .ok, w₁)) {e : ε}
    (hfail : w₁.write k xs[m].arg = (.error e, w₂)) :
    ∃ (full : List Byte) (offs : List Nat) (got : List Byte),
      (Writer.new ([] : List Byte)).history (vecSink Unit) (xs.map Item.arg) =
        (offs.map .ok, ⟨full, full.length⟩) ∧
      offs.length = xs.length ∧ os = offs.take m ∧
      k.delivered w₂.sink = k.delivered s ++ got ∧ got <+: full ∧
      ∀ j (hj : j < xs.length) (hj' : j < offs.length),
        (j < m → offs[j] + xs[j].bytes.length ≤ got.length) ∧
        (offs[j] + xs[j].bytes.length ≤ got.length →
          readAt tg xs[j].impl got offs[j] = some xs[j].val) := by
  have hwf := items_wf htg henv xs
  obtain ⟨wv, hv1, hv2⟩ := history_infallible (vecSink_infallible Unit) (Writer.new ([] : List Byte)) hwf
  obtain ⟨e1, e2, e3⟩ := history_ok (vecSink_lawful Unit) hwf hv1
  obtain ⟨f1, f2, f3⟩ := history_ok hk (items_wf htg henv (xs.take m)) h
  obtain ⟨p, g1, g2, g3, g4⟩ := write_error hk (xs[m].wf htg henv) hfail
  rw [items_leaves] at e2 e3 f2 f3
  rw [items_returned] at f1 hv1
  simp only [Writer.new] at e2 e3 f1 f2 f3 hv1
  have hsplit : xs.map Item.std = (xs.take m).map Item.std ++ (xs[m].std :: (xs.drop (m + 1)).map Item.std) := by
    have hx : xs = xs.take m ++ xs[m] :: xs.drop (m + 1) := by
      rw [← List.drop_eq_getElem_cons hm, List.take_append_drop]
    have := congrArg (List.map Item.std) hx
    rw [List.map_append, List.map_cons] at this
    exact this
  have hlv : xs[m].arg.leaves = [xs[m].std] := by rw [xs[m].arg_std, WVal.leaves]
  have hfull : image 0 (xs.map Item.std) = image 0 ((xs.take m).map Item.std) ++
      (image w₁.offset [xs[m].std] ++ image (endOf w₁.offset [xs[m].std]) ((xs.drop (m + 1)).map Item.std)) := by
    rw [hsplit, image_append, ← f2]
    congr 1
    exact image_append w₁.offset [xs[m].std] _
  rw [hlv] at g1
  have hpl : places 0 (xs.map Item.std) = places 0 ((xs.take m).map Item.std) ++
      places w₁.offset (xs[m].std :: (xs.drop (m + 1)).map Item.std) := by
    rw [hsplit, places_append, ← f2]
  have hmlen : (places 0 ((xs.take m).map Item.std)).length = m := by
    rw [places_length]; simp; omega
  have hgl : (image 0 ((xs.take m).map Item.std)).length = endOf 0 ((xs.take m).map Item.std) := by
    have := image_length 0 ((xs.take m).map Item.std); omega
  have hpre : image 0 ((xs.take m).map Item.std) ++ p <+: image 0 (xs.map Item.std) := by
    rw [hfull]
    exact (List.prefix_append_right_inj _).2 (g1.trans (List.prefix_append _ _))
  refine ⟨image 0 (xs.map Item.std), places 0 (xs.map Item.std),
    image 0 ((xs.take m).map Item.std) ++ p, ?_, by rw [places_length]; simp, ?_, ?_, hpre, ?_⟩
  · refine hv1.trans (Prod.ext rfl (writer_ext ?_ ?_))
    · simpa [vecSink] using e3
    · have := image_length 0 (xs.map Item.std)
      simp only at e2 ⊢; omega
  · rw [f1, hpl, List.take_append_of_le_length (Nat.le_of_eq hmlen.symm),
      List.take_of_length_le (Nat.le_of_eq hmlen)]
  · rw [g2, f3, List.append_assoc]
  · intro j hj hj'
    refine ⟨fun hjm => ?_, fun hle => ?_⟩
    · have hb := (placed_places 0 ((xs.take m).map Item.std)).bounds.2 j (by simp; omega) (by omega)
      simp only [hpl]
      rw [List.getElem_append_left (by omega), List.length_append, hgl]
      have : (((xs.take m).map Item.std).map fun x => (x.alignment, x.bytes.length))[j]'(by simp; omega) =
          (xs[j].std.alignment, xs[j].bytes.length) := by
        simp [Item.std]
      rw [this] at hb
      simp only at hb
      omega
    · apply xs[j].readAt htg henv
      have hs := (image_slice 0 (xs.map Item.std) j (by simpa using hj)).2
      rw [List.getElem_map] at hs
      simp only [Nat.sub_zero] at hs
      obtain ⟨t, ht⟩ := hpre
      have hs' : SliceAt (image 0 (xs.map Item.std)) (places 0 (xs.map Item.std))[j] xs[j].bytes := hs
      rw [← ht] at hs'
      unfold SliceAt at hs' ⊢
      rw [List.drop_append_of_le_length (by omega), List.take_append_of_le_length
        (by rw [List.length_drop]; omega)] at hs'
      exact hs'

/-- A `f32` and two `vec3`s into a slice of 22 bytes: the second write stops six bytes into its value;
the first value can be read back, the second cannot. -/
example : ∃ (x y z : Item x86_64 Ex.env .std140) (w₁ w₂ : Writer SliceState),
    x.ty = Ex.f32 ∧ y.ty = Ex.vec3 ∧ z.ty = Ex.vec3 ∧
    (Writer.new ⟨[], List.replicate 22 9⟩).history sliceSink (([x, y, z].take 1).map Item.arg) =
      ([0].map .ok, w₁) ∧
    w₁.write sliceSink [x, y, z][1].arg = (.error (), w₂) ∧
    w₂.sink.filled = x.bytes ++ List.replicate 12 0 ++ y.bytes.take 6 := by
  have hv (a b c) : Ex.vec3.HasVal x86_64 Ex.env (Ex.v3 (Ex.flt a) (Ex.flt b) (Ex.flt c)) :=
    Ex.uniform3 (Ex.flt_hasVal _) (Ex.flt_hasVal _) (Ex.flt_hasVal _)
  exact ⟨⟨Ex.f32, Ex.flt 1, _, _, _, rfl, ⟨_, rfl⟩, rfl, rfl⟩,
    ⟨Ex.vec3, Ex.v3 (Ex.flt 2) (Ex.flt 3) (Ex.flt 4), _, _, _, rfl, hv _ _ _, rfl, rfl⟩,
    ⟨Ex.vec3, Ex.v3 (Ex.flt 5) (Ex.flt 6) (Ex.flt 7), _, _, _, rfl, hv _ _ _, rfl, rfl⟩,
    _, _, rfl, rfl, rfl, rfl, rfl, rfl⟩

/-- The calls for a one-byte value and a 4-aligned one: five calls. With room for three bytes only, the
fourth fails and is the last. -/
example :
    ((Writer.new (([], []) : List Byte × List (List Byte))).write (vecSink Unit).recording
      (.slice [.std ⟨1, 1, [5]⟩, .std ⟨4, 2, [6, 7]⟩])).2.sink.2 = [[5], [0], [0], [0], [6, 7]] ∧
    ((Writer.new ((⟨[], [1, 1, 1]⟩, []) : SliceState × List (List Byte))).write sliceSink.recording
      (.slice [.std ⟨1, 1, [5]⟩, .std ⟨4, 2, [6, 7]⟩])).2.sink.2 = [[5], [0], [0], [0]] := ⟨rfl, rfl⟩

end Crevice
