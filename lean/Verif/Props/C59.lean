import Verif.Spec.Unwind
import Verif.Proof.History
import Verif.Proof.Sessions
import Verif.Props.C17_C20
/-
C59: panics in client code leave the Writer and the sink in step.
-/
namespace Crevice

variable {σ ε : Type}

theorem UVal.ind {P : UVal → Prop} (h1 : ∀ x, P (.std x)) (h2 : ∀ n, P (.panics n))
    (h3 : ∀ xs, (∀ x ∈ xs, P x) → P (.slice xs)) : ∀ v, P v := by
  intro v
  refine UVal.rec (motive_1 := P) (motive_2 := fun xs => ∀ x ∈ xs, P x) h1 h2 h3 ?_ ?_ v
  · intro f hf; simp at hf
  · intro f r h1 h2 g hg
    rcases List.mem_cons.1 hg with rfl | hg
    · exact h1
    · exact h2 g hg

/-- `writeZerosU` as `writeZeros`. -/
theorem writeZerosU_eq (k : PSink σ ε) (n : Nat) (s : σ) :
    writeZeros k.asSink n s = match writeZerosU k n s with
      | (.returned (.ok ()), s') => (.ok (), s')
      | (.returned (.error e), s') => (.error (some e), s')
      | (.unwinds, s') => (.error none, s') := by
  induction n generalizing s with
  | zero => rfl
  | succ n ih =>
    simp only [writeZeros, writeZerosU, PSink.asSink]
    rcases k.writeAll s [0] with ⟨(e | u) | _, s'⟩
    · rfl
    · exact ih s'
    · rfl

theorem writeStdU_eq (k : PSink σ ε) (w : Writer σ) (x : StdVal) :
    w.writeStd k.asSink x = match w.writeStdU k x with
      | (.returned (.ok o), w') => (.ok o, w')
      | (.returned (.error e), w') => (.error (some e), w')
      | (.unwinds, w') => (.error none, w') := by
  simp only [Writer.writeStd, Writer.writeStdU, writeZerosU_eq]
  rcases writeZerosU k (alignOffset w.offset x.alignment) w.sink with ⟨(e | u) | _, s'⟩
  · rfl
  · simp only [PSink.asSink]
    rcases k.writeAll s' x.bytes with ⟨(e | u) | _, s''⟩ <;> rfl
  · rfl

/-- Run until the first `none`. -/
def seqParts (k : PSink σ ε) (w : Writer σ) : List (Option StdVal) → Outcome (Except ε Unit) × Writer σ
  | [] => (.returned (.ok ()), w)
  | none :: _ => (.unwinds, w)
  | some x :: r =>
    match w.writeStdU k x with
    | (.unwinds, w) => (.unwinds, w)
    | (.returned (.error e), w) => (.returned (.error e), w)
    | (.returned (.ok _), w) => seqParts k w r

theorem seqParts_append (k : PSink σ ε) (w : Writer σ) (xs ys : List (Option StdVal)) :
    seqParts k w (xs ++ ys) =
      match seqParts k w xs with
      | (.unwinds, w) => (.unwinds, w)
      | (.returned (.error e), w) => (.returned (.error e), w)
      | (.returned (.ok ()), w) => seqParts k w ys := by
  induction xs generalizing w with
  | nil => rfl
  | cons x r ih =>
    rcases x with _ | x
    · rfl
    · simp only [List.cons_append, seqParts]
      rcases w.writeStdU k x with ⟨(e | o) | _, w'⟩
      · rfl
      · exact ih w'
      · rfl

theorem writeStdU_offset {k : PSink σ ε} {w w' : Writer σ} {x : StdVal} {o : Nat}
    (h : w.writeStdU k x = (.returned (.ok o), w')) : o = nextOffset w.offset x.alignment := by
  have := writeStdU_eq k w x
  rw [h] at this
  exact (writeStd_ok_offset this).1

theorem writeU_eq_seq (k : PSink σ ε) (w : Writer σ) (u : UVal) :
    w.writeU k u =
      match seqParts k w u.parts with
      | (.unwinds, w') => (.unwinds, w')
      | (.returned (.error e), w') => (.returned (.error e), w')
      | (.returned (.ok ()), w') => (.returned (.ok (u.plain.firstOffset w.offset)), w') := by
  induction u using UVal.ind generalizing w with
  | h1 x =>
    simp only [Writer.writeU, UVal.parts, seqParts, UVal.plain, WVal.firstOffset]
    rcases h : w.writeStdU k x with ⟨(e | o) | _, w'⟩
    · rfl
    · simp only [writeStdU_offset h]
    · rfl
  | h2 n => simp [Writer.writeU, UVal.parts, seqParts]
  | h3 xs ih =>
    have hrest : ∀ (xs : List UVal), (∀ x ∈ xs, ∀ w : Writer σ, w.writeU k x =
        match seqParts k w x.parts with
        | (.unwinds, w') => (.unwinds, w')
        | (.returned (.error e), w') => (.returned (.error e), w')
        | (.returned (.ok ()), w') => (.returned (.ok (x.plain.firstOffset w.offset)), w')) →
        ∀ w : Writer σ, w.writeRestU k xs = seqParts k w (UVal.partsList xs) := by
      intro xs
      induction xs with
      | nil => intro _ w; simp [Writer.writeRestU, UVal.partsList, seqParts]
      | cons x r ihr =>
        intro hx w
        simp only [Writer.writeRestU, UVal.partsList, seqParts_append]
        rw [hx x (by simp) w]
        rcases seqParts k w x.parts with ⟨(e | o) | _, w'⟩
        · rfl
        · simp only
          exact ihr (fun y hy => hx y (List.mem_cons_of_mem _ hy)) w'
        · rfl
    cases xs with
    | nil =>
      simp [Writer.writeU, UVal.parts, UVal.partsList, seqParts, UVal.plain, UVal.plainList,
        WVal.firstOffset, Writer.len]
    | cons x r =>
      simp only [Writer.writeU, UVal.parts, UVal.partsList, seqParts_append, UVal.plain,
        UVal.plainList, WVal.firstOffset]
      rw [ih x (by simp) w]
      rcases seqParts k w x.parts with ⟨(e | o) | _, w'⟩
      · rfl
      · simp only
        rw [hrest r (fun y hy => ih y (List.mem_cons_of_mem _ hy)) w']
        rcases seqParts k w' (UVal.partsList r) with ⟨(e | o) | _, w''⟩ <;> rfl
      · rfl

/-- `seqParts` against `seqStd`. -/
theorem seqParts_eq (k : PSink σ ε) (w : Writer σ) (ps : List (Option StdVal)) :
    seqParts k w ps =
      match seqStd k.asSink w ((ps.takeWhile Option.isSome).filterMap id) with
      | (.error none, w') => (.unwinds, w')
      | (.error (some e), w') => (.returned (.error e), w')
      | (.ok (), w') =>
        if ps.any Option.isNone then (.unwinds, w') else (.returned (.ok ()), w') := by
  induction ps generalizing w with
  | nil => rfl
  | cons x r ih =>
    rcases x with _ | x
    · simp [seqParts, seqStd]
    · simp only [seqParts, List.takeWhile_cons, Option.isSome_some, if_true,
        List.filterMap_cons, id_eq, seqStd, writeStdU_eq, List.any_cons, Option.isNone_some,
        Bool.false_or]
      rcases w.writeStdU k x with ⟨(e | o) | _, w'⟩
      · rfl
      · exact ih w'
      · rfl

theorem plain_leaves (u : UVal) : u.parts.any Option.isNone = false → u.plain.leaves = u.before := by
  suffices h : ∀ u : UVal, u.parts.any Option.isNone = false → u.parts = u.plain.leaves.map some by
    intro hu
    have h1 := h u hu
    have h2 : ∀ l : List StdVal, ((l.map some).takeWhile Option.isSome).filterMap id = l := by
      intro l
      induction l with
      | nil => rfl
      | cons a r ih => simp [ih]
    rw [UVal.before, h1, h2]
  intro u
  induction u using UVal.ind with
  | h1 x => intro _; simp [UVal.parts, UVal.plain, WVal.leaves]
  | h2 n => intro h; simp [UVal.parts] at h
  | h3 xs ih =>
    intro h
    simp only [UVal.parts, UVal.plain, WVal.leaves] at h ⊢
    induction xs with
    | nil => rfl
    | cons x r ihr =>
      simp only [UVal.partsList, List.any_append, Bool.or_eq_false_iff] at h
      simp only [UVal.partsList, UVal.plainList, leavesList, List.map_append]
      rw [ih x (by simp) h.1, ihr (fun y hy => ih y (List.mem_cons_of_mem _ hy)) h.2]

/-- C59 for one call: whatever the argument, and whether the sink accepts, fails or unwinds, the
call leaves the Writer and the sink exactly as writing the values before the first panicking
conversion does; not a byte of padding is written for a value whose conversion panics, and the call
unwinds iff it reaches such a value or the sink unwinds. -/
theorem C59_unwind (k : PSink σ ε) (w : Writer σ) (u : UVal) :
    w.writeU k u = (u.ends (w.write k.asSink u.written).1, (w.write k.asSink u.written).2) := by
  rw [writeU_eq_seq, seqParts_eq, write_eq_seq]
  have hl : u.written.leaves = u.before := by
    rw [UVal.written]
    split
    · simp only [WVal.leaves, leavesList_std]
    · rename_i hp
      exact plain_leaves u (Bool.eq_false_iff.2 hp)
  rw [hl]
  rw [← UVal.before]
  rcases seqStd k.asSink w u.before with ⟨(_ | e) | _, w'⟩
  · rfl
  · rfl
  · simp only [UVal.ends]
    by_cases hp : u.panicking
    · have : u.parts.any Option.isNone = true := hp
      simp [hp, this]
    · have : u.parts.any Option.isNone = false := Bool.eq_false_iff.2 hp
      simp [hp, this, UVal.written]

/-- C59 for a whole history in which the client catches every panic and goes on with the same
Writer: the Writer and the sink end up as if, in place of each argument with a panicking conversion,
the values before it had been written. -/
theorem C59_history (k : PSink σ ε) (w : Writer σ) (us : List UVal) :
    w.historyU k us =
      (List.zipWith UVal.ends us (w.history k.asSink (us.map UVal.written)).1,
        (w.history k.asSink (us.map UVal.written)).2) := by
  induction us generalizing w with
  | nil => rfl
  | cons u r ih =>
    simp only [Writer.historyU, List.map_cons, history_cons, List.zipWith_cons_cons, C59_unwind, ih]

theorem vecPSink_infallible : (vecPSink ε).asSink.Infallible := fun s bs => ⟨s ++ bs, rfl⟩

theorem vecPSink_lawful : (vecPSink ε).asSink.Lawful := by
  refine ⟨?_, ?_⟩
  · intro s bs s' h
    simp only [PSink.asSink, vecPSink, Prod.mk.injEq] at h
    rw [← h.2]; rfl
  · intro s bs e s' h
    simp [PSink.asSink, vecPSink] at h

theorem written_leaves (u : UVal) : u.written.leaves = u.before := by
  rw [UVal.written]
  split
  · simp only [WVal.leaves, leavesList_std]
  · rename_i hp
    exact plain_leaves u (Bool.eq_false_iff.2 hp)

theorem written_leavesList (us : List UVal) :
    leavesList (us.map UVal.written) = us.flatMap UVal.before := by
  induction us with
  | nil => rfl
  | cons u r ih => rw [List.map_cons, leavesList_cons, ih, written_leaves, List.flatMap_cons]

/-- C59 for a `Vec<u8>`: after any number of caught panics the Vec has received exactly `len()`
bytes; they hold the values converted before the panics and the values of the other calls, in order,
each at the next multiple of its alignment, and zeros elsewhere; a call unwinds iff one of its
conversions does; and a value that is written by itself is at the offset its call returned. -/
theorem C59_vec {pre : List Byte} (us : List UVal)
    (hwf : ∀ u ∈ us, ∀ x ∈ u.before, x.bytes.length = x.size)
    {rs : List (Outcome (Except ε Nat))} {w' : Writer (List Byte)}
    (h : (Writer.new pre).historyU (vecPSink ε) us = (rs, w')) :
    ∃ offs img,
      Placed 0 ((us.flatMap UVal.before).map fun x => (x.alignment, x.size)) offs w'.len ∧
      w'.sink = pre ++ img ∧ img.length = w'.len ∧
      (∀ m (hm : m < (us.flatMap UVal.before).length) (hm' : m < offs.length),
        SliceAt img offs[m] (us.flatMap UVal.before)[m].bytes) ∧
      (∀ p (hp : p < img.length),
        (∀ m (hm : m < (us.flatMap UVal.before).length) (hm' : m < offs.length),
          ¬ (offs[m] ≤ p ∧ p < offs[m] + (us.flatMap UVal.before)[m].size)) → img[p] = 0) ∧
      rs.length = us.length ∧
      (∀ m (hm : m < us.length) (hm' : m < rs.length), rs[m] = .unwinds ↔ us[m].panicking = true) ∧
      (∀ m (hm : m < us.length) (hm' : m < rs.length) x, us[m] = .std x →
        ∃ o, rs[m] = .returned (.ok o) ∧
          offs[((us.take m).flatMap UVal.before).length]? = some o) := by
  rw [C59_history] at h
  have hwf' : ∀ v ∈ us.map UVal.written, v.Wf := by
    intro v hv
    obtain ⟨u, hu, rfl⟩ := List.mem_map.1 hv
    intro x hx
    rw [written_leaves] at hx
    exact hwf u hu x hx
  obtain ⟨w₁, h1, -⟩ := history_infallible (vecPSink_infallible (ε := ε)) (Writer.new pre) hwf'
  rw [h1] at h
  simp only [Prod.mk.injEq] at h
  obtain ⟨rfl, rfl⟩ := h
  obtain ⟨offs, img, a1, a2, a3, a4, a5, a6, a7, -⟩ := C18_history_general vecPSink_lawful hwf' h1
  simp only [written_leavesList] at a1 a4 a5
  rw [List.length_map] at a6
  refine ⟨offs, img, a1, a2, a3, a4, a5, ?_, ?_, ?_⟩
  · rw [List.length_zipWith, List.length_map, a6, Nat.min_self]
  · intro m hm hm'
    rw [List.getElem_zipWith, List.getElem_map]
    simp only [UVal.ends]
    split
    · simp [*]
    · simp [*]
  · intro m hm hm' x hx
    have hn : us[m].panicking = false := by rw [hx]; rfl
    have ho : m < (returned (Writer.new pre).offset (us.map UVal.written)).length := by omega
    refine ⟨(returned (Writer.new pre).offset (us.map UVal.written))[m], ?_, ?_⟩
    · rw [List.getElem_zipWith, List.getElem_map]
      simp [UVal.ends, hn]
    · have := a7 m (by simpa using hm) ho (by
        rw [List.getElem_map, UVal.written, hn, hx]; rfl)
      rw [← List.map_take, written_leavesList] at this
      exact this

/-- C59 for `stdN_size`: a value's is known without converting it, so it never panics, even if the
conversion does; a slice's panics iff a conversion of an element does. -/
theorem C59_size (u : UVal) :
    (∀ x, u = .std x → u.stdSize = .returned x.size) ∧
    (∀ n, u = .panics n → u.stdSize = .returned n) ∧
    (∀ xs, u = .slice xs → u.panicking = true → u.stdSize = .unwinds) ∧
    (∀ xs, u = .slice xs → u.panicking = false → u.plain.Wf →
      ∀ n, u.stdSize = .returned n ↔ u.plain.stdSize = some n) := by
  have hs : ∀ xs, (Writer.new []).writeU nullPSink (.slice xs) =
      ((UVal.slice xs).ends (.ok ((UVal.slice xs).written.firstOffset 0)),
        ((Writer.new []).write nullPSink.asSink (UVal.slice xs).written).2) := by
    intro xs
    rw [C59_unwind, write_eq_seq]
    have hok : ∀ (ys : List StdVal) (w : Writer (List Byte)),
        ∃ w', seqStd nullPSink.asSink w ys = (.ok (), w') := by
      intro ys
      induction ys with
      | nil => exact fun w => ⟨w, rfl⟩
      | cons y r ih =>
        intro w
        have hz : ∀ n s, ∃ s', writeZeros nullPSink.asSink n s = (.ok (), s') := by
          intro n
          induction n with
          | zero => exact fun s => ⟨s, rfl⟩
          | succ n ihn =>
            intro s
            obtain ⟨s', h⟩ := ihn (s ++ [0])
            exact ⟨s', h⟩
        obtain ⟨s', hz'⟩ := hz (alignOffset w.offset y.alignment) w.sink
        have hw : ∃ o w', w.writeStd nullPSink.asSink y = (.ok o, w') := by
          simp only [Writer.writeStd, hz']
          exact ⟨_, _, rfl⟩
        obtain ⟨o, w', hw⟩ := hw
        simp only [seqStd, hw]
        exact ih w'
    obtain ⟨w', hw⟩ := hok (UVal.slice xs).written.leaves (Writer.new [])
    rw [hw]
    rfl
  refine ⟨?_, ?_, ?_, ?_⟩
  · rintro x rfl; rfl
  · rintro n rfl; rfl
  · rintro xs rfl hp
    simp only [UVal.stdSize, hs, UVal.ends, hp, if_true]
  · rintro xs rfl hp hwf n
    have hw : (UVal.slice xs).written = (UVal.slice xs).plain := by simp [UVal.written, hp]
    obtain ⟨w₁, h1, h2⟩ := write_infallible (k := nullPSink.asSink) (fun s bs => ⟨s ++ bs, rfl⟩)
      (Writer.new []) hwf
    obtain ⟨w₂, h3, h4⟩ := write_infallible (k := nullSink Unit) (fun s bs => ⟨s ++ bs, rfl⟩)
      (Writer.new []) hwf
    have hl : (UVal.slice xs).stdSize = .returned w₁.len := by
      simp only [UVal.stdSize, hs, UVal.ends, hp, hw, h1]
      rfl
    have hr : (UVal.slice xs).plain.stdSize = some w₂.len := by
      simp only [UVal.plain] at h3
      simp only [UVal.plain, WVal.stdSize, h3]
    have hlen : w₁.len = w₂.len := h2.trans h4.symm
    rw [hl, hr, hlen]
    simp

/-- A history that meets the hypotheses and panics in the middle of a slice: a 4-byte value, a slice
of a 12-byte value, a value that panics and one more, then a 4-byte value again. The panic leaves no
padding: the last value follows the 12-byte one. -/
example :
    let f (b : Byte) : StdVal := ⟨4, 4, [b, b, b, b]⟩
    let v (b : Byte) : StdVal := ⟨16, 12, List.replicate 12 b⟩
    (Writer.new []).historyU (vecPSink Unit)
      [.std (f 1), .slice [.std (v 2), .panics 12, .std (v 3)], .std (f 4)] =
    ([.returned (.ok 0), .unwinds, .returned (.ok 28)],
      ⟨List.replicate 4 1 ++ List.replicate 12 0 ++ List.replicate 12 2 ++ List.replicate 4 4, 32⟩) := by
  rfl

end Crevice
