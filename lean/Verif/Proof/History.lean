import Verif.Proof.Writer
import Verif.Proof.PlaceSpec
/-
Sequences of writes.
-/
namespace Crevice

/-- Offsets returned by a successful sequence of writes that starts at `off`. -/
def returned (off : Nat) : List WVal → List Nat
  | [] => []
  | v :: r => v.firstOffset off :: returned (endOf off v.leaves) r

theorem returned_length (off : Nat) (vs : List WVal) : (returned off vs).length = vs.length := by
  induction vs generalizing off with
  | nil => rfl
  | cons v r ih => simp [returned, ih]

theorem leavesList_cons (v : WVal) (r : List WVal) :
    leavesList (v :: r) = v.leaves ++ leavesList r := by simp only [leavesList]

theorem returned_get (off : Nat) (vs : List WVal) (m : Nat) (hm : m < vs.length) :
    (returned off vs)[m]'(by rw [returned_length]; exact hm) =
      vs[m].firstOffset (endOf off (leavesList (vs.take m))) := by
  induction vs generalizing off m with
  | nil => simp at hm
  | cons v r ih =>
    cases m with
    | zero => simp [returned, leavesList, endOf]
    | succ m =>
      simp only [returned, List.getElem_cons_succ, List.take_succ_cons, leavesList_cons, endOf_append]
      exact ih _ m (by simpa using hm)

theorem history_cons {σ ε : Type} (k : Sink σ ε) (w : Writer σ) (v : WVal) (vs : List WVal) :
    w.history k (v :: vs) =
      ((w.write k v).1 :: ((w.write k v).2.history k vs).1, ((w.write k v).2.history k vs).2) := rfl

/-- A history in which every write succeeded. -/
theorem history_ok {σ ε : Type} {k : Sink σ ε} (hk : k.Lawful) {w w' : Writer σ} {vs : List WVal}
    (hwf : ∀ v ∈ vs, v.Wf) {os : List Nat}
    (h : w.history k vs = (os.map (Except.ok (ε := ε)), w')) :
    os = returned w.offset vs ∧ w'.offset = endOf w.offset (leavesList vs) ∧
      k.delivered w'.sink = k.delivered w.sink ++ image w.offset (leavesList vs) := by
  induction vs generalizing w os with
  | nil =>
    simp only [Writer.history, Prod.mk.injEq] at h
    obtain ⟨h1, rfl⟩ := h
    have : os = [] := by cases os <;> simp at h1 ⊢
    subst this
    simp [returned, leavesList, endOf, image]
  | cons v r ih =>
    rw [history_cons] at h
    simp only [Prod.mk.injEq] at h
    obtain ⟨h1, h2⟩ := h
    cases os with
    | nil => simp at h1
    | cons o os =>
      simp only [List.map_cons, List.cons.injEq] at h1
      have hw : w.write k v = (.ok o, (w.write k v).2) := Prod.ext h1.1 rfl
      obtain ⟨e1, e2, e3⟩ := write_ok hk (hwf v (by simp)) hw
      obtain ⟨f1, f2, f3⟩ := ih (w := (w.write k v).2) (fun x hx => hwf x (by simp [hx]))
        (os := os) (Prod.ext h1.2 h2)
      rw [e2] at f1 f2 f3
      refine ⟨?_, ?_, ?_⟩
      · rw [returned, e1, f1]
      · rw [f2, leavesList_cons, endOf_append]
      · rw [f3, e3, leavesList_cons, image_append, List.append_assoc]

theorem history_infallible {σ ε : Type} {k : Sink σ ε} (hk : k.Infallible) (w : Writer σ)
    {vs : List WVal} (hwf : ∀ v ∈ vs, v.Wf) :
    ∃ w', w.history k vs = ((returned w.offset vs).map .ok, w') ∧
      w'.offset = endOf w.offset (leavesList vs) := by
  induction vs generalizing w with
  | nil => exact ⟨w, rfl, rfl⟩
  | cons v r ih =>
    obtain ⟨w₁, h1, h2⟩ := write_infallible hk w (hwf v (by simp))
    obtain ⟨w₂, h3, h4⟩ := ih w₁ fun x hx => hwf x (by simp [hx])
    refine ⟨w₂, ?_, ?_⟩
    · rw [history_cons, h1]
      simp only [h3, returned, h2, List.map_cons]
    · rw [h4, h2, leavesList_cons, endOf_append]

/-- Elements written one after the other, in terms of `seqStd`. -/
theorem history_ok_iff_seq {σ ε : Type} (k : Sink σ ε) (w w' : Writer σ) (vs : List WVal) :
    (∃ os : List Nat, w.history k vs = (os.map (Except.ok (ε := ε)), w')) ↔
      seqStd k w (leavesList vs) = (.ok (), w') := by
  induction vs generalizing w with
  | nil =>
    simp only [Writer.history, leavesList, seqStd, Prod.mk.injEq, true_and]
    constructor
    · rintro ⟨os, _, h⟩; exact h
    · intro h; exact ⟨[], rfl, h⟩
  | cons v r ih =>
    rw [history_cons, leavesList_cons, seqStd_append]
    constructor
    · rintro ⟨os, h⟩
      cases os with
      | nil => simp at h
      | cons o os =>
        simp only [List.map_cons, Prod.mk.injEq, List.cons.injEq] at h
        obtain ⟨⟨h1, h2⟩, h3⟩ := h
        have hw : w.write k v = (.ok o, (w.write k v).2) := Prod.ext h1 rfl
        have := (ih (w.write k v).2).1 ⟨os, Prod.ext h2 h3⟩
        rw [write_eq_seq] at hw
        rcases hs : seqStd k w v.leaves with ⟨e | u, w₁⟩
        · simp [hs] at hw
        · have hw₁ : (w.write k v).2 = w₁ := by rw [write_eq_seq, hs]
          rw [hw₁] at this
          exact this
    · intro h
      rcases hs : seqStd k w v.leaves with ⟨e | u, w₁⟩
      · simp [hs] at h
      · rw [hs] at h
        have hw₁ : w.write k v = (.ok (v.firstOffset w.offset), w₁) := by rw [write_eq_seq, hs]
        obtain ⟨os, hos⟩ := (ih w₁).2 h
        refine ⟨v.firstOffset w.offset :: os, ?_⟩
        rw [hw₁]
        simp only [hos, List.map_cons]

theorem leavesList_std (xs : List StdVal) : leavesList (xs.map .std) = xs := by
  induction xs with
  | nil => rfl
  | cons x r ih => rw [List.map_cons, leavesList_cons, ih]; rfl

theorem returned_std (off : Nat) (xs : List StdVal) : returned off (xs.map .std) = places off xs := by
  induction xs generalizing off with
  | nil => rfl
  | cons x r ih => simp [returned, places, ih, WVal.firstOffset, WVal.leaves, endOf]

theorem wf_leaves {vs : List WVal} (h : ∀ v ∈ vs, v.Wf) : ∀ x ∈ leavesList vs, x.bytes.length = x.size := by
  intro x hx
  obtain ⟨v, hv, hxv⟩ := mem_leavesList hx
  exact h v hv x hxv

theorem wf_slice {vs : List WVal} (h : ∀ v ∈ vs, v.Wf) : (WVal.slice vs).Wf := by
  intro x hx
  exact wf_leaves h x (by simpa [WVal.leaves] using hx)

end Crevice
