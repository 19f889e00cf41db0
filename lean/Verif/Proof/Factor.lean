import Verif.Proof.GlslWf
/-
std140 is at most four times as large as std430.
-/
namespace Glsl
open Crevice (Layout IsPow2)

theorem vecAlign_ge (s : Scalar) (n : Nat) : 4 ≤ vecAlign s n := by
  cases s <;> simp only [vecAlign, Scalar.size] <;> split <;> omega

theorem align_ge (t : Ty) (hwf : t.Wf) : 4 ≤ t.align .std430 := by
  induction t using Ty.ind with
  | hs s => cases s <;> simp [Ty.align, Scalar.size]
  | hv s n => exact vecAlign_ge s n
  | hm s c r => exact vecAlign_ge s r
  | ha t n ih => exact ih hwf
  | hst n ms ih =>
    simp only [Ty.Wf] at hwf
    cases ms with
    | nil => exact absurd rfl hwf.1
    | cons m r =>
      obtain ⟨x, t⟩ := m
      have := ih (x, t) (by simp) hwf.2.1
      simp only [Ty.align, roundToVec4, maxAlign]
      exact Nat.le_trans this (Nat.le_max_left _ _)
  | hal a t ih =>
    simp only [Ty.Wf] at hwf
    exact Nat.le_trans (ih hwf.2) (Nat.le_max_right _ _)

theorem roundToVec4_four {a a' : Nat} (ha' : IsPow2 a') (h4 : 4 ≤ a) (h : a' ≤ 4 * a) :
    roundToVec4 .std140 a' ≤ 4 * roundToVec4 .std430 a := by
  simp only [roundToVec4, Crevice.isPow2_roundUp16 ha']
  omega

theorem maxAlign_four {ms : List (String × Ty)} (h : ∀ m ∈ ms, m.2.align .std140 ≤ 4 * m.2.align .std430) :
    maxAlign .std140 ms ≤ 4 * maxAlign .std430 ms := by
  induction ms with
  | nil => simp [maxAlign]
  | cons x r ih =>
    obtain ⟨n, t⟩ := x
    have h1 := h (n, t) (by simp)
    have h2 := ih fun m hm => h m (by simp [hm])
    simp only [maxAlign]
    simp only at h1
    omega

theorem align_four (t : Ty) (hwf : t.Wf) : t.align .std140 ≤ 4 * t.align .std430 := by
  induction t using Ty.ind with
  | hs s => simp only [Ty.align]; omega
  | hv s n => simp only [Ty.align]; omega
  | hm s c r =>
    simp only [Ty.align]
    exact roundToVec4_four (Crevice.isPow2_vecAlign s r) (vecAlign_ge s r) (by omega)
  | ha t n ih =>
    simp only [Ty.Wf] at hwf
    simp only [Ty.align]
    exact roundToVec4_four (isPow2_align _ t hwf) (align_ge t hwf) (ih hwf)
  | hst n ms ih =>
    have h4 := align_ge _ hwf
    simp only [Ty.Wf] at hwf
    have hp := isPow2_maxAlign (l := .std140) hwf.1 fun m hm => isPow2_align _ _ (hwf.2.mem hm)
    simp only [Ty.align] at h4 ⊢
    exact roundToVec4_four hp h4 (maxAlign_four fun m hm => ih m hm (hwf.2.mem hm))
  | hal a t ih =>
    simp only [Ty.Wf] at hwf
    have := ih hwf.2
    simp only [Ty.align]
    omega

theorem four_pow2 {a : Nat} (h : IsPow2 a) : IsPow2 (4 * a) := by
  obtain ⟨k, rfl⟩ := h
  exact ⟨k + 2, by rw [Nat.pow_add, Nat.mul_comm]⟩

theorem align_dvd_four (t : Ty) (h : t.Wf) : t.align .std140 ∣ 4 * t.align .std430 :=
  (isPow2_align _ t h).dvd_of_le (four_pow2 (isPow2_align _ t h)) (align_four t h)

theorem roundUp_four {n n' a a' : Nat} (ha : 0 < a) (ha' : 0 < a') (hd : a' ∣ 4 * a) (hn : n' ≤ 4 * n) :
    roundUp n' a' ≤ 4 * roundUp n a := by
  refine (Crevice.roundUp_isLeast n' a' ha').2.2 _ (Nat.dvd_trans hd ?_) ?_
  · exact Nat.mul_dvd_mul_left 4 (Crevice.dvd_roundUp _ _)
  · have := Crevice.le_roundUp n a ha
    omega

theorem endOfMembers_four (ms : List (String × Ty)) (hwf : WfMembers ms)
    (ih : ∀ m ∈ ms, m.2.size .std140 ≤ 4 * m.2.size .std430) {c c' : Nat} (hc : c' ≤ 4 * c) :
    endOfMembers .std140 c' ms ≤ 4 * endOfMembers .std430 c ms := by
  induction ms generalizing c c' with
  | nil => simpa [endOfMembers] using hc
  | cons x r ihr =>
    obtain ⟨n, t⟩ := x
    simp only [endOfMembers]
    refine ihr hwf.2 (fun m hm => ih m (by simp [hm])) ?_
    have h1 := roundUp_four (isPow2_align .std430 t hwf.1).pos (isPow2_align .std140 t hwf.1).pos
      (align_dvd_four t hwf.1) hc
    have h2 := ih (n, t) (by simp)
    simp only at h2
    omega

theorem columnStride_four (s : Scalar) (r : Nat) : columnStride .std140 s r ≤ 4 * columnStride .std430 s r := by
  have hp := Crevice.isPow2_vecAlign s r
  have h1 := Crevice.isPow2_roundToVec4 (l := .std430) hp
  have h2 := Crevice.isPow2_roundToVec4 (l := .std140) hp
  exact roundUp_four h1.pos h2.pos (h2.dvd_of_le (four_pow2 h1) (roundToVec4_four hp (vecAlign_ge s r) (by omega))) (by omega)

theorem size_four (t : Ty) (hwf : t.Wf) : t.size .std140 ≤ 4 * t.size .std430 := by
  induction t using Ty.ind with
  | hs s => simp only [Ty.size]; omega
  | hv s n => simp only [Ty.size]; omega
  | hm s c r =>
    simp only [Ty.size]
    rw [Nat.mul_left_comm]
    exact Nat.mul_le_mul_left _ (columnStride_four s r)
  | ha t n ih =>
    simp only [Ty.size]
    simp only [Ty.Wf] at hwf
    have h1 := Crevice.isPow2_roundToVec4 (l := .std430) (isPow2_align .std430 t hwf)
    have h2 := Crevice.isPow2_roundToVec4 (l := .std140) (isPow2_align .std140 t hwf)
    rw [Nat.mul_left_comm]
    exact Nat.mul_le_mul_left _ (roundUp_four h1.pos h2.pos (h2.dvd_of_le (four_pow2 h1)
      (roundToVec4_four (isPow2_align _ t hwf) (align_ge t hwf) (align_four t hwf))) (ih hwf))
  | hst n ms ih =>
    have h1 := isPow2_align .std430 _ hwf
    have h2 := isPow2_align .std140 _ hwf
    have h3 := align_dvd_four _ hwf
    simp only [Ty.Wf] at hwf
    simp only [Ty.size]
    exact roundUp_four h1.pos h2.pos h3
      (endOfMembers_four ms hwf.2 (fun m hm => ih m hm (hwf.2.mem hm)) (by omega))
  | hal a t ih => simp only [Ty.size]; simp only [Ty.Wf] at hwf; exact ih hwf.2

theorem arrayStride_four (t : Ty) (hwf : t.Wf) : arrayStride .std140 t ≤ 4 * arrayStride .std430 t := by
  have h1 := Crevice.isPow2_roundToVec4 (l := .std430) (isPow2_align .std430 t hwf)
  have h2 := Crevice.isPow2_roundToVec4 (l := .std140) (isPow2_align .std140 t hwf)
  exact roundUp_four h1.pos h2.pos (h2.dvd_of_le (four_pow2 h1)
    (roundToVec4_four (isPow2_align _ t hwf) (align_ge t hwf) (align_four t hwf))) (size_four t hwf)

theorem offsetOf_four (t : Ty) (hwf : t.Wf) {p : List String} {k : Nat} {g' : Ty}
    (h : t.offsetOf .std430 p = some (k, g')) :
    ∃ k', t.offsetOf .std140 p = some (k', g') ∧ k' ≤ 4 * k := by
  induction t using Ty.ind generalizing p k with
  | hs s =>
    cases p with
    | nil =>
      simp only [Ty.offsetOf, Option.some.injEq, Prod.mk.injEq] at h
      obtain ⟨rfl, rfl⟩ := h; exact ⟨0, by simp [Ty.offsetOf]⟩
    | cons c r => simp [Ty.offsetOf] at h
  | hv s n => rw [offsetOf_vec_layout _ .std140] at h; exact ⟨k, h, by omega⟩
  | hm s c r =>
    cases p with
    | nil =>
      simp only [Ty.offsetOf, Option.some.injEq, Prod.mk.injEq] at h
      obtain ⟨rfl, rfl⟩ := h; exact ⟨0, by simp [Ty.offsetOf]⟩
    | cons x p =>
      rw [Crevice.offsetOf_mat_cons] at h ⊢
      split at h
      · rename_i hc
        rw [if_pos hc]
        simp only [Option.map_eq_some_iff, Prod.mk.injEq] at h
        obtain ⟨y, hy, rfl, rfl⟩ := h
        rw [offsetOf_vec_layout _ .std140] at hy
        refine ⟨_, by rw [hy]; rfl, ?_⟩
        have := Nat.mul_le_mul_left (componentNames.idxOf x) (columnStride_four s r)
        rw [Nat.mul_left_comm] at this
        omega
      · simp at h
  | ha t n ih =>
    cases p with
    | nil =>
      simp only [Ty.offsetOf, Option.some.injEq, Prod.mk.injEq] at h
      obtain ⟨rfl, rfl⟩ := h; exact ⟨0, by simp [Ty.offsetOf]⟩
    | cons c r => simp [Ty.offsetOf] at h
  | hst n ms ih =>
    cases p with
    | nil =>
      simp only [Ty.offsetOf, Option.some.injEq, Prod.mk.injEq] at h
      obtain ⟨rfl, rfl⟩ := h; exact ⟨0, by simp [Ty.offsetOf]⟩
    | cons x p =>
      simp only [Ty.offsetOf] at h ⊢
      simp only [Ty.Wf] at hwf
      have hw := hwf.2
      clear hwf
      have key : ∀ (ms : List (String × Ty)), WfMembers ms →
          (∀ m ∈ ms, m.2.Wf → ∀ {p k}, m.2.offsetOf .std430 p = some (k, g') →
            ∃ k', m.2.offsetOf .std140 p = some (k', g') ∧ k' ≤ 4 * k) →
          ∀ c c', c' ≤ 4 * c → offsetOfMember .std430 c ms x p = some (k, g') →
          ∃ k', offsetOfMember .std140 c' ms x p = some (k', g') ∧ k' ≤ 4 * k := by
        intro ms
        induction ms with
        | nil => intro _ _ c c' _ h; simp [offsetOfMember] at h
        | cons y r ihr =>
          obtain ⟨m, t⟩ := y
          intro hw ih c c' hc h
          simp only [offsetOfMember] at h ⊢
          have hr := roundUp_four (isPow2_align .std430 t hw.1).pos (isPow2_align .std140 t hw.1).pos
            (align_dvd_four t hw.1) hc
          split at h
          · rename_i he
            rw [if_pos he]
            simp only [Option.map_eq_some_iff, Prod.mk.injEq] at h
            obtain ⟨z, hz, rfl, rfl⟩ := h
            obtain ⟨k', hk', hle⟩ := ih (m, t) (by simp) hw.1 hz
            refine ⟨_, by rw [hk']; rfl, ?_⟩
            simp only
            omega
          · rename_i he
            rw [if_neg he]
            have hs := size_four t hw.1
            exact ihr hw.2 (fun m hm => ih m (by simp [hm])) _ _ (by omega) h
      exact key ms hw (fun m hm hwm {p k} h => ih m hm hwm h) 0 0 (by omega) h
  | hal a t ih =>
    cases p with
    | nil =>
      simp only [Ty.offsetOf, Option.some.injEq, Prod.mk.injEq] at h
      obtain ⟨rfl, rfl⟩ := h; exact ⟨0, by simp [Ty.offsetOf]⟩
    | cons x p =>
      simp only [Ty.offsetOf] at h ⊢
      simp only [Ty.Wf] at hwf
      exact ih hwf.2 h

end Glsl
