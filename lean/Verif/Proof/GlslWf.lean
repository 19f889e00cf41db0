import Verif.Proof.Padding
/-
Facts about the GLSL rules alone: alignments are powers of two, offsets are aligned at every depth,
std430 never exceeds std140.
-/
namespace Glsl
open Crevice (Layout IsPow2)

mutual
/-- Structures are not empty and `align` qualifiers are powers of two, as GLSL requires. -/
def Ty.Wf : Ty → Prop
  | .array t _ => Ty.Wf t
  | .struct _ ms => ms ≠ [] ∧ WfMembers ms
  | .aligned a t => IsPow2 a ∧ Ty.Wf t
  | _ => True
/-- Member by member. -/
def WfMembers : List (String × Ty) → Prop
  | [] => True
  | (_, t) :: r => Ty.Wf t ∧ WfMembers r
end

theorem WfMembers.mem {ms : List (String × Ty)} (h : WfMembers ms) {m : String × Ty} (hm : m ∈ ms) :
    m.2.Wf := by
  induction ms with
  | nil => simp at hm
  | cons x r ih =>
    obtain ⟨n, t⟩ := x
    rcases List.mem_cons.1 hm with rfl | hm
    · exact h.1
    · exact ih h.2 hm

theorem isPow2_scalarSize (s : Scalar) : IsPow2 s.size := by
  cases s
  all_goals first | exact ⟨2, rfl⟩ | exact ⟨3, rfl⟩

theorem isPow2_maxAlign {l : Layout} {ms : List (String × Ty)} (hne : ms ≠ [])
    (h : ∀ m ∈ ms, IsPow2 (m.2.align l)) : IsPow2 (maxAlign l ms) := by
  induction ms with
  | nil => exact absurd rfl hne
  | cons x r ih =>
    obtain ⟨n, t⟩ := x
    simp only [maxAlign]
    by_cases hr : r = []
    · subst hr
      simp only [maxAlign, Nat.max_zero]
      exact h (n, t) (by simp)
    · exact (h (n, t) (by simp)).max (ih hr fun m hm => h m (by simp [hm]))

theorem isPow2_align (l : Layout) (t : Ty) (h : t.Wf) : IsPow2 (t.align l) := by
  induction t using Ty.ind with
  | hs s => simp only [Ty.align]; exact isPow2_scalarSize s
  | hv s n => simp only [Ty.align]; exact Crevice.isPow2_vecAlign s n
  | hm s c r => simp only [Ty.align]; exact Crevice.isPow2_roundToVec4 (Crevice.isPow2_vecAlign s r)
  | ha t n ih => simp only [Ty.align]; exact Crevice.isPow2_roundToVec4 (ih (by simpa [Ty.Wf] using h))
  | hst n ms ih =>
    simp only [Ty.Wf] at h
    simp only [Ty.align]
    exact Crevice.isPow2_roundToVec4 (isPow2_maxAlign h.1 fun m hm => ih m hm (h.2.mem hm))
  | hal a t ih =>
    simp only [Ty.Wf] at h
    simp only [Ty.align]
    exact h.1.max (ih h.2)

theorem le_maxAlign {l : Layout} {ms : List (String × Ty)} {m : String × Ty} (hm : m ∈ ms) :
    m.2.align l ≤ maxAlign l ms := by
  induction ms with
  | nil => simp at hm
  | cons x r ih =>
    obtain ⟨n, t⟩ := x
    simp only [maxAlign]
    rcases List.mem_cons.1 hm with rfl | hm
    · exact Nat.le_max_left _ _
    · exact Nat.le_trans (ih hm) (Nat.le_max_right _ _)

theorem le_roundToVec4 {l : Layout} (a : Nat) : a ≤ roundToVec4 l a := by
  cases l
  · exact Crevice.le_roundUp a 16 (by omega)
  · exact Nat.le_refl _

theorem member_dvd {l : Layout} {n : String} {ms : List (String × Ty)} (h : (Ty.struct n ms).Wf)
    {m : String × Ty} (hm : m ∈ ms) : m.2.align l ∣ (Ty.struct n ms).align l := by
  have h1 := isPow2_align l _ h
  simp only [Ty.Wf] at h
  have h2 := isPow2_align l _ (h.2.mem hm)
  refine h2.dvd_of_le h1 ?_
  simp only [Ty.align]
  exact Nat.le_trans (le_maxAlign hm) (le_roundToVec4 _)

theorem memberOffsets_dvd {l : Layout} {ms : List (String × Ty)} {cur : Nat} {n : String} {k : Nat}
    (h : (n, k) ∈ memberOffsets l cur ms) : ∃ g, (n, g) ∈ ms ∧ g.align l ∣ k := by
  induction ms generalizing cur with
  | nil => simp [memberOffsets] at h
  | cons x r ih =>
    obtain ⟨m, t⟩ := x
    simp only [memberOffsets, List.mem_cons, Prod.mk.injEq] at h
    rcases h with ⟨rfl, rfl⟩ | h
    · exact ⟨t, by simp, Crevice.dvd_roundUp _ _⟩
    · obtain ⟨g, hg, hd⟩ := ih h
      exact ⟨g, by simp [hg], hd⟩

theorem offsetOfMember_dvd {l : Layout} (ms : List (String × Ty)) (cur : Nat) {n : String}
    {p : List String} {k : Nat} {g' : Ty} (h : offsetOfMember l cur ms n p = some (k, g')) :
    ∃ g k₀ k₁, (n, g) ∈ ms ∧ g.align l ∣ k₀ ∧ g.offsetOf l p = some (k₁, g') ∧ k = k₀ + k₁ := by
  induction ms generalizing cur with
  | nil => simp [offsetOfMember] at h
  | cons x r ih =>
    obtain ⟨m, t⟩ := x
    simp only [offsetOfMember] at h
    split at h
    · rename_i he
      subst he
      simp only [Option.map_eq_some_iff, Prod.mk.injEq] at h
      obtain ⟨y, hy, rfl, rfl⟩ := h
      exact ⟨t, _, _, by simp, Crevice.dvd_roundUp _ _, hy, rfl⟩
    · obtain ⟨g, k₀, k₁, h1, h2⟩ := ih _ h
      exact ⟨g, k₀, k₁, by simp [h1], h2⟩

theorem offsetOf_vec_dvd {l : Layout} {s : Scalar} {n base : Nat} (hb : vecAlign s n ∣ base)
    {p : List String} {k : Nat} {g' : Ty} (h : (Ty.vec s n).offsetOf l p = some (k, g')) :
    g'.align l ∣ base + k := by
  match p, h with
  | [], h =>
    simp only [Ty.offsetOf, Option.some.injEq, Prod.mk.injEq] at h
    obtain ⟨rfl, rfl⟩ := h
    simpa [Ty.align] using hb
  | [c], h =>
    simp only [Ty.offsetOf] at h
    split at h
    · simp only [Option.some.injEq, Prod.mk.injEq] at h
      obtain ⟨rfl, rfl⟩ := h
      simp only [Ty.align]
      exact Nat.dvd_add (Nat.dvd_trans (Crevice.scalar_dvd_vecAlign s n) hb) (Nat.dvd_mul_left _ _)
    · simp at h
  | c :: d :: r, h => simp [Ty.offsetOf] at h

theorem dvd_roundToVec4 {l : Layout} {a : Nat} (h : IsPow2 a) : a ∣ roundToVec4 l a :=
  h.dvd_of_le (Crevice.isPow2_roundToVec4 h) (le_roundToVec4 a)

theorem vecAlign_dvd_columnStride (l : Layout) (s : Scalar) (r : Nat) :
    vecAlign s r ∣ columnStride l s r :=
  Nat.dvd_trans (dvd_roundToVec4 (Crevice.isPow2_vecAlign s r)) (Crevice.dvd_roundUp _ _)

/-- If a type is placed at a multiple of its base alignment then so is every part of it. -/
theorem offsetOf_dvd {l : Layout} {t : Ty} (hwf : t.Wf) {base : Nat} (hb : t.align l ∣ base)
    {p : List String} {k : Nat} {g' : Ty} (h : t.offsetOf l p = some (k, g')) :
    g'.align l ∣ base + k := by
  induction t using Ty.ind generalizing base p k with
  | hs s =>
    cases p with
    | nil =>
      simp only [Ty.offsetOf, Option.some.injEq, Prod.mk.injEq] at h
      obtain ⟨rfl, rfl⟩ := h; simpa using hb
    | cons c r => simp [Ty.offsetOf] at h
  | hv s n => exact offsetOf_vec_dvd (by simpa [Ty.align] using hb) h
  | hm s c r =>
    cases p with
    | nil =>
      simp only [Ty.offsetOf, Option.some.injEq, Prod.mk.injEq] at h
      obtain ⟨rfl, rfl⟩ := h; simpa using hb
    | cons x p =>
      rw [Crevice.offsetOf_mat_cons] at h
      split at h
      · simp only [Option.map_eq_some_iff, Prod.mk.injEq] at h
        obtain ⟨y, hy, rfl, rfl⟩ := h
        rw [← Nat.add_assoc]
        refine offsetOf_vec_dvd ?_ hy
        simp only [Ty.align] at hb
        exact Nat.dvd_add (Nat.dvd_trans (dvd_roundToVec4 (Crevice.isPow2_vecAlign s r)) hb)
          (Nat.dvd_trans (vecAlign_dvd_columnStride l s r) (Nat.dvd_mul_left _ _))
      · simp at h
  | ha t n ih =>
    cases p with
    | nil =>
      simp only [Ty.offsetOf, Option.some.injEq, Prod.mk.injEq] at h
      obtain ⟨rfl, rfl⟩ := h; simpa using hb
    | cons x p => simp [Ty.offsetOf] at h
  | hst n ms ih =>
    cases p with
    | nil =>
      simp only [Ty.offsetOf, Option.some.injEq, Prod.mk.injEq] at h
      obtain ⟨rfl, rfl⟩ := h; simpa using hb
    | cons x p =>
      simp only [Ty.offsetOf] at h
      obtain ⟨g, k₀, k₁, hm, hd, ho, rfl⟩ := offsetOfMember_dvd _ _ h
      rw [← Nat.add_assoc]
      have hw := hwf
      simp only [Ty.Wf] at hw
      exact ih _ hm (hw.2.mem hm) (Nat.dvd_add (Nat.dvd_trans (member_dvd hwf hm) hb) hd) ho
  | hal a t ih =>
    cases p with
    | nil =>
      simp only [Ty.offsetOf, Option.some.injEq, Prod.mk.injEq] at h
      obtain ⟨rfl, rfl⟩ := h; simpa using hb
    | cons x p =>
      simp only [Ty.offsetOf] at h
      simp only [Ty.Wf] at hwf
      simp only [Ty.align] at hb
      exact ih hwf.2 (Nat.dvd_trans (hwf.1.dvd_max_right (isPow2_align l t hwf.2)) hb) h

/-! ### std430 against std140 -/

theorem roundUp_mono {n n' a a' : Nat} (ha : 0 < a) (ha' : 0 < a') (hd : a ∣ a') (hn : n ≤ n') :
    roundUp n a ≤ roundUp n' a' :=
  (Crevice.roundUp_isLeast n a ha).2.2 _ (Nat.dvd_trans hd (Crevice.dvd_roundUp _ _))
    (Nat.le_trans hn (Crevice.le_roundUp _ _ ha'))

theorem roundToVec4_mono {a a' : Nat} (h : a ≤ a') :
    roundToVec4 .std430 a ≤ roundToVec4 .std140 a' := by
  simp only [roundToVec4]
  exact Nat.le_trans h (Crevice.le_roundUp _ _ (by omega))

theorem maxAlign_mono {ms : List (String × Ty)}
    (h : ∀ m ∈ ms, m.2.align .std430 ≤ m.2.align .std140) :
    maxAlign .std430 ms ≤ maxAlign .std140 ms := by
  induction ms with
  | nil => simp [maxAlign]
  | cons x r ih =>
    obtain ⟨n, t⟩ := x
    have h1 := h (n, t) (by simp)
    have h2 := ih fun m hm => h m (by simp [hm])
    simp only [maxAlign]
    simp only at h1
    omega

theorem align_mono (t : Ty) : t.align .std430 ≤ t.align .std140 := by
  induction t using Ty.ind with
  | hs s => exact Nat.le_refl _
  | hv s n => exact Nat.le_refl _
  | hm s c r => simp only [Ty.align]; exact roundToVec4_mono (Nat.le_refl _)
  | ha t n ih => simp only [Ty.align]; exact roundToVec4_mono ih
  | hst n ms ih => simp only [Ty.align]; exact roundToVec4_mono (maxAlign_mono ih)
  | hal a t ih => simp only [Ty.align]; omega

theorem align_dvd_mono (t : Ty) (h : t.Wf) : t.align .std430 ∣ t.align .std140 :=
  (isPow2_align _ t h).dvd_of_le (isPow2_align _ t h) (align_mono t)

theorem endOfMembers_mono (ms : List (String × Ty)) (hwf : WfMembers ms)
    (ih : ∀ m ∈ ms, m.2.size .std430 ≤ m.2.size .std140) {c c' : Nat} (hc : c ≤ c') :
    endOfMembers .std430 c ms ≤ endOfMembers .std140 c' ms := by
  induction ms generalizing c c' with
  | nil => simpa [endOfMembers] using hc
  | cons x r ihr =>
    obtain ⟨n, t⟩ := x
    simp only [endOfMembers]
    refine ihr hwf.2 (fun m hm => ih m (by simp [hm])) ?_
    have h1 := roundUp_mono (isPow2_align .std430 t hwf.1).pos (isPow2_align .std140 t hwf.1).pos
      (align_dvd_mono t hwf.1) hc
    have h2 := ih (n, t) (by simp)
    simp only at h2
    omega

theorem columnStride_mono (s : Scalar) (r : Nat) : columnStride .std430 s r ≤ columnStride .std140 s r := by
  have hp := Crevice.isPow2_vecAlign s r
  have h1 := Crevice.isPow2_roundToVec4 (l := .std430) hp
  have h2 := Crevice.isPow2_roundToVec4 (l := .std140) hp
  exact roundUp_mono h1.pos h2.pos (h1.dvd_of_le h2 (roundToVec4_mono (Nat.le_refl _))) (Nat.le_refl _)

theorem size_mono (t : Ty) (hwf : t.Wf) : t.size .std430 ≤ t.size .std140 := by
  induction t using Ty.ind with
  | hs s => exact Nat.le_refl _
  | hv s n => exact Nat.le_refl _
  | hm s c r => simp only [Ty.size]; exact Nat.mul_le_mul_left _ (columnStride_mono s r)
  | ha t n ih =>
    simp only [Ty.size]
    simp only [Ty.Wf] at hwf
    have h1 := Crevice.isPow2_roundToVec4 (l := .std430) (isPow2_align .std430 t hwf)
    have h2 := Crevice.isPow2_roundToVec4 (l := .std140) (isPow2_align .std140 t hwf)
    exact Nat.mul_le_mul_left _ (roundUp_mono h1.pos h2.pos
      (h1.dvd_of_le h2 (roundToVec4_mono (align_mono t))) (ih hwf))
  | hst n ms ih =>
    have h1 := isPow2_align .std430 _ hwf
    have h2 := isPow2_align .std140 _ hwf
    have h3 := align_dvd_mono _ hwf
    simp only [Ty.Wf] at hwf
    simp only [Ty.size]
    exact roundUp_mono h1.pos h2.pos h3
      (endOfMembers_mono ms hwf.2 (fun m hm => ih m hm (hwf.2.mem hm)) (Nat.le_refl _))
  | hal a t ih => simp only [Ty.size]; simp only [Ty.Wf] at hwf; exact ih hwf.2

theorem offsetOf_vec_layout (l l' : Layout) (s : Scalar) (n : Nat) (p : List String) :
    (Ty.vec s n).offsetOf l p = (Ty.vec s n).offsetOf l' p := by
  match p with
  | [] => simp [Ty.offsetOf]
  | [c] => simp [Ty.offsetOf]
  | c :: d :: r => simp [Ty.offsetOf]

theorem offsetOf_mono (t : Ty) (hwf : t.Wf) {p : List String} {k : Nat} {g' : Ty}
    (h : t.offsetOf .std430 p = some (k, g')) :
    ∃ k', t.offsetOf .std140 p = some (k', g') ∧ k ≤ k' := by
  induction t using Ty.ind generalizing p k with
  | hs s => 
    cases p with
    | nil =>
      simp only [Ty.offsetOf, Option.some.injEq, Prod.mk.injEq] at h
      obtain ⟨rfl, rfl⟩ := h; exact ⟨0, by simp [Ty.offsetOf]⟩
    | cons c r => simp [Ty.offsetOf] at h
  | hv s n => rw [offsetOf_vec_layout _ .std140] at h; exact ⟨k, h, Nat.le_refl _⟩
  | hm s c r =>
    cases p with
    | nil =>
      simp only [Ty.offsetOf, Option.some.injEq, Prod.mk.injEq] at h
      obtain ⟨rfl, rfl⟩ := h; exact ⟨0, by simp [Ty.offsetOf]⟩
    | cons x p =>
      rw [Crevice.offsetOf_mat_cons] at h ⊢
      split at h
      · rename_i hc
        rw [if_pos hc]
        simp only [Option.map_eq_some_iff, Prod.mk.injEq] at h
        obtain ⟨y, hy, rfl, rfl⟩ := h
        rw [offsetOf_vec_layout _ .std140] at hy
        refine ⟨_, by rw [hy]; rfl, ?_⟩
        have := Nat.mul_le_mul_left (componentNames.idxOf x) (columnStride_mono s r)
        omega
      · simp at h
  | ha t n ih =>
    cases p with
    | nil =>
      simp only [Ty.offsetOf, Option.some.injEq, Prod.mk.injEq] at h
      obtain ⟨rfl, rfl⟩ := h; exact ⟨0, by simp [Ty.offsetOf]⟩
    | cons c r => simp [Ty.offsetOf] at h
  | hst n ms ih =>
    cases p with
    | nil =>
      simp only [Ty.offsetOf, Option.some.injEq, Prod.mk.injEq] at h
      obtain ⟨rfl, rfl⟩ := h; exact ⟨0, by simp [Ty.offsetOf]⟩
    | cons x p =>
      simp only [Ty.offsetOf] at h ⊢
      simp only [Ty.Wf] at hwf
      have hw := hwf.2
      clear hwf
      have key : ∀ (ms : List (String × Ty)), WfMembers ms →
          (∀ m ∈ ms, m.2.Wf → ∀ {p k}, m.2.offsetOf .std430 p = some (k, g') →
            ∃ k', m.2.offsetOf .std140 p = some (k', g') ∧ k ≤ k') →
          ∀ c c', c ≤ c' → offsetOfMember .std430 c ms x p = some (k, g') →
          ∃ k', offsetOfMember .std140 c' ms x p = some (k', g') ∧ k ≤ k' := by
        intro ms
        induction ms with
        | nil => intro _ _ c c' _ h; simp [offsetOfMember] at h
        | cons y r ihr =>
          obtain ⟨m, t⟩ := y
          intro hw ih c c' hc h
          simp only [offsetOfMember] at h ⊢
          have hr := roundUp_mono (isPow2_align .std430 t hw.1).pos (isPow2_align .std140 t hw.1).pos
            (align_dvd_mono t hw.1) hc
          split at h
          · rename_i he
            rw [if_pos he]
            simp only [Option.map_eq_some_iff, Prod.mk.injEq] at h
            obtain ⟨z, hz, rfl, rfl⟩ := h
            obtain ⟨k', hk', hle⟩ := ih (m, t) (by simp) hw.1 hz
            refine ⟨_, by rw [hk']; rfl, ?_⟩
            simp only
            omega
          · rename_i he
            rw [if_neg he]
            have hs := size_mono t hw.1
            exact ihr hw.2 (fun m hm => ih m (by simp [hm])) _ _ (by omega) h
      exact key ms hw (fun m hm hwm {p k} h => ih m hm hwm h) 0 0 (Nat.le_refl _) h
  | hal a t ih =>
    cases p with
    | nil =>
      simp only [Ty.offsetOf, Option.some.injEq, Prod.mk.injEq] at h
      obtain ⟨rfl, rfl⟩ := h; exact ⟨0, by simp [Ty.offsetOf]⟩
    | cons x p =>
      simp only [Ty.offsetOf] at h ⊢
      simp only [Ty.Wf] at hwf
      exact ih hwf.2 h

end Glsl

namespace Crevice

theorem glsl_wf {t : Ty} {g : Glsl.Ty} (h : t.glsl = some g) : g.Wf := by
  induction t using Ty.ind generalizing g with
  | hs s => cases s <;> simp [Ty.glsl] at h <;> subst h <;> simp [Glsl.Ty.Wf]
  | hb => simp [Ty.glsl] at h; subst h; simp [Glsl.Ty.Wf]
  | hm m =>
    simp only [Ty.glsl, MathTy.glsl] at h
    split at h
    · split at h <;> simp at h <;> subst h <;> simp [Glsl.Ty.Wf]
    · simp at h
  | hf n =>
    simp only [Ty.glsl, Option.bind_eq_some_iff] at h
    obtain ⟨r, _, h⟩ := h
    simp only [MathTy.glsl] at h
    split at h
    · split at h <;> simp at h <;> subst h <;> simp [Glsl.Ty.Wf]
    · simp at h
  | hst n fs ih =>
    obtain ⟨ms, rfl, hne, hm⟩ := glsl_struct h
    have h2 := glslMembers_all2 hm
    simp only [Glsl.Ty.Wf]
    clear hm h
    constructor
    · rintro rfl
      cases h2
      exact hne rfl
    · clear hne
      induction h2 with
      | nil => trivial
      | cons hr _ ihr =>
        refine ⟨ih _ (by simp) hr.2, ihr fun f hf => ih f (by simp [hf])⟩
  | hd t ih =>
    simp only [Ty.glsl, Option.map_eq_some_iff] at h
    obtain ⟨g, hg, rfl⟩ := h
    exact ⟨isPow2_256, ih hg⟩
  | hu n t ih => exact ih (by simpa [Ty.glsl] using h)
  | ho l t ih => exact ih (by simpa [Ty.glsl] using h)

end Crevice
