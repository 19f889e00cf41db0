import Verif.Proof.Accept
import Verif.Proof.GlslWf
import Verif.Proof.PlaceSpec
/-
Types without scalars, and types with a GLSL counterpart.
-/
namespace Crevice

/-- Every convertible type without empty structs has a GLSL counterpart. -/
theorem glsl_isSome {tg : Target} {env : ForeignEnv} {l : Layout} {t : Ty} {i : Impl}
    (h : resolve tg env l t = some i) (hne : t.noEmptyStruct = true) : ∃ g, t.glsl = some g := by
  induction t using Ty.ind generalizing i l with
  | hs s => cases s <;> simp [Ty.glsl] <;> simp [resolve, scalarImpl, Layout.scalarAlignment] at h
  | hb => simp [Ty.glsl]
  | hm m => exact ⟨_, by simp only [Ty.glsl]; exact math_glsl h⟩
  | hf n =>
    simp only [resolve, Option.bind_eq_some_iff, Option.map_eq_some_iff] at h
    obtain ⟨row, hrow, mi, hm, _⟩ := h
    exact ⟨_, by simp only [Ty.glsl, foreignMath_row hrow, Option.bind_some]; exact math_glsl hm⟩
  | hst n fs ih =>
    obtain ⟨is, his, -, -⟩ := resolve_struct h
    have ha := resolveFields_all2 his
    simp only [Ty.noEmptyStruct, Bool.and_eq_true, Bool.not_eq_true'] at hne
    have : ∃ ms, glslMembers fs = some ms := by
      have h2 := hne.2
      clear his h hne
      induction ha with
      | nil => exact ⟨[], rfl⟩
      | @cons a b l' m hr _ ihr =>
        obtain ⟨n, t⟩ := a
        simp only [noEmptyStructFields, Bool.and_eq_true] at h2
        obtain ⟨g, hg⟩ := ih (n, t) (by simp) hr.2 h2.1
        obtain ⟨ms, hms⟩ := ihr (fun f hf => ih f (by simp [hf])) h2.2
        exact ⟨(n, g) :: ms, by simp only at hg; simp [glslMembers, hg, hms]⟩
    obtain ⟨ms, hms⟩ := this
    exact ⟨.struct n ms, by simp [Ty.glsl, hne.1, hms]⟩
  | hd t ih =>
    cases l with
    | std430 => simp [resolve] at h
    | std140 =>
      simp only [resolve, Option.map_eq_some_iff] at h
      obtain ⟨j, hj, _⟩ := h
      obtain ⟨g, hg⟩ := ih hj (by simpa [Ty.noEmptyStruct] using hne)
      exact ⟨_, by simp [Ty.glsl, hg]; rfl⟩
  | hu n t ih =>
    simp only [resolve, Option.map_eq_some_iff] at h
    obtain ⟨j, hj, rfl⟩ := h
    obtain ⟨g, hg⟩ := ih hj (by simpa [Ty.noEmptyStruct] using hne)
    exact ⟨g, by simpa [Ty.glsl] using hg⟩
  | ho l' t ih =>
    simp only [resolve] at h
    split at h
    · simp only [Option.map_eq_some_iff] at h
      obtain ⟨j, hj, _⟩ := h
      obtain ⟨g, hg⟩ := ih hj (by simpa [Ty.noEmptyStruct] using hne)
      exact ⟨g, by simpa [Ty.glsl] using hg⟩
    · simp at h

theorem scalarFreeFields_iff (fs : List (String × Ty)) :
    scalarFreeFields fs = true ↔ ∀ f ∈ fs, f.2.scalarFree = true := by
  induction fs with
  | nil => simp [scalarFreeFields]
  | cons x r ih => obtain ⟨n, t⟩ := x; simp [scalarFreeFields, ih]

/-- ALIGNMENT is 0 exactly for scalar-free types in std430. -/
theorem alignment_zero_iff {tg : Target} (htg : tg.Valid) {env : ForeignEnv} {l : Layout} {t : Ty}
    {i : Impl} (h : resolve tg env l t = some i) :
    i.alignment = 0 ↔ l = .std430 ∧ t.scalarFree = true := by
  induction t using Ty.ind generalizing i with
  | hs s =>
    cases s <;> cases l <;> simp [resolve, scalarImpl, Layout.scalarAlignment, blanketImpl] at h <;>
      subst h <;> simp [Ty.scalarFree]
  | hb =>
    cases l <;> simp [resolve, boolImpl, Layout.boolAlignment] at h <;> subst h <;>
      simp [Ty.scalarFree]
  | hm m =>
    have := (agrees_math h (math_glsl h)).pow2.pos
    simp only [Ty.scalarFree]
    constructor
    · omega
    · simp
  | hf n =>
    simp only [resolve, Option.bind_eq_some_iff, Option.map_eq_some_iff] at h
    obtain ⟨row, hrow, mi, hm, rfl⟩ := h
    have := (agrees_math hm (math_glsl hm)).pow2.pos
    simp only [Ty.scalarFree, mintyImpl]
    constructor
    · omega
    · simp
  | hst n fs ih =>
    obtain ⟨is, his, hok, rfl⟩ := resolve_struct h
    have ha := resolveFields_all2 his
    have hg : ∀ f ∈ is, Good f.2 := ha.forall_right fun a _ b _ hr => good_resolve htg hr.2
    simp only [recordImpl, Ty.scalarFree, scalarFreeFields_iff]
    constructor
    · intro h0
      rcases isPow2_of_structAl (l := l) hg with hp | ⟨_, hl, hz⟩
      · have := hp.pos; omega
      · refine ⟨hl, fun f hf => ?_⟩
        obtain ⟨j, hj, _, hr⟩ := ha.mem_left hf
        exact ((ih f hf hr).1 (hz j hj)).2
    · rintro ⟨rfl, hs⟩
      have hz : ∀ f ∈ is, f.2.alignment = 0 := by
        intro j hj
        obtain ⟨f, hf, _, hr⟩ := ha.mem_right hj
        exact (ih f hf hr).2 ⟨rfl, hs f hf⟩
      have := maxArr_mem (l := Layout.std430.minStructAlignment :: is.map fun f => f.2.alignment)
        (by simp)
      rcases List.mem_cons.1 this with h1 | h1
      · exact h1
      · obtain ⟨f, hf, he⟩ := List.mem_map.1 h1
        show maxArr _ = 0
        rw [← he]; exact hz f hf
  | hd t ih =>
    cases l with
    | std430 => simp [resolve] at h
    | std140 =>
      simp only [resolve, Option.map_eq_some_iff] at h
      obtain ⟨j, hj, rfl⟩ := h
      simp only [dynamicImpl, constMax_eq]
      constructor
      · omega
      · simp
  | hu n t ih =>
    simp only [resolve, Option.map_eq_some_iff] at h
    obtain ⟨j, hj, rfl⟩ := h
    exact (ih hj :)
  | ho l' t ih =>
    simp only [resolve] at h
    split at h
    · simp only [Option.map_eq_some_iff] at h
      obtain ⟨j, hj, rfl⟩ := h
      simpa [Ty.scalarFree, blanketImpl] using ih hj
    · simp at h

end Crevice
