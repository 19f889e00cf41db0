import Verif.Proof.Encode
import Verif.Proof.BoolWord
/-
The bools of converted values, by position.
-/
namespace Glsl
open Crevice (Byte Endian Layout)

theorem memberBools_mem {l : Layout} {ms : List (String × Ty)} {base cur k : Nat}
    (h : k ∈ memberBools l ms base cur) :
    ∃ n g k₀, (n, k₀) ∈ memberOffsets l cur ms ∧ (n, g) ∈ ms ∧ k ∈ bools l g (base + k₀) := by
  induction ms generalizing cur with
  | nil => simp [memberBools] at h
  | cons m r ih =>
    obtain ⟨n, t⟩ := m
    simp only [memberBools] at h
    rcases List.mem_append.1 h with h | h
    · exact ⟨n, t, _, by simp [memberOffsets], by simp, h⟩
    · obtain ⟨n', g, k₀, h1, h2, h3⟩ := ih h
      exact ⟨n', g, k₀, by simp only [memberOffsets]; exact List.mem_cons_of_mem _ h1,
        List.mem_cons_of_mem _ h2, h3⟩

end Glsl

namespace Crevice

theorem bool_words_math {l : Layout} {m : MathTy} {i : Impl} (h : mathImpl l m = some i)
    {g : Glsl.Ty} (hgl : m.glsl = some g) {v o : RVal} (ha : i.asStd v = some o)
    (ho : RVal.HasTy i.out o) (e : Endian) {buf : List Byte} {off : Nat}
    (hs : SliceAt buf off (enc e o)) : Glsl.CanonicalAt e buf (Glsl.bools l g off) := by
  have hm := math_glsl h
  rw [hgl] at hm; cases hm
  by_cases hk : m.kind = .matrix
  · rw [if_pos hk]
    obtain ⟨_, _, _, _, _, hsc, _⟩ := matImpl_shape hk h
    have : m.scalar.glsl ≠ .bool := by rcases hsc with hsc | hsc <;> rw [hsc] <;> simp [MScalar.glsl]
    intro k hk
    simp [Glsl.bools, Glsl.scalarBools, this] at hk
  · rw [if_neg hk]
    rw [mathImpl_vec hk] at h
    obtain ⟨c, hc, h2, h4, rfl⟩ := vecImpl_shape hk h
    intro k hkm
    simp only [Glsl.bools, Glsl.scalarBools] at hkm
    split at hkm
    · rename_i hsc
      have hbool : m.scalar = .bool := by
        cases hms : m.scalar <;> rw [hms] at hsc <;> simp [MScalar.glsl] at hsc
      obtain ⟨j, hj, rfl⟩ := List.mem_map.1 hkm
      have hj : j < m.fieldNames.length := by rw [fieldNames_length h4]; exact List.mem_range.1 hj
      have hch := vec_child (m := m) hj
      obtain ⟨y, hy, hyt, hsl⟩ := hch.slice e ho
      have hmem : (m.fieldNames[j], c) ∈ m.fieldNames.map fun n => (n, c) :=
        List.mem_map.2 ⟨_, List.getElem_mem hj, rfl⟩
      obtain ⟨x, y', hx, hxy, hoy⟩ := recordImpl_as_field (recordOk_vec hc) ha hmem
      rw [hy, Option.some.injEq] at hoy
      subst hoy
      rw [hbool] at hc
      simp only [mscalarImpl, Option.some.injEq] at hc
      subst hc
      obtain ⟨w, hw, hle⟩ := boolImpl_word hxy e (hs.trans hsl)
      exact ⟨w, hw, by omega⟩
    · simp at hkm

/-- Every `bool` of a converted value is stored as the word 0 or 1. -/
theorem bool_words {tg : Target} (htg : tg.Valid) (e : Endian) {env : ForeignEnv} {l : Layout}
    {t : Ty} {i : Impl} {g : Glsl.Ty} (h : resolve tg env l t = some i) (hgl : t.glsl = some g)
    (hpl : t.plain = true) {v o : RVal} (ha : i.asStd v = some o) (ho : RVal.HasTy i.out o)
    {buf : List Byte} {off : Nat} (hs : SliceAt buf off (enc e o)) :
    Glsl.CanonicalAt e buf (Glsl.bools l g off) := by
  induction t using Ty.ind generalizing i g v o off with
  | hs s => cases s <;> cases hgl <;> intro k hk <;> simp [Glsl.bools] at hk
  | hb =>
    cases hgl
    intro k hk
    simp only [Glsl.bools, if_true, List.mem_singleton] at hk
    subst hk
    simp only [resolve, Option.some.injEq] at h
    subst h
    obtain ⟨w, hw, hle⟩ := boolImpl_word ha e hs
    exact ⟨w, hw, by omega⟩
  | hm m => exact bool_words_math h hgl ha ho e hs
  | hf n =>
    simp only [resolve, Option.bind_eq_some_iff, Option.map_eq_some_iff] at h
    obtain ⟨row, hr, j, hm, rfl⟩ := h
    simp only [Ty.glsl, foreignMath_row hr, Option.bind_some] at hgl
    simp only [mintyImpl, Option.bind_eq_some_iff] at ha
    obtain ⟨w, _, ha⟩ := ha
    exact bool_words_math hm hgl ha ho e hs
  | hst n fs ih =>
    have hagr := agrees_resolve htg h hgl
    obtain ⟨is, hr, hok, rfl⟩ := resolve_struct h
    obtain ⟨ms, rfl, hne, hms⟩ := glsl_struct hgl
    have hA := resolveFields_all2 hr
    have hb := glslMembers_all2 hms
    have hag : AgreesAll l is ms := hA.comp hb fun f hf b c hb hc =>
      ⟨hb.1.symm.trans hc.1, agrees_resolve htg hb.2 hc.2⟩
    have hgd : ∀ f ∈ is, Good f.2 := hA.forall_right fun _ _ _ _ hab => good_resolve htg hab.2
    intro k hk
    simp only [Glsl.bools] at hk
    obtain ⟨c, g₁, k₀, h1, h2, h3⟩ := Glsl.memberBools_mem hk
    obtain ⟨f, hf, hfn, hfg⟩ := hb.mem_right h2
    obtain ⟨⟨n', j⟩, hj, hjn, hjr⟩ := hA.mem_left hf
    simp only at hfn hjn hjr hfg
    rw [hfn] at hjn
    subst hjn
    have hch := gen_child htg hag hgd hagr.pow2.pos hok hj h1
    obtain ⟨y, hy, hyt, hsl⟩ := hch.slice e ho
    obtain ⟨x, y', hx, hxy, hoy⟩ := recordImpl_as_field hok ha hj
    rw [hy, Option.some.injEq] at hoy
    subst hoy
    exact ih f hf hjr hfg (plainFields_mem (by simpa [Ty.plain] using hpl) hf) hxy hyt
      (hs.trans hsl) k h3
  | hd t ih =>
    cases l with
    | std430 => simp [resolve] at h
    | std140 =>
      simp only [resolve, Option.map_eq_some_iff] at h
      obtain ⟨j, hj, rfl⟩ := h
      simp only [Ty.glsl, Option.map_eq_some_iff] at hgl
      obtain ⟨g', hg', rfl⟩ := hgl
      cases v with
      | newtype x =>
        simp only [dynamicImpl, Option.map_eq_some_iff] at ha
        obtain ⟨y, hy, rfl⟩ := ha
        exact ih hj hg' (by simpa [Ty.plain] using hpl) hy (by simpa [dynamicImpl, RVal.HasTy] using ho)
          (by simpa [enc] using hs)
      | scalar s b => simp [dynamicImpl] at ha
      | bool b => simp [dynamicImpl] at ha
      | array vs => simp [dynamicImpl] at ha
      | struct fs => simp [dynamicImpl] at ha
  | hu n t ih =>
    simp only [resolve, Option.map_eq_some_iff] at h
    obtain ⟨j, hj, rfl⟩ := h
    simp only [userImpl, Option.bind_eq_some_iff] at ha
    obtain ⟨w, _, ha⟩ := ha
    exact ih hj hgl (by simpa [Ty.plain] using hpl) ha ho hs
  | ho l' t ih => simp [Ty.plain] at hpl

end Crevice
