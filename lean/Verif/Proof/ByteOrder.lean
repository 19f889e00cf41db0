import Verif.Proof.Encode
/-
Buffers of different byte orders with the same contents.
-/
namespace Glsl
open Crevice (Byte Endian Layout)

/-- The buffers have the same numbers in the cells. -/
def SameWords (e e' : Endian) (buf buf' : List Byte) (cs : List (Nat × Nat)) : Prop :=
  ∀ c ∈ cs, ∃ w, wordAt e buf c.1 c.2 = some w ∧ wordAt e' buf' c.1 c.2 = some w

theorem readScalar_words {e e' : Endian} {s : Scalar} {buf buf' : List Byte} {off : Nat} {v : Val}
    (h : readScalar e s buf off = some v) (h' : readScalar e' s buf' off = some v)
    (hc : CanonicalAt e buf (if s = .bool then [off] else []))
    (hc' : CanonicalAt e' buf' (if s = .bool then [off] else [])) :
    SameWords e e' buf buf' [(off, s.size)] := by
  simp only [readScalar, Option.map_eq_some_iff] at h h'
  obtain ⟨w, hw, h⟩ := h
  obtain ⟨w', hw', h'⟩ := h'
  have hlt := wordAt_lt hw
  have hlt' := wordAt_lt hw'
  have : w = w' := by
    rw [← h'] at h
    cases s <;> simp only [Val.float.injEq, Val.double.injEq, Val.int.injEq, Val.uint.injEq,
      Val.bool.injEq] at h
    · exact ofNat_inj (by simpa [Scalar.size] using hlt) (by simpa [Scalar.size] using hlt') h
    · exact ofNat_inj (by simpa [Scalar.size] using hlt) (by simpa [Scalar.size] using hlt') h
    · exact ofNat_inj (by simpa [Scalar.size] using hlt) (by simpa [Scalar.size] using hlt') h
    · exact ofNat_inj (by simpa [Scalar.size] using hlt) (by simpa [Scalar.size] using hlt') h
    · obtain ⟨x, hx, hx1⟩ := hc off (by simp)
      obtain ⟨x', hx', hx1'⟩ := hc' off (by simp)
      simp only [Scalar.size] at hw hw'
      rw [hw] at hx; cases hx
      rw [hw'] at hx'; cases hx'
      rcases hx1 with rfl | rfl <;> rcases hx1' with rfl | rfl <;> simp at h ⊢
  subst this
  intro c hc
  simp only [List.mem_singleton] at hc
  subst hc
  exact ⟨_, hw, hw'⟩

theorem readScalars_words {e e' : Endian} {s : Scalar} {n : Nat} {buf buf' : List Byte} {off : Nat}
    {vs : List Val} (h : readScalars e s n buf off = some vs) (h' : readScalars e' s n buf' off = some vs)
    (hc : CanonicalAt e buf (scalarBools s n off)) (hc' : CanonicalAt e' buf' (scalarBools s n off)) :
    SameWords e e' buf buf' (scalarCells s n off) := by
  intro c hcm
  simp only [scalarCells, List.mem_map] at hcm
  obtain ⟨i, hi, rfl⟩ := hcm
  obtain ⟨v, hv, hv'⟩ := range_mapM_same h h' hi
  rw [← flatMap_bools] at hc hc'
  exact readScalar_words hv hv' (fun k hk => hc k (List.mem_flatMap.2 ⟨i, hi, hk⟩))
    (fun k hk => hc' k (List.mem_flatMap.2 ⟨i, hi, hk⟩)) _ (by simp)

/-- Two buffers that read the same, each in its byte order, and have canonical bools have the same words. -/
theorem read_words {e e' : Endian} {l : Layout} {t : Ty} {buf buf' : List Byte} {off : Nat} {v : Val}
    (h : read e l t buf off = some v) (h' : read e' l t buf' off = some v)
    (hc : CanonicalAt e buf (bools l t off)) (hc' : CanonicalAt e' buf' (bools l t off)) :
    SameWords e e' buf buf' (cells l t off) := by
  induction t using Ty.ind generalizing v off with
  | hs s => simp only [read] at h h'; exact readScalar_words h h' hc hc'
  | hv s n =>
    simp only [read, Option.map_eq_some_iff] at h h'
    obtain ⟨vs, hv, rfl⟩ := h
    obtain ⟨vs', hv', e1⟩ := h'
    cases e1
    exact readScalars_words hv hv' hc hc'
  | hm s c r =>
    simp only [read, Option.map_eq_some_iff] at h h'
    obtain ⟨vs, hv, rfl⟩ := h
    obtain ⟨vs', hv', e1⟩ := h'
    cases e1
    intro c hcm
    simp only [cells] at hcm
    obtain ⟨i, hi, hcm⟩ := List.mem_flatMap.1 hcm
    obtain ⟨v, hv, hv'⟩ := range_mapM_same hv hv' hi
    simp only [bools] at hc hc'
    exact readScalars_words hv hv' (fun k hk => hc k (List.mem_flatMap.2 ⟨i, hi, hk⟩))
      (fun k hk => hc' k (List.mem_flatMap.2 ⟨i, hi, hk⟩)) c hcm
  | ha t n ih =>
    simp only [read, Option.map_eq_some_iff] at h h'
    obtain ⟨vs, hv, rfl⟩ := h
    obtain ⟨vs', hv', e1⟩ := h'
    cases e1
    intro c hcm
    simp only [cells] at hcm
    obtain ⟨i, hi, hcm⟩ := List.mem_flatMap.1 hcm
    obtain ⟨v, hv, hv'⟩ := range_mapM_same hv hv' hi
    simp only [bools] at hc hc'
    exact ih hv hv' (fun k hk => hc k (List.mem_flatMap.2 ⟨i, hi, hk⟩))
      (fun k hk => hc' k (List.mem_flatMap.2 ⟨i, hi, hk⟩)) c hcm
  | hst nm ms ih =>
    simp only [read, Option.map_eq_some_iff] at h h'
    obtain ⟨vs, hv, rfl⟩ := h
    obtain ⟨vs', hv', e1⟩ := h'
    cases e1
    simp only [cells]
    simp only [bools] at hc hc'
    generalize (0 : Nat) = cur at hv hv' hc hc' ⊢
    induction ms generalizing cur vs with
    | nil => intro c hcm; simp [memberCells] at hcm
    | cons m r ihr =>
      obtain ⟨n, t⟩ := m
      simp only [readMembers, Option.bind_eq_some_iff, Option.map_eq_some_iff] at hv hv'
      obtain ⟨v, hv, ws, hw, rfl⟩ := hv
      obtain ⟨v', hv', ws', hw', e1⟩ := hv'
      cases e1
      simp only [memberBools] at hc hc'
      intro c hcm
      simp only [memberCells] at hcm
      rcases List.mem_append.1 hcm with hcm | hcm
      · exact ih (n, t) (by simp) hv hv' (fun k hk => hc k (List.mem_append_left _ hk))
          (fun k hk => hc' k (List.mem_append_left _ hk)) c hcm
      · exact ihr (fun m hm => ih m (by simp [hm])) _ _ hw hw'
          (fun k hk => hc k (List.mem_append_right _ hk))
          (fun k hk => hc' k (List.mem_append_right _ hk)) c hcm
  | hal a t ih => simp only [read] at h h'; exact ih h h' hc hc'

theorem number_reverse (bs : List Byte) : number .big bs.reverse = number .little bs := by
  simp [number, List.foldl_reverse, Nat.add_comm]

/-- The same number in the other byte order. -/
theorem words_reverse {e e' : Endian} (he : e ≠ e') {buf buf' : List Byte} {off n w : Nat}
    (h : wordAt e buf off n = some w) (h' : wordAt e' buf' off n = some w) :
    off + n ≤ buf.length ∧ off + n ≤ buf'.length ∧ (buf'.drop off).take n = ((buf.drop off).take n).reverse := by
  unfold wordAt at h h'
  split at h
  case isFalse => cases h
  rename_i hl
  split at h'
  case isFalse => cases h'
  rename_i hl'
  simp only [Option.some.injEq] at h h'
  refine ⟨hl, hl', ?_⟩
  cases e <;> cases e' <;> simp only [ne_eq, not_true_eq_false] at he
  · refine number_inj .big (by simp; omega) ?_
    rw [number_reverse, h', h]
  · refine number_inj .little (by simp; omega) ?_
    rw [h', ← h, ← number_reverse ((List.take n (List.drop off buf)).reverse), List.reverse_reverse]

end Glsl
