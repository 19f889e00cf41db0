import Verif.Spec.Contract
import Verif.Proof.StructImage
import Verif.Proof.Decode
/-
The contract of the public traits is the layout invariant used for the crate's own types.
-/
namespace Crevice

theorem x86_valid : x86_64.Valid := fun _ => Nat.dvd_refl _

theorem align_x86 (t : RTy) : t.align x86_64 = t.natAlign := by
  induction t using RTy.ind with
  | hs s => rfl
  | hb => rfl
  | ha t n ih => simpa only [RTy.align, RTy.natAlign] using ih
  | hn t ih => simpa only [RTy.align, RTy.natAlign] using ih
  | hst fs ih =>
    simp only [RTy.align, RTy.natAlign]
    induction fs with
    | nil => rfl
    | cons f r ihr =>
      obtain ⟨n, t⟩ := f
      simp only [alignFields, natAlignFields]
      rw [ih (n, t) (by simp), ihr fun g hg => ih g (List.mem_cons_of_mem _ hg)]

theorem mapM_id_some {img : List (Option Byte)} {bs : List Byte} (h : img.mapM id = some bs) :
    none ∉ img := by
  induction img generalizing bs with
  | nil => simp
  | cons a r ih =>
    rw [mapM_option_cons] at h
    cases a with
    | none => simp at h
    | some a =>
      simp only [id_eq, Option.bind_some] at h
      cases hr : r.mapM id with
      | none => simp [hr] at h
      | some x => simp [ih hr]

theorem mod_of_padding {off a : Nat} (h : (none : Option Byte) ∉ List.replicate (paddingFor off a) none)
    (ha : 0 < a) : off % a = 0 := by
  have h0 : paddingFor off a = 0 := by
    rcases Nat.eq_zero_or_pos (paddingFor off a) with h1 | h1
    · exact h1
    · exact absurd (List.mem_replicate.2 ⟨by omega, rfl⟩) h
  unfold paddingFor at h0
  split at h0
  · have := Nat.mod_lt off ha; omega
  · omega

/-- If the all-zero value has no uninitialised bytes there are no gaps. -/
theorem packed_of_encode (t : RTy) {img : List (Option Byte)}
    (h : encode x86_64 t (zeroed t) = some img) (hn : none ∉ img) : t.packed = true := by
  induction t using RTy.ind generalizing img with
  | hs s => rfl
  | hb => rfl
  | ha t n ih =>
    simp only [RTy.packed, Bool.or_eq_true, decide_eq_true_eq]
    cases n with
    | zero => exact .inl rfl
    | succ n =>
      simp only [zeroed, encode, List.length_replicate, if_true] at h
      rw [List.replicate_succ, mapM_option_cons] at h
      cases h1 : encode x86_64 t (zeroed t) with
      | none => simp [h1] at h
      | some a =>
        refine .inr (ih h1 fun hm => hn ?_)
        simp only [h1, Option.bind_some, Option.map_eq_some_iff] at h
        obtain ⟨b, hb, rfl⟩ := h
        obtain ⟨c, -, rfl⟩ := hb
        simp [hm]
  | hn t ih =>
    simp only [zeroed, encode] at h
    exact ih h hn
  | hst fs ih =>
    simp only [zeroed, encode, Option.map_eq_some_iff] at h
    obtain ⟨a, ha, rfl⟩ := h
    simp only [List.mem_append, not_or] at hn
    have key : ∀ (gs : List (String × RTy)) (off : Nat) (a : List (Option Byte)),
        (∀ g ∈ gs, ∀ {img}, encode x86_64 g.2 (zeroed g.2) = some img → none ∉ img →
          g.2.packed = true) →
        encodeFields x86_64 off gs (zeroedFields gs) = some a → none ∉ a →
        packedFields off gs = true := by
      intro gs
      induction gs with
      | nil => intro off a _ _ _; rfl
      | cons g r ihr =>
        obtain ⟨n, t⟩ := g
        intro off a hg he hna
        simp only [zeroedFields, encodeFields, if_true, Option.bind_eq_some_iff,
          Option.map_eq_some_iff] at he
        obtain ⟨x, hx, y, hy, rfl⟩ := he
        simp only [List.mem_append, not_or] at hna
        have hp := hg (n, t) (by simp) hx hna.1.2
        have hm := mod_of_padding hna.1.1 (isPow2_align x86_valid t).pos
        simp only at hp
        have hz : paddingFor off (t.align x86_64) = 0 :=
          paddingFor_of_dvd (Nat.dvd_of_mod_eq_zero hm)
        have := ihr _ _ (fun g hg' => hg g (List.mem_cons_of_mem _ hg')) hy hna.2
        rw [hz, size_eq_natSize x86_valid hp, Nat.add_zero] at this
        rw [align_x86] at hm
        simp [packedFields, hp, hm, this]
    have hp := key fs 0 a (fun g hg => ih g hg) ha hn.1
    have hm := mod_of_padding hn.2 (isPow2_align x86_valid (.struct fs)).pos
    rw [endOfFields_packed x86_valid fs 0 hp, Nat.zero_add] at hm
    have h2 : alignFields x86_64 fs = natAlignFields fs := by
      simpa only [RTy.align, RTy.natAlign] using align_x86 (.struct fs)
    rw [h2] at hm
    simp [RTy.packed, hp, hm]

/-- If a string of equal bytes other than 0 and 1 is a value, there is no `bool` inside. -/
theorem noBool_of_decode {tg : Target} (t : RTy) {k : Nat} {v : RVal}
    (h : decode tg t (List.replicate k 255) = some v) : t.noBool = true := by
  induction t using RTy.ind generalizing k v with
  | hs s => rfl
  | hb =>
    simp only [decode] at h
    split at h
    · rename_i h1
      rw [List.eq_replicate_iff.1 h1.symm |>.1.symm] at h1
      have := List.eq_replicate_iff.1 h1.symm |>.2 0 (by simp)
      simp at this
    · split at h
      · rename_i h1
        have := List.eq_replicate_iff.1 h1.symm |>.2 1 (by simp)
        simp at this
      · cases h
  | ha t n ih =>
    simp only [RTy.noBool, Bool.or_eq_true, decide_eq_true_eq]
    cases n with
    | zero => exact .inl rfl
    | succ n =>
      right
      simp only [decode] at h
      split at h
      · simp only [Option.map_eq_some_iff] at h
        obtain ⟨vs, hvs, -⟩ := h
        rw [List.range_succ_eq_map, mapM_option_cons] at hvs
        simp only [Nat.zero_mul, List.drop_zero, List.take_replicate] at hvs
        rw [Option.bind_eq_some_iff] at hvs
        obtain ⟨a, h1, -⟩ := hvs
        exact ih h1
      · cases h
  | hn t ih =>
    simp only [decode, Option.map_eq_some_iff] at h
    obtain ⟨w, hw, -⟩ := h
    exact ih hw
  | hst fs ih =>
    simp only [decode] at h
    split at h
    · simp only [Option.map_eq_some_iff] at h
      obtain ⟨vs, hvs, -⟩ := h
      have key : ∀ (gs : List (String × RTy)) (off k : Nat) (vs : List (String × RVal)),
          (∀ g ∈ gs, ∀ {k v}, decode tg g.2 (List.replicate k 255) = some v → g.2.noBool = true) →
          decodeFields tg off gs (List.replicate k 255) = some vs → noBoolFields gs = true := by
        intro gs
        induction gs with
        | nil => intro _ _ _ _ _; rfl
        | cons g r ihr =>
          obtain ⟨n, t⟩ := g
          intro off k vs hg he
          simp only [decodeFields, List.drop_replicate, List.take_replicate,
            Option.bind_eq_some_iff, Option.map_eq_some_iff] at he
          obtain ⟨x, hx, y, hy, -⟩ := he
          have h1 := hg (n, t) (by simp) hx
          have h2 := ihr _ _ _ (fun g hg' => hg g (List.mem_cons_of_mem _ hg')) hy
          simp only at h1
          simp [noBoolFields, h1, h2]
      exact key fs 0 k vs (fun g hg => ih g hg) hvs
    · cases h

theorem StdContract.good {i : Impl} (h : StdContract i) : Good i := by
  refine ⟨?_, ?_, .inl ⟨h.pow2, ?_⟩⟩
  · obtain ⟨bs, hb⟩ := h.init x86_64 x86_valid _ (hasTy_zeroed i.out)
    simp only [bytesOf, Option.bind_eq_some_iff] at hb
    obtain ⟨img, h1, h2⟩ := hb
    exact packed_of_encode _ h1 (mapM_id_some h2)
  · obtain ⟨o, -, ho⟩ := h.valid x86_64 x86_valid (List.replicate (i.out.size x86_64) 255) (by simp)
    exact noBool_of_decode _ ho
  · rw [← align_x86]
    exact h.align x86_64 x86_valid

theorem stdContract_iff {i : Impl} : StdContract i ↔ Good i ∧ 0 < i.alignment := by
  refine ⟨fun h => ⟨h.good, ?_⟩, fun ⟨h, hpos⟩ => ?_⟩
  · obtain ⟨k, hk⟩ := h.pow2
    rw [hk]
    exact Nat.two_pow_pos k
  · rcases h.al with ⟨h1, h2⟩ | ⟨h1, _⟩
    · refine ⟨h1, fun tg htg => Nat.dvd_trans (align_dvd_natAlign htg _) h2,
        fun tg htg o ho => ⟨_, bytesOf_eq_enc htg h.packed ho⟩, fun tg htg bs hl => ?_⟩
      rw [size_eq_natSize htg h.packed] at hl
      obtain ⟨o, h3, h4, _⟩ := decode_exists htg h.packed h.noBool bs hl
      exact ⟨o, h4, h3⟩
    · omega

end Crevice
