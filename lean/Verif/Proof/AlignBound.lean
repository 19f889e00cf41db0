import Verif.Proof.Good
import Verif.Proof.Conv
/-
No ALIGNMENT exceeds 256.
-/
namespace Crevice

theorem vecAlign_le (s : Glsl.Scalar) (n : Nat) : Glsl.vecAlign s n ≤ 32 := by
  unfold Glsl.vecAlign
  split <;> cases s <;> decide

theorem roundToVec4_le {l : Layout} {a : Nat} (h : IsPow2 a) (ha : a ≤ 32) :
    Glsl.roundToVec4 l a ≤ 32 := by
  cases l
  · simp only [Glsl.roundToVec4, isPow2_roundUp16 h]; omega
  · exact ha

theorem mathImpl_align_le {l : Layout} {m : MathTy} {i : Impl} (h : mathImpl l m = some i) :
    i.alignment ≤ 32 := by
  by_cases hk : m.kind = .matrix
  · obtain ⟨col, gs, _, _, _, _, hok, rfl⟩ := matImpl_shape hk h
    exact roundToVec4_le (isPow2_vecAlign _ _) (vecAlign_le _ _)
  · rw [mathImpl_vec hk] at h
    obtain ⟨c, hc, h2, h4, rfl⟩ := vecImpl_shape hk h
    exact vecAlign_le _ _

theorem align_le_256 {tg : Target} {env : ForeignEnv} {l : Layout} {t : Ty} {i : Impl}
    (h : resolve tg env l t = some i) : i.alignment ≤ 256 := by
  induction t using Ty.ind generalizing i with
  | hs s =>
    cases l <;> cases s <;> simp [resolve, scalarImpl, Layout.scalarAlignment, blanketImpl] at h <;>
      subst h <;> decide
  | hb => cases l <;> simp [resolve] at h <;> subst h <;> decide
  | hm m => have := mathImpl_align_le h; omega
  | hf n =>
    simp only [resolve, Option.bind_eq_some_iff, Option.map_eq_some_iff] at h
    obtain ⟨row, -, j, hj, rfl⟩ := h
    have := mathImpl_align_le hj
    simp only [mintyImpl]; omega
  | hst n fs ih =>
    obtain ⟨is, hr, hok, rfl⟩ := resolve_struct h
    have ha := resolveFields_all2 hr
    have hall : ∀ g ∈ is, g.2.alignment ≤ 256 :=
      ha.forall_right fun f hf g _ hfg => ih f hf hfg.2
    have hm : structAl l is ∈ l.minStructAlignment :: is.map fun f => f.2.alignment :=
      maxArr_mem (by simp)
    show structAl l is ≤ 256
    rcases List.mem_cons.1 hm with h | h
    · rw [h]; cases l <;> decide
    · obtain ⟨f, hfm, he⟩ := List.mem_map.1 h
      rw [← he]; exact hall f hfm
  | hd t ih =>
    cases l
    · simp only [resolve, Option.map_eq_some_iff] at h
      obtain ⟨j, hj, rfl⟩ := h
      have := ih hj
      simp only [dynamicImpl, constMax_eq]; omega
    · simp [resolve] at h
  | hu n t ih =>
    simp only [resolve, Option.map_eq_some_iff] at h
    obtain ⟨j, hj, rfl⟩ := h
    exact (ih hj :)
  | ho l' t ih =>
    simp only [resolve] at h
    split at h
    · simp only [Option.map_eq_some_iff] at h
      obtain ⟨j, hj, rfl⟩ := h
      exact (ih (i := j) hj :)
    · simp at h

/-- Every ALIGNMENT divides the number of addresses of a machine with at least 9-bit addresses. -/
theorem align_dvd_pow {tg : Target} (htg : tg.Valid) {env : ForeignEnv} {l : Layout} {t : Ty}
    {i : Impl} (h : resolve tg env l t = some i) {w : Nat} (hw : 256 < 2 ^ w) :
    i.alignment ∣ 2 ^ w ∨ i.alignment = 0 := by
  rcases (good_resolve htg h).al with hp | ⟨h0, _⟩
  · exact .inl (hp.1.dvd_of_le ⟨w, rfl⟩ (by have := align_le_256 h; omega))
  · exact .inr h0

end Crevice
