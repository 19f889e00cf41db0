import Verif.Proof.Conv
/-
The layout of Output types does not depend on the target.
-/
namespace Crevice

variable {tg tg' : Target}

theorem paddingFor_packed (htg : tg.Valid) (t : RTy) {off : Nat} (h : off % t.natAlign = 0) :
    paddingFor off (t.align tg) = 0 := by
  have := Nat.dvd_trans (align_dvd_natAlign htg t) (Nat.dvd_of_mod_eq_zero h)
  simp [paddingFor, Nat.mod_eq_zero_of_dvd this]

theorem packedFields_cons {off : Nat} {n : String} {t : RTy} {r : List (String × RTy)}
    (h : packedFields off ((n, t) :: r) = true) :
    t.packed = true ∧ off % t.natAlign = 0 ∧ packedFields (off + t.natSize) r = true := by
  simp only [packedFields, Bool.and_eq_true, decide_eq_true_eq] at h
  exact ⟨h.1.1, h.1.2, h.2⟩

theorem offsetOf_target (htg : tg.Valid) (htg' : tg'.Valid) {t : RTy} (h : t.packed = true)
    (p : List String) : t.offsetOf tg p = t.offsetOf tg' p := by
  induction t using RTy.ind generalizing p with
  | hs s => cases p <;> simp [RTy.offsetOf]
  | hb => cases p <;> simp [RTy.offsetOf]
  | ha t n ih => cases p <;> simp [RTy.offsetOf]
  | hn t ih =>
    cases p with
    | nil => simp [RTy.offsetOf]
    | cons n p => simpa [RTy.offsetOf] using ih (by simpa [RTy.packed] using h) (n :: p)
  | hst fs ih =>
    cases p with
    | nil => simp [RTy.offsetOf]
    | cons n p =>
      simp only [RTy.offsetOf]
      simp only [RTy.packed, Bool.and_eq_true] at h
      replace h := h.1
      generalize 0 = off at h ⊢
      induction fs generalizing off with
      | nil => simp [offsetOfField]
      | cons f r ihr =>
        obtain ⟨m, t⟩ := f
        obtain ⟨h1, h2, h3⟩ := packedFields_cons h
        have he := ih (m, t) (by simp) h1 p
        simp only at he
        simp only [offsetOfField, paddingFor_packed htg t h2, paddingFor_packed htg' t h2, he,
          size_eq_natSize htg h1, size_eq_natSize htg' h1, Nat.add_zero,
          ihr (fun g hg => ih g (List.mem_cons_of_mem _ hg)) _ h3]

theorem genFields_target (htg : tg.Valid) (htg' : tg'.Valid) {sal : Nat} (fs : List (String × Impl))
    (hg : ∀ f ∈ fs, Good f.2) (i off : Nat) :
    genFields tg sal i off fs = genFields tg' sal i off fs := by
  induction fs generalizing i off with
  | nil => rfl
  | cons f r ih =>
    obtain ⟨n, f⟩ := f
    have hp := (hg (n, f) (by simp)).packed
    simp only at hp
    simp only [genFields, size_eq_natSize htg hp, size_eq_natSize htg' hp,
      ih fun g hg' => hg g (List.mem_cons_of_mem _ hg')]

/-- Trait resolution gives the same implementation, with the same Output type, on every target. -/
theorem resolve_target (htg : tg.Valid) (htg' : tg'.Valid) {env : ForeignEnv} {l : Layout} (t : Ty) :
    resolve tg env l t = resolve tg' env l t := by
  induction t using Ty.ind with
  | hs s => rfl
  | hb => rfl
  | hm m => rfl
  | hf n => rfl
  | hst n fs ih =>
    simp only [resolve]
    have hr : resolveFields tg env l fs = resolveFields tg' env l fs := by
      induction fs with
      | nil => rfl
      | cons f r ihr =>
        obtain ⟨m, t⟩ := f
        have := ih (m, t) (by simp)
        simp only at this
        simp only [resolveFields, this, ihr fun g hg => ih g (List.mem_cons_of_mem _ hg)]
    rw [← hr]
    cases hf : resolveFields tg env l fs with
    | none => rfl
    | some is =>
      have hg : ∀ f ∈ is, Good f.2 :=
        (resolveFields_all2 hf).forall_right fun a _ b _ hab => good_resolve htg hab.2
      simp only [Option.bind_some, deriveImpl_eq, genFields_target htg htg' is hg]
  | hd t ih => cases l <;> simp [resolve, ← ih]
  | hu n t ih => simp only [resolve, ih]
  | ho l' t ih => simp [resolve, ← ih]

theorem hasVal_target (htg : tg.Valid) (htg' : tg'.Valid) {env : ForeignEnv} {t : Ty} {v : RVal} :
    t.HasVal tg env v ↔ t.HasVal tg' env v := by
  induction t using Ty.ind generalizing v with
  | hs s => rfl
  | hb => rfl
  | hm m => rfl
  | hf n => rfl
  | hst n fs ih =>
    simp only [Ty.HasVal]
    have : ∀ vs, HasVals tg env fs vs ↔ HasVals tg' env fs vs := by
      induction fs with
      | nil => intro vs; cases vs <;> rfl
      | cons f r ihr =>
        obtain ⟨m, t⟩ := f
        intro vs
        cases vs with
        | nil => rfl
        | cons w s =>
          have h1 := ih (m, t) (by simp) (v := w.2)
          simp only at h1
          simp only [HasVals, h1, ihr fun g hg => ih g (List.mem_cons_of_mem _ hg)]
    simp only [this]
  | hd t ih => simp only [Ty.HasVal, ih]
  | hu n t ih => rfl
  | ho l' t ih => simp only [Ty.HasVal, resolve_target htg htg' t]

end Crevice
