import Verif.Proof.Accept
/-
The layout of a type does not depend on the conversions of external crates and of hand-written
implementations.
-/
namespace Crevice

/-- Same Output type, ALIGNMENT and traits. -/
def SameLayout (i j : Impl) : Prop :=
  i.out = j.out ∧ i.alignment = j.alignment ∧ i.outDebug = j.outDebug

theorem genFields_same {tg : Target} {sal : Nat} {is js : List (String × Impl)}
    (h : All2 (fun f g => f.1 = g.1 ∧ SameLayout f.2 g.2) is js) :
    ∀ k off, genFields tg sal k off is = genFields tg sal k off js := by
  induction h with
  | nil => intro _ _; rfl
  | @cons a b r s hab hrs ih =>
    obtain ⟨n, i⟩ := a
    obtain ⟨m, j⟩ := b
    obtain ⟨rfl, h1, h2, -⟩ := hab
    simp only at h1
    intro k off
    have hn : nextAl sal r = nextAl sal s := by
      cases hrs with
      | nil => rfl
      | cons hx _ => simp only [nextAl, hx.2.2.1]
    simp only [genFields, h1, hn, ih]

theorem structAl_sameLayout {l : Layout} {is js : List (String × Impl)}
    (h : All2 (fun f g => f.1 = g.1 ∧ SameLayout f.2 g.2) is js) : structAl l is = structAl l js := by
  have : (is.map fun f => f.2.alignment) = js.map fun f => f.2.alignment := by
    induction h with
    | nil => rfl
    | cons hx _ ih => simp [hx.2.2.1, ih]
  rw [structAl, structAl, this]

theorem resolve_sameLayout {tg : Target} {env env' : ForeignEnv} {l : Layout} {t : Ty} {i j : Impl}
    (hi : resolve tg env l t = some i) (hj : resolve tg env' l t = some j) : SameLayout i j := by
  induction t using Ty.ind generalizing i j with
  | hs s => simp only [resolve] at hi hj; rw [hi] at hj; cases hj; exact ⟨rfl, rfl, rfl⟩
  | hb => simp only [resolve] at hi hj; rw [hi] at hj; cases hj; exact ⟨rfl, rfl, rfl⟩
  | hm m => simp only [resolve] at hi hj; rw [hi] at hj; cases hj; exact ⟨rfl, rfl, rfl⟩
  | hf n =>
    simp only [resolve, Option.bind_eq_some_iff, Option.map_eq_some_iff] at hi hj
    obtain ⟨row, hr, a, ha, rfl⟩ := hi
    obtain ⟨row', hr', b, hb, rfl⟩ := hj
    rw [hr] at hr'; cases hr'
    rw [ha] at hb; cases hb
    exact ⟨rfl, rfl, rfl⟩
  | hst n fs ih =>
    obtain ⟨is, hr, -, rfl⟩ := resolve_struct hi
    obtain ⟨js, hr', -, rfl⟩ := resolve_struct hj
    have hall := (resolveFields_all2 hr).comp (resolveFields_all2 hr')
      (T := fun f g => f.1 = g.1 ∧ SameLayout f.2 g.2)
      fun f hf b c hb hc => ⟨hb.1.symm.trans hc.1, ih f hf hb.2 hc.2⟩
    refine ⟨?_, structAl_sameLayout hall, rfl⟩
    simp only [recordImpl, structAl_sameLayout hall, genFields_same hall]
  | hd t ih =>
    cases l with
    | std430 => simp [resolve] at hi
    | std140 =>
      simp only [resolve, Option.map_eq_some_iff] at hi hj
      obtain ⟨a, ha, rfl⟩ := hi
      obtain ⟨b, hb, rfl⟩ := hj
      obtain ⟨h1, h2, -⟩ := ih ha hb
      exact ⟨by simp only [dynamicImpl, h1], by simp only [dynamicImpl, h2], rfl⟩
  | hu n t ih =>
    simp only [resolve, Option.map_eq_some_iff] at hi hj
    obtain ⟨a, ha, rfl⟩ := hi
    obtain ⟨b, hb, rfl⟩ := hj
    exact (ih ha hb :)
  | ho l' t ih =>
    simp only [resolve] at hi hj
    split at hi
    · simp only [Option.map_eq_some_iff] at hi hj
      obtain ⟨a, ha, rfl⟩ := hi
      rw [if_pos ‹_›] at hj
      simp only [Option.map_eq_some_iff] at hj
      obtain ⟨b, hb, rfl⟩ := hj
      exact (ih ha hb :)
    · cases hi

/-- Whether a type converts and its layout do not depend on the environment. -/
theorem resolve_env {tg : Target} {env : ForeignEnv} (env' : ForeignEnv) {l : Layout} {t : Ty}
    {i : Impl} (hi : resolve tg env l t = some i) :
    ∃ j, resolve tg env' l t = some j ∧ SameLayout i j := by
  obtain ⟨j, hj⟩ := (resolve_isSome_iff tg env' l t).2 ((resolve_isSome_iff tg env l t).1 ⟨i, hi⟩)
  exact ⟨j, hj, resolve_sameLayout hi hj⟩

end Crevice
