import Verif.Spec.Block
import Verif.Props.C24_C39
/-
Slices of one type have a constant stride.
-/
namespace Crevice

theorem nextOffset_dvd {a off : Nat} : a = 0 ∨ a ∣ nextOffset off a := by
  have hn := isNext_nextOffset off a
  rcases Nat.eq_zero_or_pos a with h | h
  · exact .inl h
  · exact .inr (hn.2.2 h).1

theorem nextOffset_self {a off : Nat} (h : a = 0 ∨ a ∣ off) : nextOffset off a = off := by
  refine IsNext.unique (isNext_nextOffset _ _) ⟨Nat.le_refl _, fun _ => rfl, fun hp => ?_⟩
  refine ⟨?_, fun m _ hm => hm⟩
  rcases h with h | h
  · omega
  · exact h

theorem places_homog {a s : Nat} (xs : List StdVal)
    (h : ∀ x ∈ xs, x.alignment = a ∧ x.bytes.length = s) (off : Nat) (m : Nat) (hm : m < xs.length) :
    (places off xs)[m]'(by rw [places_length]; exact hm) =
      nextOffset off a + m * nextOffset s a := by
  induction xs generalizing off m with
  | nil => simp at hm
  | cons x r ih =>
    obtain ⟨h1, h2⟩ := h x (by simp)
    cases m with
    | zero => simp [places, h1]
    | succ m =>
      simp only [places, List.getElem_cons_succ]
      rw [ih (fun y hy => h y (by simp [hy])) _ m (by simpa using hm), h1, h2, Nat.add_comm _ s,
        nextOffset_shift nextOffset_dvd, Nat.succ_mul]
      omega

theorem endOf_homog {a s : Nat} (xs : List StdVal)
    (h : ∀ x ∈ xs, x.alignment = a ∧ x.bytes.length = s) (off : Nat) (hne : xs ≠ []) :
    endOf off xs = nextOffset off a + (xs.length - 1) * nextOffset s a + s := by
  induction xs generalizing off with
  | nil => exact absurd rfl hne
  | cons x r ih =>
    obtain ⟨h1, h2⟩ := h x (by simp)
    simp only [endOf]
    cases r with
    | nil => simp [endOf, h1, h2]
    | cons y r =>
      rw [ih (fun z hz => h z (by simp [hz])) _ (by simp), h1, h2,
        Nat.add_comm (nextOffset off a) s, nextOffset_shift nextOffset_dvd]
      simp only [List.length_cons, Nat.add_sub_cancel]
      rw [Nat.succ_mul]
      omega

theorem items_homog {tg : Target} (htg : tg.Valid) {env : ForeignEnv} (henv : env.Lawful tg)
    {l : Layout} {t : Ty} {i : Impl} (h : resolve tg env l t = some i)
    {xs : List (Item tg env l)} (ht : ∀ x ∈ xs, x.ty = t) :
    ∀ x ∈ xs.map Item.std, x.alignment = i.alignment ∧ x.bytes.length = i.out.size tg := by
  intro y hy
  obtain ⟨z, hz, rfl⟩ := List.mem_map.1 hy
  have e1 := z.resolves
  have e2 := z.length htg henv
  rw [ht z hz, h, Option.some.injEq] at e1
  rw [← e1] at e2
  exact ⟨by rw [e1]; rfl, e2⟩

theorem roundUp_16_small {a : Nat} (hp : IsPow2 a) (h : 16 ≤ a) : Glsl.roundUp a 16 = a :=
  roundUp_of_dvd (by decide) (isPow2_16.dvd_of_le hp h)

theorem roundUp_16_ge {a : Nat} (hp : 0 < a) : 16 ≤ Glsl.roundUp a 16 := by
  have h1 := le_roundUp a 16 (by decide)
  have h2 := dvd_roundUp a 16
  exact Nat.le_of_dvd (by omega) h2

/-- In std140 only scalars and two-component 4-byte vectors have an alignment below 16; they are as
large as their alignment. -/
theorem small_std140 {tg : Target} (htg : tg.Valid) {env : ForeignEnv} {t : Ty} {i : Impl}
    (h : resolve tg env .std140 t = some i) {g : Glsl.Ty} (hg : t.glsl = some g)
    (hs : g.align .std140 < 16) : g.size .std140 = g.align .std140 := by
  have hmath : ∀ (m : MathTy) (g : Glsl.Ty), m.glsl = some g → g.align .std140 < 16 →
      g.size .std140 = g.align .std140 := by
    intro m g hg hs
    simp only [MathTy.glsl] at hg
    split at hg
    · rename_i hd
      split at hg
      all_goals first
        | (cases hg
           exfalso
           simp only [Glsl.Ty.align, Glsl.roundToVec4, Glsl.vecAlign] at hs
           have := @roundUp_16_ge (if m.dim = 2 then 2 * Glsl.Scalar.size .float else 4 * Glsl.Scalar.size .float) (by split <;> decide)
           have := @roundUp_16_ge (if m.dim = 2 then 2 * Glsl.Scalar.size .double else 4 * Glsl.Scalar.size .double) (by split <;> decide)
           omega)
        | (simp at hg; done)
        | (cases hg
           simp only [Glsl.Ty.align, Glsl.Ty.size, Glsl.vecAlign] at hs ⊢
           split at hs
           · rename_i h2
             rw [if_pos h2, h2]
           · rename_i s _ _ _
             exfalso
             cases hsc : m.scalar <;> simp [hsc, MScalar.glsl, Glsl.Scalar.size] at hs)
    · simp at hg
  induction t using Ty.ind generalizing i g with
  | hs s => cases s <;> simp only [Ty.glsl, Option.some.injEq] at hg <;> first | (subst hg; rfl) | simp at hg
  | hb => simp only [Ty.glsl, Option.some.injEq] at hg; subst hg; rfl
  | hm m => exact hmath m g hg hs
  | hf n =>
    simp only [Ty.glsl, Option.bind_eq_some_iff] at hg
    obtain ⟨row, _, hg⟩ := hg
    exact hmath _ _ hg hs
  | hst name fs ih =>
    exfalso
    have hp := (agrees_resolve htg h hg)
    obtain ⟨ms, rfl, hne, hms⟩ := glsl_struct hg
    have h1 := hp.pow2.pos
    rw [hp.align] at h1
    simp only [Glsl.Ty.align, Glsl.roundToVec4] at h1 hs
    rcases Nat.eq_zero_or_pos (Glsl.maxAlign .std140 ms) with h0 | h0
    · rw [h0] at h1; simp [Glsl.roundUp] at h1
    · have := roundUp_16_ge h0; omega
  | hd t ih =>
    exfalso
    simp only [Ty.glsl, Option.map_eq_some_iff] at hg
    obtain ⟨g', _, rfl⟩ := hg
    simp only [Glsl.Ty.align] at hs
    omega
  | hu n t ih =>
    simp only [resolve, Option.map_eq_some_iff] at h
    obtain ⟨j, hj, rfl⟩ := h
    simp only [Ty.glsl] at hg
    exact ih hj hg hs
  | ho l' t ih =>
    simp only [resolve] at h
    split at h
    · rename_i hl
      simp only [Option.map_eq_some_iff] at h
      obtain ⟨j, hj, rfl⟩ := h
      simp only [Ty.glsl] at hg
      exact ih hj hg hs
    · simp at h

end Crevice
