import Verif.Spec.Strip
import Verif.Proof.EnvIndep
import Verif.Proof.Rename
/-
Layout of a type and of its representation.
-/
namespace Crevice

theorem stripFields_eq (fs : List (String × Ty)) :
    stripFields fs = fs.map fun f => (f.1, f.2.strip) := by
  induction fs with
  | nil => rfl
  | cons f r ih => obtain ⟨n, t⟩ := f; simp only [stripFields, ih, List.map_cons]

theorem layoutFree_strip (t : Ty) : t.strip.layoutFree = t.layoutFree := by
  induction t using Ty.ind with
  | hs s => rfl
  | hb => rfl
  | hm m => rfl
  | hf n => rfl
  | hst n fs ih => rfl
  | hd t ih => rfl
  | hu n t ih => simpa only [Ty.strip, Ty.layoutFree] using ih
  | ho l t ih => simpa only [Ty.strip, Ty.layoutFree] using ih

theorem isDynamic_strip (t : Ty) : t.strip.isDynamic = t.isDynamic := by
  induction t using Ty.ind with
  | hs s => rfl
  | hb => rfl
  | hm m => rfl
  | hf n => rfl
  | hst n fs ih => rfl
  | hd t ih => rfl
  | hu n t ih => simpa only [Ty.strip, Ty.isDynamic] using ih
  | ho l t ih => simpa only [Ty.strip, Ty.isDynamic] using ih

theorem neutral_strip (t : Ty) : t.strip.neutral = t.neutral := by
  induction t using Ty.ind with
  | hs s => rfl
  | hb => rfl
  | hm m => rfl
  | hf n => rfl
  | hst n fs ih => rfl
  | hd t ih => rfl
  | hu n t ih => simpa only [Ty.strip, Ty.neutral] using ih
  | ho l t ih => simpa only [Ty.strip, Ty.neutral] using ih

theorem accepted_strip (l : Layout) (t : Ty) : t.strip.accepted l = t.accepted l := by
  induction t using Ty.ind with
  | hs s => rfl
  | hb => rfl
  | hm m => rfl
  | hf n => rfl
  | hst n fs ih =>
    have h1 : (stripFields fs).map Prod.fst = fs.map Prod.fst := by
      simp [stripFields_eq, Function.comp_def]
    have h2 : (stripFields fs).length = fs.length := by simp [stripFields_eq]
    have h3 : acceptedFields l (stripFields fs) = acceptedFields l fs := by
      clear h1 h2
      induction fs with
      | nil => rfl
      | cons f r ihr =>
        obtain ⟨m, t⟩ := f
        have := ih (m, t) (by simp)
        simp only at this
        simp only [stripFields, acceptedFields, this, isDynamic_strip,
          ihr fun g hg => ih g (List.mem_cons_of_mem _ hg)]
    have h4 : (stripFields fs).map (fun f => plainName f.1) = fs.map fun f => plainName f.1 := by
      have := congrArg (List.map plainName) h1
      simpa [List.map_map, Function.comp_def] using this
    simp only [Ty.strip, Ty.accepted, h2, h3, h4]
  | hd t ih => simp only [Ty.strip, Ty.accepted, ih]
  | hu n t ih => simpa only [Ty.strip, Ty.accepted] using ih
  | ho l' t ih => simp only [Ty.strip, Ty.accepted, ih, neutral_strip]

theorem strip_sameLayout {tg : Target} {env env' : ForeignEnv} {l : Layout} {t : Ty} {i j : Impl}
    (hi : resolve tg env l t = some i) (hj : resolve tg env' l t.strip = some j) : SameLayout i j := by
  induction t using Ty.ind generalizing i j with
  | hs s => exact resolve_sameLayout (t := .scalar s) hi hj
  | hb => exact resolve_sameLayout (t := .bool) hi hj
  | hm m => exact resolve_sameLayout (t := .math m) hi hj
  | hf n => exact resolve_sameLayout (t := .foreign n) hi hj
  | hst n fs ih =>
    simp only [Ty.strip] at hj
    obtain ⟨is, hr, -, rfl⟩ := resolve_struct hi
    obtain ⟨js, hr', -, rfl⟩ := resolve_struct hj
    have hs : All2 (fun f g => f.1 = g.1 ∧ g.2 = f.2.strip) fs (stripFields fs) := by
      clear hr hr' hi hj ih
      induction fs with
      | nil => exact .nil
      | cons f r ih => obtain ⟨m, t⟩ := f; exact .cons ⟨rfl, rfl⟩ ih
    have h2 := hs.comp (resolveFields_all2 hr) (T := fun (g : String × Ty) (a : String × Impl) =>
        g.1 = a.1 ∧ ∃ f ∈ fs, g.2 = f.2.strip ∧ resolve tg env l f.2 = some a.2)
      fun f hf b c hb hc => ⟨hb.1.symm.trans hc.1, f, hf, hb.2, hc.2⟩
    have hall := h2.comp (resolveFields_all2 hr')
      (T := fun f g => f.1 = g.1 ∧ SameLayout f.2 g.2)
      fun f _ b c hb hc => by
        obtain ⟨e, g, hg, hgs, hgr⟩ := hb
        refine ⟨e.symm.trans hc.1, ih g hg hgr (hgs ▸ hc.2)⟩
    refine ⟨?_, structAl_sameLayout hall, rfl⟩
    simp only [recordImpl, structAl_sameLayout hall, genFields_same hall]
  | hd t ih =>
    simp only [Ty.strip] at hj
    cases l with
    | std430 => simp [resolve] at hi
    | std140 =>
      simp only [resolve, Option.map_eq_some_iff] at hi hj
      obtain ⟨a, ha, rfl⟩ := hi
      obtain ⟨b, hb, rfl⟩ := hj
      obtain ⟨h1, h2, -⟩ := ih ha hb
      exact ⟨by simp only [dynamicImpl, h1], by simp only [dynamicImpl, h2], rfl⟩
  | hu n t ih =>
    simp only [resolve, Option.map_eq_some_iff] at hi
    obtain ⟨a, ha, rfl⟩ := hi
    exact (ih ha hj :)
  | ho l' t ih =>
    simp only [Ty.strip, resolve, layoutFree_strip] at hi hj
    split at hi
    · simp only [Option.map_eq_some_iff] at hi
      obtain ⟨a, ha, rfl⟩ := hi
      rw [if_pos ‹_›] at hj
      simp only [Option.map_eq_some_iff] at hj
      obtain ⟨b, hb, rfl⟩ := hj
      exact (ih ha hb :)
    · cases hi

/-- A type compiles iff its representation does, and then they have the same layout. -/
theorem resolve_strip {tg : Target} {env : ForeignEnv} (env' : ForeignEnv) {l : Layout} {t : Ty}
    {i : Impl} (hi : resolve tg env l t = some i) :
    ∃ j, resolve tg env' l t.strip = some j ∧ SameLayout i j := by
  obtain ⟨j, hj⟩ := (resolve_isSome_iff tg env' l t.strip).2
    (by rw [accepted_strip]; exact (resolve_isSome_iff tg env l t).1 ⟨i, hi⟩)
  exact ⟨j, hj, strip_sameLayout hi hj⟩

theorem all2_fst_eq {α β} {fs : List (String × α)} {gs : List (String × β)}
    (h : All2 (fun f g => f.1 = g.1) fs gs) : fs.map Prod.fst = gs.map Prod.fst := by
  induction h with
  | nil => rfl
  | cons h1 _ ih => rw [List.map_cons, List.map_cons, h1, ih]

theorem stripVals_all2 {tg : Target} {env : ForeignEnv} {fs : List (String × Ty)}
    {vs : List (String × RVal)} (hvs : HasVals tg env fs vs)
    (ih : ∀ f ∈ fs, ∀ v, f.2.HasVal tg env v →
      ∃ w, f.2.stripVal env v = some w ∧ f.2.strip.HasVal tg env w) :
    ∃ ws, stripVals env fs vs = some ws ∧ HasVals tg env (stripFields fs) ws ∧
      ∀ n, ws.lookup n = (fs.lookup n).bind fun t => (vs.lookup n).bind (t.stripVal env) := by
  induction fs generalizing vs with
  | nil =>
    cases vs with
    | nil => exact ⟨[], rfl, trivial, fun n => rfl⟩
    | cons v s => simp [HasVals] at hvs
  | cons f r ihr =>
    obtain ⟨m, t⟩ := f
    cases vs with
    | nil => simp [HasVals] at hvs
    | cons v s =>
      obtain ⟨m', v⟩ := v
      obtain ⟨rfl, hv, hs⟩ := hvs
      obtain ⟨w, h1, h2⟩ := ih (m, t) (by simp) v hv
      simp only at h1 h2
      obtain ⟨ws, h3, h4, h5⟩ := ihr hs fun g hg => ih g (List.mem_cons_of_mem _ hg)
      refine ⟨(m, w) :: ws, ?_, ⟨rfl, h2, h4⟩, ?_⟩
      · simp only [stripVals, h1, h3, Option.bind_some, Option.map_some]
      · intro n
        simp only [lookup_cons_if]
        split
        · simp only [Option.bind_some, h1]
        · exact h5 n

/-- Converting a value, and converting its representation, give the same value of the Output type. -/
theorem asStd_strip {tg : Target} {env : ForeignEnv} (henv : env.Lawful tg) {l : Layout} {t : Ty}
    {i j : Impl} (hi : resolve tg env l t = some i) (hj : resolve tg env l t.strip = some j) {v : RVal}
    (hv : t.HasVal tg env v) :
    ∃ w, t.stripVal env v = some w ∧ t.strip.HasVal tg env w ∧ j.asStd w = i.asStd v := by
  induction t using Ty.ind generalizing i j v with
  | hs s =>
    change resolve tg env l (.scalar s) = some j at hj
    rw [hi] at hj; cases hj; exact ⟨v, by simp [Ty.stripVal], hv, rfl⟩
  | hb =>
    change resolve tg env l (.bool) = some j at hj
    rw [hi] at hj; cases hj; exact ⟨v, by simp [Ty.stripVal], hv, rfl⟩
  | hm m =>
    change resolve tg env l (.math m) = some j at hj
    rw [hi] at hj; cases hj; exact ⟨v, by simp [Ty.stripVal], hv, rfl⟩
  | hf n =>
    change resolve tg env l (.foreign n) = some j at hj
    rw [hi] at hj; cases hj; exact ⟨v, by simp [Ty.stripVal], hv, rfl⟩
  | hst n fs ih =>
    simp only [Ty.strip] at hj
    have hsl := (strip_sameLayout (t := .struct n fs) hi hj).1
    obtain ⟨is, hr, hok, rfl⟩ := resolve_struct hi
    obtain ⟨js, hr', hok', rfl⟩ := resolve_struct hj
    obtain ⟨vs, rfl, hvs⟩ := hv
    have ha := resolveFields_all2 hr
    have ha' := resolveFields_all2 hr'
    have hfn : (fs.map Prod.fst).Nodup := by
      rw [all2_fst_eq (ha.imp_mem fun _ _ _ _ h => h.1)]; exact hok.fnodup
    have hsm : ∀ f ∈ fs, ∃ b, resolve tg env l f.2.strip = some b := by
      intro f hf
      have : (f.1, f.2.strip) ∈ stripFields fs := by
        rw [stripFields_eq]; exact List.mem_map.2 ⟨f, hf, rfl⟩
      obtain ⟨b, -, -, hb⟩ := ha'.mem_left this
      exact ⟨_, hb⟩
    obtain ⟨ws, h1, h2, h3⟩ := stripVals_all2 hvs fun f hf x hx => by
      obtain ⟨a, -, -, har⟩ := ha.mem_left hf
      obtain ⟨b, hb⟩ := hsm f hf
      obtain ⟨w, h1, h2, -⟩ := ih f hf har hb hx
      exact ⟨w, h1, h2⟩
    refine ⟨.struct ws, by simp [Ty.stripVal, h1], ⟨ws, rfl, h2⟩, ?_⟩
    simp only [recordImpl] at hsl
    have hg := RTy.struct.inj hsl
    simp only [recordImpl, ← hg]
    congr 1
    have hs : All2 (fun f g => f.1 = g.1 ∧ g.2 = f.2.strip) fs (stripFields fs) := by
      clear hr hr' hi hj ih ha ha' hvs h1 h2 h3 hfn hsm
      induction fs with
      | nil => exact .nil
      | cons f r ih => obtain ⟨m, t⟩ := f; exact .cons ⟨rfl, rfl⟩ ih
    have h4 := hs.comp ha (T := fun (g : String × Ty) (a : String × Impl) =>
        g.1 = a.1 ∧ ∃ f ∈ fs, f.1 = g.1 ∧ g.2 = f.2.strip ∧ resolve tg env l f.2 = some a.2)
      fun f hf b c hb hc => ⟨hb.1.symm.trans hc.1, f, hf, hb.1, hb.2, hc.2⟩
    have hall := h4.comp ha' (T := fun (a b : String × Impl) => a.1 = b.1 ∧
        ∃ f ∈ fs, f.1 = a.1 ∧ resolve tg env l f.2 = some a.2 ∧ resolve tg env l f.2.strip = some b.2)
      fun f _ b c hb hc => by
        obtain ⟨e, g, hg, hgn, hgs, hgr⟩ := hb
        exact ⟨e.symm.trans hc.1, g, hg, hgn.trans e, hgr, hgs ▸ hc.2⟩
    unfold convFields
    clear h4 ha ha' hr hr' hok hok' hi hj hsl hg hs
    induction hall with
    | nil => rfl
    | @cons a b r s hab _ ihr =>
      obtain ⟨e, f, hf, hfn', hfa, hfb⟩ := hab
      rw [mapM_option_cons, mapM_option_cons, ihr]
      congr 1
      simp only [RVal.field]
      rw [h3, ← e, ← hfn', lookup_eq_some_of_mem hfn hf, Option.bind_some]
      rw [HasVals_iff] at hvs
      obtain ⟨x, hx, hxn, hxv⟩ := hvs.mem_left hf
      have hvn : fs.map Prod.fst = vs.map Prod.fst := all2_fst_eq (hvs.imp_mem fun _ _ _ _ h => h.1)
      have hl : vs.lookup f.1 = some x.2 :=
        lookup_eq_some_of_mem (by rw [← hvn]; exact hfn) (hxn ▸ hx)
      obtain ⟨w, h5, -, h6⟩ := ih f hf hfa hfb hxv
      rw [hl, Option.bind_some, h5, Option.bind_some, Option.bind_some, h6]
  | hd t ih =>
    simp only [Ty.strip] at hj
    cases l with
    | std430 => simp [resolve] at hi
    | std140 =>
      simp only [resolve, Option.map_eq_some_iff] at hi hj
      obtain ⟨a, ha, rfl⟩ := hi
      obtain ⟨b, hb, rfl⟩ := hj
      obtain ⟨x, rfl, hx⟩ := hv
      obtain ⟨w, h1, h2, h3⟩ := ih ha hb hx
      exact ⟨.newtype w, by simp [Ty.stripVal, h1], ⟨w, rfl, h2⟩, by simp [dynamicImpl, h3]⟩
  | hu n t ih =>
    simp only [resolve, Option.map_eq_some_iff] at hi
    obtain ⟨a, ha, rfl⟩ := hi
    obtain ⟨x, h1, h2, -⟩ := henv.user_into n t v hv
    obtain ⟨w, h3, h4, h5⟩ := ih ha hj h2
    exact ⟨w, by simp [Ty.stripVal, h1, h3], h4, by simp [userImpl, h1, h5]⟩
  | ho l' t ih =>
    have hsl := (strip_sameLayout (t := .output l' t) hi hj).1
    refine ⟨v, by simp [Ty.stripVal], ?_, ?_⟩
    · simp only [Ty.strip, Ty.HasVal] at hv ⊢
      obtain ⟨k, hk, hvk⟩ := hv
      obtain ⟨m, hm, hs⟩ := resolve_strip env hk
      exact ⟨m, hm, hs.1 ▸ hvk⟩
    · simp only [Ty.strip, resolve] at hi hj
      split at hi
      · split at hj
        · simp only [Option.map_eq_some_iff] at hi hj
          obtain ⟨a, ha, rfl⟩ := hi
          obtain ⟨b, hb, rfl⟩ := hj
          rfl
        · cases hj
      · cases hi

end Crevice
