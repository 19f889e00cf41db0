import Verif.Proof.Read
/-
Conversions preserve the GLSL value.
-/
namespace Crevice

theorem mapM_congr_mem {α β} {f g : α → Option β} {l : List α} (h : ∀ a ∈ l, f a = g a) :
    l.mapM f = l.mapM g := by
  induction l with
  | nil => simp
  | cons a r ih =>
    rw [mapM_option_cons, mapM_option_cons, h a (by simp),
      ih fun b hb => h b (List.mem_cons_of_mem _ hb)]

theorem denoteLeaf_from {l : Layout} {s : MScalar} {c : Impl} (h : mscalarImpl l s = some c)
    {y x : RVal} (hy : RVal.HasTy c.out y) (hx : c.fromStd y = some x) :
    denoteLeaf x = denoteLeaf y := by
  have hsc : ∀ s', scalarImpl l s' = some c → denoteLeaf x = denoteLeaf y := by
    intro s' h
    simp only [scalarImpl] at h
    cases ha : l.scalarAlignment s' with
    | none => simp [ha] at h
    | some a =>
      simp only [ha, Option.map_some, Option.some.injEq] at h
      subst h
      cases hx; rfl
  cases s
  · exact hsc _ h
  · exact hsc _ h
  · exact hsc _ h
  · exact hsc _ h
  · simp only [mscalarImpl, Option.some.injEq] at h
    subst h
    simp only [boolImpl, boolTy] at hy hx
    cases y <;> simp only [RVal.HasTy] at hy
    rename_i w
    cases w <;> simp only [RVal.HasTy] at hy
    subst hy
    simp only [boolOfBool, Option.map_some, Option.some.injEq] at hx
    subst hx
    rfl

/-- Fields of a record whose fields all convert with the same implementation. -/
theorem denote_uniform {β : Type} {gs : List (String × RTy)} {al : Nat} {names : List String}
    {c : Impl} (hok : RecordOk gs (names.map fun n => (n, c))) {d : RVal → Option β}
    (hd : ∀ y x, RVal.HasTy c.out y → c.fromStd y = some x → d x = d y) {o v : RVal}
    (ho : RVal.HasTy (.struct gs) o)
    (hv : (recordImpl gs al (names.map fun n => (n, c))).fromStd o = some v) :
    (names.mapM fun n => (v.field n).bind d) = names.mapM fun n => (o.field n).bind d := by
  apply mapM_congr_mem
  intro n hn
  have hm : (n, c) ∈ names.map fun n => (n, c) := List.mem_map.2 ⟨n, hn, rfl⟩
  obtain ⟨y, x, h1, h2, h3⟩ := recordImpl_from_field hok hv hm
  have hy : RVal.HasTy c.out y := by
    cases o <;> simp only [RVal.HasTy] at ho
    obtain ⟨y', h4, h5⟩ := HasTys_lookup ho (hok.sub n c hm)
    simp only [RVal.field] at h1
    rw [h1] at h4; cases h4; exact h5
  rw [h1, h3, Option.bind_some, Option.bind_some, hd y x hy h2]

theorem denote_vec {l : Layout} {m : MathTy} {i : Impl} (hk : m.kind ≠ .matrix)
    (h : vecImpl l m = some i) {o v : RVal} (ho : RVal.HasTy i.out o) (hv : i.fromStd o = some v) :
    denoteComponents m.fieldNames v = denoteComponents m.fieldNames o := by
  obtain ⟨c, hc, h2, h4, rfl⟩ := vecImpl_shape hk h
  exact denote_uniform (recordOk_vec hc) (fun y x hy hx => denoteLeaf_from hc hy hx) ho hv

theorem denote_math {l : Layout} {m : MathTy} {i : Impl} (h : mathImpl l m = some i) {o v : RVal}
    (ho : RVal.HasTy i.out o) (hv : i.fromStd o = some v) : m.denote v = m.denote o := by
  by_cases hk : m.kind = .matrix
  · obtain ⟨col, gs, hcol, h2, h4, _, hok, rfl⟩ := matImpl_shape hk h
    have hkc : m.column.kind ≠ .matrix := by simp [MathTy.column]
    simp only [MathTy.denote, hk]
    exact congrArg (Option.map Glsl.Val.mat) (denote_uniform (recordOk_mat hok)
      (fun y x hy hx => denote_vec (m := m.column) hkc hcol hy hx) ho hv)
  · rw [mathImpl_vec hk] at h
    have hden : ∀ o, m.denote o = (denoteComponents m.fieldNames o).map .vec := by
      intro o; simp only [MathTy.denote]
    rw [hden, hden, denote_vec hk h ho hv]

theorem denoteFields_eq {env : ForeignEnv} {fs : List (String × Ty)} {v o : RVal}
    (h : ∀ f ∈ fs, (v.field f.1).bind (f.2.denote env) = (o.field f.1).bind f.2.denoteOut) :
    denoteFields env fs v = denoteOutFields fs o := by
  induction fs with
  | nil => rfl
  | cons f r ih =>
    obtain ⟨n, t⟩ := f
    have h0 := h (n, t) (by simp)
    simp only at h0
    simp only [denoteFields, denoteOutFields, h0, ih fun f hf => h f (List.mem_cons_of_mem _ hf)]

/-- `from_stdN` preserves the GLSL value, if hand-written conversions are exact, or if it is applied
to the result of `as_stdN`. -/
theorem denote_from' {tg : Target} {env : ForeignEnv} (henv : env.Lawful tg) {l : Layout} {t : Ty}
    {i : Impl} (h : resolve tg env l t = some i) {o v : RVal} (ho : RVal.HasTy i.out o)
    (hv : i.fromStd o = some v) (hex : env.Exact tg ∨ i.asStd v = some o) :
    t.denote env v = t.denoteOut o := by
  induction t using Ty.ind generalizing i o v with
  | hs s =>
    simp only [resolve, scalarImpl] at h
    cases ha : l.scalarAlignment s with
    | none => simp [ha] at h
    | some a =>
      simp only [ha, Option.map_some, Option.some.injEq] at h
      subst h
      cases hv; rfl
  | hb =>
    exact denoteLeaf_from (l := l) (s := .bool) (by simpa [resolve, mscalarImpl] using h) ho hv
  | hm m => exact denote_math h ho hv
  | hf n =>
    simp only [resolve] at h
    cases hr : mintyRow n with
    | none => simp [hr] at h
    | some row =>
      simp only [hr, Option.bind_some] at h
      cases hm : mathImpl l row.mint with
      | none => simp [hm] at h
      | some j =>
        simp only [hm, Option.map_some, Option.some.injEq] at h
        subst h
        have hmem := foreignMath_row hr
        obtain ⟨w, h1, h2⟩ := (conv_mathImpl hm).from_ok o ho
        obtain ⟨v', h3, _, h5⟩ := henv.of_has n _ hmem w h2
        simp only [mintyImpl, h1, Option.bind_some] at hv
        rw [hv] at h3; cases h3
        simp only [Ty.denote, Ty.denoteOut, hmem, Option.bind_some, h5]
        exact denote_math hm ho h1
  | hst n fs ih =>
    obtain ⟨is, hr, hok, rfl⟩ := resolve_struct h
    have ha := resolveFields_all2 hr
    simp only [Ty.denote, Ty.denoteOut]
    congr 1
    apply denoteFields_eq
    intro f hf
    obtain ⟨⟨n', j⟩, hj, hjn, hjr⟩ := ha.mem_left hf
    simp only at hjn hjr
    subst hjn
    obtain ⟨y, x, h1, h2, h3⟩ := recordImpl_from_field hok hv hj
    have hy : RVal.HasTy j.out y := by
      simp only [recordImpl] at ho
      cases o <;> simp only [RVal.HasTy] at ho
      obtain ⟨y', h4, h5⟩ := HasTys_lookup ho (hok.sub _ j hj)
      simp only [RVal.field] at h1
      rw [h1] at h4; cases h4; exact h5
    rw [h1, h3, Option.bind_some, Option.bind_some]
    refine ih f hf hjr hy h2 (hex.imp id fun ha => ?_)
    obtain ⟨x', y', h4, h5, h6⟩ := recordImpl_as_field hok ha hj
    rw [h3] at h4; cases h4
    rw [h1] at h6; cases h6
    exact h5
  | hd t ih =>
    cases l with
    | std430 => simp [resolve] at h
    | std140 =>
      simp only [resolve] at h
      cases hr : resolve tg env .std140 t with
      | none => simp [hr] at h
      | some j =>
        simp only [hr, Option.map_some, Option.some.injEq] at h
        subst h
        simp only [dynamicImpl] at ho hv
        cases o <;> simp only [RVal.HasTy] at ho
        rename_i w
        cases hw : j.fromStd w with
        | none => simp [hw] at hv
        | some x =>
          simp only [hw, Option.map_some, Option.some.injEq] at hv
          subst hv
          simp only [Ty.denote, Ty.denoteOut]
          exact ih hr ho hw (hex.imp id fun ha => by simpa [dynamicImpl] using ha)
  | hu n t ih =>
    simp only [resolve, Option.map_eq_some_iff] at h
    obtain ⟨j, hj, rfl⟩ := h
    obtain ⟨w, h1, h2⟩ := (conv_resolve henv hj).from_ok o ho
    simp only [userImpl, h1, Option.bind_some] at hv
    simp only [Ty.denote, Ty.denoteOut]
    rcases hex with hex | ha
    · rw [hex n t w v h2 hv, Option.bind_some]
      exact ih hj ho h1 (.inl hex)
    · obtain ⟨v', h3, h4⟩ := henv.user_of n t w h2
      rw [hv] at h3; cases h3
      obtain ⟨w', h5, h6, -⟩ := henv.user_into n t v h4
      simp only [userImpl, h5, Option.bind_some] at ha
      rw [h5, Option.bind_some]
      obtain ⟨o', h7, -, h8⟩ := (conv_resolve henv hj).as_ok w' h6
      rw [ha] at h7; cases h7
      rw [h1] at h8; cases h8
      exact ih hj ho h1 (.inr ha)
  | ho l' t ih =>
    simp only [resolve] at h
    split at h
    · cases hr : resolve tg env l t with
      | none => simp [hr] at h
      | some j =>
        simp only [hr, Option.map_some, Option.some.injEq] at h
        subst h
        cases hv
        rfl
    · cases h

/-- `from_stdN` preserves the GLSL value. -/
theorem denote_from {tg : Target} {env : ForeignEnv} (henv : env.Lawful tg) (hex : env.Exact tg)
    {l : Layout} {t : Ty} {i : Impl} (h : resolve tg env l t = some i) {o v : RVal}
    (ho : RVal.HasTy i.out o) (hv : i.fromStd o = some v) : t.denote env v = t.denoteOut o :=
  denote_from' henv h ho hv (.inl hex)

/-- `as_stdN` preserves the GLSL value. -/
theorem denote_as {tg : Target} {env : ForeignEnv} (henv : env.Lawful tg) {l : Layout} {t : Ty}
    {i : Impl} (h : resolve tg env l t = some i) {v o : RVal} (hv : t.HasVal tg env v)
    (ho : i.asStd v = some o) : t.denoteOut o = t.denote env v := by
  obtain ⟨o', h1, h2, h3⟩ := (conv_resolve henv h).as_ok v hv
  rw [ho] at h1; cases h1
  exact (denote_from' henv h h2 h3 (.inr ho)).symm

end Crevice
