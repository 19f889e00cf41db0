import Verif.Proof.Foreign
import Verif.Proof.Good
/-
Conversions are defined on all values and invert each other.
-/
namespace Crevice

theorem gen_mem {tg : Target} {sal : Nat} (fs : List (String × Impl)) (i off : Nat) {n : String}
    {f : Impl} (h : (n, f) ∈ fs) : (n, f.out) ∈ genFields tg sal i off fs := by
  induction fs generalizing i off with
  | nil => simp at h
  | cons g r ih =>
    obtain ⟨m, g⟩ := g
    simp only [genFields]
    rcases List.mem_cons.1 h with h | h
    · cases h; simp
    · exact List.mem_cons_of_mem _ (List.mem_cons_of_mem _ (ih _ _ h))

theorem gen_sublist {tg : Target} {sal : Nat} (fs : List (String × Impl)) (i off : Nat) :
    (fs.map Prod.fst).Sublist ((genFields tg sal i off fs).map Prod.fst) := by
  induction fs generalizing i off with
  | nil => simp
  | cons g r ih =>
    obtain ⟨m, g⟩ := g
    simp only [genFields, List.map_cons]
    exact ((ih _ _).cons _).cons_cons _

theorem nodup_of_unraw {β : Type} {fs : List (String × β)} (h : (fs.map fun f => unraw f.1).Nodup) :
    (fs.map Prod.fst).Nodup := by
  have : (fs.map fun f => unraw f.1) = (fs.map Prod.fst).map unraw := by simp
  rw [this] at h
  generalize fs.map Prod.fst = l at h
  induction l with
  | nil => exact List.nodup_nil
  | cons a r ih =>
    rw [List.map_cons, List.nodup_cons] at h
    exact List.nodup_cons.2 ⟨fun hm => h.1 (List.mem_map_of_mem hm), ih h.2⟩

theorem recordOk_gen {tg : Target} {sal : Nat} {fs : List (String × Impl)}
    (hu : ((genFields tg sal 0 0 fs).map fun f => unraw f.1).Nodup) :
    RecordOk (genFields tg sal 0 0 fs) fs :=
  have h : ((genFields tg sal 0 0 fs).map Prod.fst).Nodup := nodup_of_unraw hu
  ⟨h, (gen_sublist fs 0 0).nodup h, fun _ _ hm => lookup_eq_some_of_mem h (gen_mem fs 0 0 hm)⟩

/-- Both directions of a conversion. -/
structure Conv (P : RVal → Prop) (i : Impl) : Prop where
  as_ok : ∀ v, P v → ∃ o, i.asStd v = some o ∧ RVal.HasTy i.out o ∧ i.fromStd o = some v
  from_ok : ∀ o, RVal.HasTy i.out o → ∃ v, i.fromStd o = some v ∧ P v

theorem conv_scalar {l : Layout} {s : Scalar} {i : Impl} (h : scalarImpl l s = some i) :
    Conv (fun v => ∃ b, v = .scalar s b) i := by
  simp only [scalarImpl] at h
  cases ha : l.scalarAlignment s with
  | none => simp [ha] at h
  | some a =>
    simp only [ha, Option.map_some, Option.some.injEq] at h
    subst h
    refine ⟨?_, ?_⟩
    · rintro v ⟨b, rfl⟩
      exact ⟨_, rfl, by simp [blanketImpl, RVal.HasTy], rfl⟩
    · intro o ho
      cases o <;> simp only [blanketImpl, RVal.HasTy] at ho
      subst ho
      exact ⟨_, rfl, _, rfl⟩

theorem conv_bool (l : Layout) : Conv (fun v => ∃ b, v = .bool b) (boolImpl l) := by
  refine ⟨?_, ?_⟩
  · rintro v ⟨b, rfl⟩
    refine ⟨_, rfl, by simp [boolImpl, boolTy, boolToBool, RVal.HasTy], ?_⟩
    cases b <;> simp [boolImpl, boolToBool, boolOfBool, Scalar.size]
  · intro o ho
    simp only [boolImpl, boolTy] at ho
    cases o <;> simp only [RVal.HasTy] at ho
    rename_i w
    cases w <;> simp only [RVal.HasTy] at ho
    subst ho
    exact ⟨_, rfl, _, rfl⟩

theorem conv_mscalar {l : Layout} {s : MScalar} {c : Impl} (h : mscalarImpl l s = some c) :
    Conv s.HasVal c := by
  cases s
  · exact conv_scalar h
  · exact conv_scalar h
  · exact conv_scalar h
  · exact conv_scalar h
  · simp only [mscalarImpl, Option.some.injEq] at h
    subst h; exact conv_bool l

/-- A record whose fields all convert with the same implementation. -/
theorem conv_uniform {gs : List (String × RTy)} {al : Nat} {names : List String} {c : Impl}
    {P : RVal → Prop} (hc : Conv P c) (hok : RecordOk gs (names.map fun n => (n, c))) :
    Conv (UniformStruct names P) (recordImpl gs al (names.map fun n => (n, c))) := by
  refine ⟨?_, ?_⟩
  · rintro v ⟨vs, rfl, hn, hv⟩
    apply recordImpl_as_ok hok al
    clear hok
    subst hn
    induction vs with
    | nil => exact .nil
    | cons x r ih =>
      refine .cons ⟨rfl, hc.as_ok _ (hv x (by simp))⟩ ?_
      exact ih fun y hy => hv y (List.mem_cons_of_mem _ hy)
  · intro o ho
    obtain ⟨vs, h1, h2⟩ := recordImpl_from_ok hok al ho (P := fun _ x => P x) (by
      intro n i hm y hy
      obtain ⟨n', _, he⟩ := List.mem_map.1 hm
      cases he
      exact hc.from_ok y hy)
    refine ⟨_, h1, vs, rfl, ?_⟩
    have : ∀ names : List String, ∀ vs : List (String × RVal),
        All2 (fun (f : String × Impl) (x : String × RVal) => f.1 = x.1 ∧ P x.2)
          (names.map fun n => (n, c)) vs → vs.map Prod.fst = names ∧ ∀ x ∈ vs, P x.2 := by
      intro names
      induction names with
      | nil => intro vs h; cases h; simp
      | cons n r ih =>
        intro vs h
        cases h with
        | cons h1 h2 =>
          obtain ⟨h3, h4⟩ := ih _ h2
          refine ⟨by simp [h3]; exact h1.1.symm, ?_⟩
          intro x hx
          rcases List.mem_cons.1 hx with rfl | hx
          · exact h1.2
          · exact h4 x hx
    exact this names vs h2

theorem lookup_replicate {β} {names : List String} {b : β} {n : String} (h : n ∈ names) :
    (names.map fun n => (n, b)).lookup n = some b := by
  induction names with
  | nil => simp at h
  | cons m r ih =>
    rw [List.map_cons, lookup_cons_if]
    by_cases hm : n = m
    · simp [hm]
    · rw [if_neg hm]
      exact ih (by simpa [hm] using h)

theorem recordOk_vec {l : Layout} {m : MathTy} {c : Impl} (hc : mscalarImpl l m.scalar = some c) :
    RecordOk (m.fieldNames.map fun n => (n, m.scalar.rty)) (m.fieldNames.map fun n => (n, c)) := by
  have hn := fieldNames_nodup m
  refine ⟨by simpa [Function.comp_def] using hn, by simpa [Function.comp_def] using hn, ?_⟩
  intro n i hm
  obtain ⟨n', hn', he⟩ := List.mem_map.1 hm
  cases he
  obtain ⟨c', h1, h2, _⟩ := mscalarImpl_some l m.scalar
  rw [hc] at h1; cases h1
  rw [lookup_replicate hn', h2]

theorem recordOk_mat {l : Layout} {m : MathTy} {gs : List (String × RTy)} {col : Impl}
    (hok : MatOk l m gs col.out) : RecordOk gs (m.fieldNames.map fun n => (n, col)) := by
  have hn := fieldNames_nodup m
  refine ⟨hok.nodup, by simpa [Function.comp_def] using hn, ?_⟩
  intro n i hm
  obtain ⟨n', hn', he⟩ := List.mem_map.1 hm
  cases he
  exact hok.cols _ hn'

theorem conv_vecImpl {l : Layout} {m : MathTy} {i : Impl} (hk : m.kind ≠ .matrix)
    (h : vecImpl l m = some i) : Conv (UniformStruct m.fieldNames m.scalar.HasVal) i := by
  obtain ⟨c, hc, h2, h4, rfl⟩ := vecImpl_shape hk h
  exact conv_uniform (conv_mscalar hc) (recordOk_vec hc)

theorem conv_mathImpl {l : Layout} {m : MathTy} {i : Impl} (h : mathImpl l m = some i) :
    Conv m.HasVal i := by
  by_cases hk : m.kind = .matrix
  · obtain ⟨col, gs, hcol, _, _, _, hok, rfl⟩ := matImpl_shape hk h
    have hc := conv_vecImpl (m := m.column) (by simp [MathTy.column]) hcol
    have := conv_uniform (al := Glsl.roundToVec4 l (Glsl.vecAlign m.scalar.glsl m.dim)) hc
      (recordOk_mat hok)
    have he : m.HasVal = UniformStruct m.fieldNames (UniformStruct m.column.fieldNames
        m.column.scalar.HasVal) := by
      funext v; simp only [MathTy.HasVal, hk]; rfl
    rw [he]; exact this
  · rw [mathImpl_vec hk] at h
    have he : m.HasVal = UniformStruct m.fieldNames m.scalar.HasVal := by
      funext v
      simp only [MathTy.HasVal]
    rw [he]
    exact conv_vecImpl hk h

theorem HasVals_iff (tg : Target) (env : ForeignEnv) (fs : List (String × Ty))
    (vs : List (String × RVal)) :
    HasVals tg env fs vs ↔ All2 (fun (f : String × Ty) (v : String × RVal) =>
      f.1 = v.1 ∧ Ty.HasVal tg env f.2 v.2) fs vs := by
  induction fs generalizing vs with
  | nil =>
    cases vs with
    | nil => simp [HasVals]; exact .nil
    | cons v r => simp [HasVals]; intro h; cases h
  | cons f r ih =>
    obtain ⟨n, t⟩ := f
    cases vs with
    | nil => simp [HasVals]; intro h; cases h
    | cons v s =>
      obtain ⟨m, v⟩ := v
      simp only [HasVals, ih]
      constructor
      · rintro ⟨h1, h2, h3⟩; exact .cons ⟨h1, h2⟩ h3
      · intro h
        cases h with
        | cons h1 h2 => exact ⟨h1.1, h1.2, h2⟩

/-- Two element-wise relations of a list with two others relate those. -/
theorem All2.comp {α β γ : Type} {R : α → β → Prop} {S : α → γ → Prop} {T : β → γ → Prop}
    {l : List α} {m : List β} {n : List γ} (h1 : All2 R l m) (h2 : All2 S l n)
    (h : ∀ a ∈ l, ∀ b c, R a b → S a c → T b c) : All2 T m n := by
  induction h1 generalizing n with
  | nil => cases h2; exact .nil
  | cons h3 _ ih =>
    cases h2 with
    | cons h4 h5 =>
      exact .cons (h _ (by simp) _ _ h3 h4)
        (ih h5 fun a ha => h a (List.mem_cons_of_mem _ ha))

theorem All2.trans {α β γ : Type} {R : α → β → Prop} {S : β → γ → Prop} {T : α → γ → Prop}
    {l : List α} {m : List β} {n : List γ} (h1 : All2 R l m) (h2 : All2 S m n)
    (h : ∀ a ∈ l, ∀ b c, R a b → S b c → T a c) : All2 T l n := by
  induction h1 generalizing n with
  | nil => cases h2; exact .nil
  | cons h3 _ ih =>
    cases h2 with
    | cons h4 h5 =>
      exact .cons (h _ (by simp) _ _ h3 h4)
        (ih h5 fun a ha => h a (List.mem_cons_of_mem _ ha))

theorem All2.mem_right {α β : Type} {R : α → β → Prop} {l : List α} {m : List β}
    (h : All2 R l m) {b : β} (hb : b ∈ m) : ∃ a ∈ l, R a b := by
  induction h with
  | nil => simp at hb
  | cons h1 _ ih =>
    rcases List.mem_cons.1 hb with rfl | hb
    · exact ⟨_, by simp, h1⟩
    · obtain ⟨a, ha, hr⟩ := ih hb
      exact ⟨a, List.mem_cons_of_mem _ ha, hr⟩

theorem All2.mem_left {α β : Type} {R : α → β → Prop} {l : List α} {m : List β}
    (h : All2 R l m) {a : α} (ha : a ∈ l) : ∃ b ∈ m, R a b := by
  induction h with
  | nil => simp at ha
  | cons h1 _ ih =>
    rcases List.mem_cons.1 ha with rfl | ha
    · exact ⟨_, by simp, h1⟩
    · obtain ⟨b, hb, hr⟩ := ih ha
      exact ⟨b, List.mem_cons_of_mem _ hb, hr⟩

theorem All2.imp_mem {α β : Type} {R S : α → β → Prop} {l : List α} {m : List β}
    (h : All2 R l m) (hi : ∀ a ∈ l, ∀ b ∈ m, R a b → S a b) : All2 S l m := by
  induction h with
  | nil => exact .nil
  | cons h1 _ ih =>
    exact .cons (hi _ (by simp) _ (by simp) h1)
      (ih fun a ha b hb => hi a (List.mem_cons_of_mem _ ha) b (List.mem_cons_of_mem _ hb))

/-- Resolution of a derived struct, unfolded. -/
theorem resolve_struct {tg : Target} {env : ForeignEnv} {l : Layout} {name : String}
    {fs : List (String × Ty)} {i : Impl} (h : resolve tg env l (.struct name fs) = some i) :
    ∃ is, resolveFields tg env l fs = some is ∧
      RecordOk (genFields tg (structAl l is) 0 0 is) is ∧
      i = recordImpl (genFields tg (structAl l is) 0 0 is) (structAl l is) is := by
  simp only [resolve] at h
  cases hr : resolveFields tg env l fs with
  | none => simp [hr] at h
  | some is =>
    simp only [hr, Option.bind_some, deriveImpl_eq] at h
    split at h
    · rename_i hn
      cases h
      exact ⟨is, rfl, recordOk_gen hn.1, rfl⟩
    · cases h

/-- Scalars and `Bool` have the same implementation in both layouts. -/
theorem resolve_layoutFree {tg : Target} {env : ForeignEnv} {t : Ty} (hf : t.layoutFree = true)
    (l l' : Layout) : resolve tg env l t = resolve tg env l' t := by
  induction t using Ty.ind with
  | hs s => cases l <;> cases l' <;> cases s <;> rfl
  | hb => cases l <;> cases l' <;> rfl
  | hu n t ih =>
    simp only [Ty.layoutFree] at hf
    simp only [resolve, ih hf]
  | ho m t ih =>
    simp only [Ty.layoutFree] at hf
    simp only [resolve, hf, or_true, if_true, ih hf]
  | hm | hf | hst | hd => simp [Ty.layoutFree] at hf

theorem conv_resolve {tg : Target} {env : ForeignEnv} (henv : env.Lawful tg) {l : Layout} {t : Ty}
    {i : Impl} (h : resolve tg env l t = some i) : Conv (t.HasVal tg env) i := by
  induction t using Ty.ind generalizing i with
  | hs s => simpa only [Ty.HasVal] using conv_scalar h
  | hb =>
    simp only [resolve, Option.some.injEq] at h
    subst h
    simpa only [Ty.HasVal] using conv_bool l
  | hm m => simpa only [Ty.HasVal] using conv_mathImpl h
  | hf n =>
    simp only [resolve] at h
    cases hr : mintyRow n with
    | none => simp [hr] at h
    | some row =>
      simp only [hr, Option.bind_some] at h
      cases hm : mathImpl l row.mint with
      | none => simp [hm] at h
      | some j =>
        simp only [hm, Option.map_some, Option.some.injEq] at h
        subst h
        have hmem := foreignMath_row hr
        have hc := conv_mathImpl hm
        simp only [Ty.HasVal]
        refine ⟨?_, ?_⟩
        · intro v hv
          obtain ⟨w, h1, h2, h3⟩ := henv.into_has n _ hmem v hv
          obtain ⟨o, h4, h5, h6⟩ := hc.as_ok w h2
          exact ⟨o, by simp [mintyImpl, h1, h4], h5, by simp [mintyImpl, h6, h3]⟩
        · intro o ho
          obtain ⟨w, h1, h2⟩ := hc.from_ok o ho
          obtain ⟨v, h3, h4, _⟩ := henv.of_has n _ hmem w h2
          exact ⟨v, by simp [mintyImpl, h1, h3], h4⟩
  | hst n fs ih =>
    obtain ⟨is, hr, hok, rfl⟩ := resolve_struct h
    have ha := resolveFields_all2 hr
    simp only [Ty.HasVal]
    refine ⟨?_, ?_⟩
    · rintro v ⟨vs, rfl, hv⟩
      rw [HasVals_iff] at hv
      apply recordImpl_as_ok hok
      exact ha.comp hv fun f hf b c hb hc => by
        refine ⟨hb.1.symm.trans hc.1, ?_⟩
        exact (ih f hf hb.2).as_ok _ hc.2
    · intro o ho
      obtain ⟨vs, h1, h2⟩ := recordImpl_from_ok hok (structAl l is) ho
        (P := fun j x => ∀ f ∈ fs, resolve tg env l f.2 = some j → Ty.HasVal tg env f.2 x) (by
          intro n j hm y hy
          obtain ⟨f, hf, -, hfj⟩ := ha.mem_right hm
          obtain ⟨x, hx, -⟩ := (ih f hf hfj).from_ok y hy
          refine ⟨x, hx, ?_⟩
          intro g hg hgj
          obtain ⟨x', hx', hv⟩ := (ih g hg hgj).from_ok y hy
          rw [hx] at hx'; cases hx'; exact hv)
      refine ⟨_, h1, vs, rfl, ?_⟩
      rw [HasVals_iff]
      exact ha.trans h2 fun f hf b c hb hc => ⟨hb.1.trans hc.1, hc.2 f hf hb.2⟩
  | hd t ih =>
    cases l with
    | std430 => simp [resolve] at h
    | std140 =>
      simp only [resolve] at h
      cases hr : resolve tg env .std140 t with
      | none => simp [hr] at h
      | some j =>
        simp only [hr, Option.map_some, Option.some.injEq] at h
        subst h
        have hj := ih hr
        simp only [Ty.HasVal]
        refine ⟨?_, ?_⟩
        · rintro v ⟨w, rfl, hw⟩
          obtain ⟨o, h1, h2, h3⟩ := hj.as_ok w hw
          exact ⟨.newtype o, by simp [dynamicImpl, h1], by simpa [dynamicImpl, RVal.HasTy] using h2,
            by simp [dynamicImpl, h3]⟩
        · intro o ho
          simp only [dynamicImpl] at ho
          cases o <;> simp only [RVal.HasTy] at ho
          obtain ⟨w, h1, h2⟩ := hj.from_ok _ ho
          exact ⟨.newtype w, by simp [dynamicImpl, h1], w, rfl, h2⟩
  | hu n t ih =>
    simp only [resolve, Option.map_eq_some_iff] at h
    obtain ⟨j, hj, rfl⟩ := h
    have hc := ih hj
    simp only [Ty.HasVal]
    refine ⟨?_, ?_⟩
    · intro v hv
      obtain ⟨w, h1, h2, h3⟩ := henv.user_into n t v hv
      obtain ⟨o, h4, h5, h6⟩ := hc.as_ok w h2
      exact ⟨o, by simp [userImpl, h1, h4], h5, by simp [userImpl, h6, h3]⟩
    · intro o ho
      obtain ⟨w, h1, h2⟩ := hc.from_ok o ho
      obtain ⟨v, h3, h4⟩ := henv.user_of n t w h2
      exact ⟨v, by simp [userImpl, h1, h3], h4⟩
  | ho l' t ih =>
    simp only [resolve] at h
    split at h
    · rename_i hl
      have hll : resolve tg env l' t = resolve tg env l t := by
        rcases hl with hl | hl
        · rw [hl]
        · exact resolve_layoutFree hl _ _
      cases hr : resolve tg env l t with
      | none => simp [hr] at h
      | some j =>
        simp only [hr, Option.map_some, Option.some.injEq] at h
        subst h
        simp only [Ty.HasVal]
        refine ⟨?_, ?_⟩
        · rintro v ⟨i, h1, h2⟩
          rw [hll, hr] at h1; cases h1
          exact ⟨v, rfl, h2, rfl⟩
        · intro o ho
          exact ⟨o, rfl, j, hll.trans hr, ho⟩
    · cases h

end Crevice
