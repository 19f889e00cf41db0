import Verif.Proof.TypingItems
/-
Typing of the items that the derives emit: what it asks for.
-/
namespace Crevice.TypingProof
open RustSyntax RustTyping Tokens
variable {α : Type} {f : Features} {u : User α} {l : Layout} {P : List (Item α)}

theorem text_glslStruct_none (f : Features) (h : f.std = false) : RustCode.traitDecl "GlslStruct" (textWith f ["glsl"]) = none := by
  obtain ⟨a, b, c, d⟩ := f
  subst h
  kernel_rfl

section
attribute [local irreducible] RustCode.traitDecl RustCode.fnDecl RustCode.structDecl textWith

/-- Only `AsStdN` has a function `as_stdN`. -/
theorem member_as_only {q : String} {m : RustCode.Member} (h : member (typingEnv f u) q (Expand.asStdMethod l) = some m) :
    q = asTraitName l := by
  by_cases h1 : q ∈ traitModules.map Prod.fst ++ outsideDecls.map Prod.fst
  · simp only [traitModules, outsideDecls, List.map_cons, List.map_nil, List.cons_append, List.nil_append, List.mem_cons,
      List.not_mem_nil, or_false] at h1
    rcases h1 with rfl | rfl | rfl | rfl | rfl | rfl | rfl | rfl | rfl | rfl
    · rw [member, show "Std140" = Layout.traitName .std140 from rfl, traits_std f u .std140] at h
      cases l <;> simp [stdDecl, RustCode.TraitDecl.member, RustCode.Member.name, Expand.asStdMethod] at h
    · cases l with
      | std140 => rfl
      | std430 =>
        rw [member, show "AsStd140" = asTraitName .std140 from rfl, traits_as f u .std140] at h
        simp [asDecl, RustCode.TraitDecl.member, RustCode.Member.name, Expand.asStdMethod, Expand.fromStdMethod] at h
    · rw [member, show "Std430" = Layout.traitName .std430 from rfl, traits_std f u .std430] at h
      cases l <;> simp [stdDecl, RustCode.TraitDecl.member, RustCode.Member.name, Expand.asStdMethod] at h
    · cases l with
      | std430 => rfl
      | std140 =>
        rw [member, show "AsStd430" = asTraitName .std430 from rfl, traits_as f u .std430] at h
        simp [asDecl, RustCode.TraitDecl.member, RustCode.Member.name, Expand.asStdMethod, Expand.fromStdMethod] at h
    · have e : (typingEnv f u).traits "Glsl" = some ⟨true, [], [.const "NAME" (.ref false (.path ["str"] [])) true]⟩ :=
        congrArg (fun x => x.or (outsideDecls.lookup "Glsl")) (text_glsl f)
      rw [member, e] at h
      cases l <;> simp [RustCode.TraitDecl.member, RustCode.Member.name, Expand.asStdMethod] at h
    · cases hs : f.std with
      | true =>
        have e := congrArg (fun x => Option.or x (outsideDecls.lookup "GlslStruct")) (text_glslStruct f hs)
        have e' : (typingEnv f u).traits "GlslStruct" = _ := e
        rw [member, e'] at h
        cases l <;> simp [RustCode.TraitDecl.member, RustCode.Member.name, Expand.asStdMethod] at h
      | false =>
        have e := congrArg (fun x => Option.or x (outsideDecls.lookup "GlslStruct")) (text_glslStruct_none f hs)
        have e' : (typingEnv f u).traits "GlslStruct" = none := e
        rw [member, e'] at h
        cases h
    all_goals
      rw [member, traits_outside f u (by simp [outsideDecls]; rfl)] at h
      cases l <;> simp [RustCode.TraitDecl.member, RustCode.Member.name, Expand.asStdMethod] at h
  · exfalso
    have h2 : traitModules.lookup q = none := by
      rw [List.lookup_eq_none_iff]
      intro p hp
      simp only [List.mem_append, not_or] at h1
      refine bne_iff_ne.2 ?_
      rintro rfl
      exact h1.1 (List.mem_map_of_mem hp)
    have h3 : outsideDecls.lookup q = none := by
      rw [List.lookup_eq_none_iff]
      intro p hp
      simp only [List.mem_append, not_or] at h1
      refine bne_iff_ne.2 ?_
      rintro rfl
      exact h1.2 (List.mem_map_of_mem hp)
    have e : (typingEnv f u).traits q = none := by
      simp only [typingEnv, h2, h3]; rfl
    rw [member, e] at h
    cases h

end

theorem local_not_foreign {x : String} {y : String} : (typingEnv f u).structAt ⟨false, [x]⟩ ≠ some y := by
  simp [typingEnv, provided]

/-- A name of the program stands for its struct. -/
theorem res_own_inv {c : Ctx α} {x : String} {s} {T : Typ α} {args : List String} (hs : structOf P x = some s) (hx : x ≠ "Self")
    (h : Res (typingEnv f u) P c (.path ⟨false, [x]⟩ args) T) : T = .adt false x args := by
  cases h with
  | own h1 h2 => rfl
  | prim h1 h2 => rw [hs] at h1; cases h1
  | foreign h1 => exact absurd h1 local_not_foreign
  | self h1 => exact absurd rfl hx

theorem inj_of_nodup {A B : Type} {g : A → B} {xs : List A} (h : (xs.map g).Nodup) {a b : A} (ha : a ∈ xs) (hb : b ∈ xs)
    (he : g a = g b) : a = b := by
  induction xs with
  | nil => cases ha
  | cons x r ih =>
    simp only [List.map_cons, List.nodup_cons] at h
    rcases List.mem_cons.1 ha with ha' | ha' <;> rcases List.mem_cons.1 hb with hb' | hb'
    · rw [ha', hb']
    · exact absurd (List.mem_map.2 ⟨b, hb', by rw [← he, ha']⟩) h.1
    · exact absurd (List.mem_map.2 ⟨a, ha', by rw [he, hb']⟩) h.1
    · exact ih h.2 ha' hb'

theorem method_inv {env : Env α} {c : Ctx α} {e : Expr α} {m : String} {args : List (Expr α)} {T : Typ α}
    (h : HasTy env P c (.method e m args) T) : ∃ T' q ps τ r, HasTy env P c e T' ∧ env.scope q ∧
      member env q m = some (.fn m .ref ps τ r) ∧ Implements env P T' q ∧ ¬ env.otherMethod T' m := by
  cases h with
  | method m1 m2 m3 m4 m5 m6 m7 m8 => exact ⟨_, _, _, _, _, m2, m3, m4, m5, m6⟩
  | unsize h => cases h with
    | method m1 m2 m3 m4 m5 m6 m7 m8 => exact ⟨_, _, _, _, _, m2, m3, m4, m5, m6⟩

theorem field_inv {env : Env α} {c : Ctx α} {e : Expr α} {x : String} {t : Typ α}
    (h : HasTy env P c (.field e x) t) : ∃ T t', (HasTy env P c e T ∨ HasTy env P c e (.ref T)) ∧ FieldTy env P T x t' ∧
      (t' = t ∨ ∃ a n, t' = .ref (.array a n)) := by
  cases h with
  | field h1 h2 => exact ⟨_, _, .inl h1, h2, .inl rfl⟩
  | fieldRef h1 h2 => exact ⟨_, _, .inr h1, h2, .inl rfl⟩
  | unsize h => cases h with
    | field h1 h2 => exact ⟨_, _, .inl h1, h2, .inr ⟨_, _, rfl⟩⟩
    | fieldRef h1 h2 => exact ⟨_, _, .inr h1, h2, .inr ⟨_, _, rfl⟩⟩

theorem var_inv {env : Env α} {c : Ctx α} {x : String} {T t : Typ α} (h : HasTy env P c (.path ⟨false, [x]⟩) t)
    (hc : c.vars.lookup x = some (.ref T)) (hT : ∀ a n, T ≠ .array a n) : t = .ref T := by
  cases h with
  | var h => rw [hc] at h; injection h with h; exact h.symm
  | unsize h => cases h with
    | var h =>
      rw [hc] at h
      injection h with h
      injection h with h
      exact absurd h (hT _ _)

/-- What the items of the derive ask of the program they are in. -/
theorem items_need {vis : Vis} {name : String} {fields : List (String × α)} {g : Generated α}
    (hg : emitLayout l ⟨name, [], .structNamed fields⟩ = .ok g) (hself : name ≠ "Self")
    (hok : ∀ i ∈ ast l vis name [] fields g, ItemOk (typingEnv f u) P i)
    (hown : structOf P name = some ([], fields.map fun x => ⟨.inherited, x.1, .spliced x.2⟩)) :
    (∀ x ∈ ["u8", "usize"], structOf P x = none) ∧ (fields.map fun x => plainName x.1).Nodup ∧
    (∀ x ∈ fields, plainName x.1 ∉ reservedNames fields.length) ∧
    (∀ x ∈ fields, Implements (typingEnv f u) P (.given x.2) (asTraitName l)) ∧
    (∀ x ∈ fields, Implements (typingEnv f u) P (outputTy l x.2) "Debug") ∧
    (fields ≠ [] → u.scope (asTraitName l)) ∧ ∀ x ∈ fields, ¬ u.otherMethod (.given x.2) (Expand.asStdMethod l) := by
  obtain ⟨fields', he, h1, h2, h3, h4, h5, -⟩ := emitLayout_inv hg
  injection he with he
  subst he
  have hmem : ∀ i ∈ [structAst l vis g, asBytesAst l g.structName [],
     .impl true [] (some (Expand.bytemuckTrait "Zeroable")) (.path ⟨false, [g.structName]⟩ []) [],
     .impl true [] (some (Expand.bytemuckTrait "Pod")) (.path ⟨false, [g.structName]⟩ []) [],
     .impl true [] (some (Expand.stdTrait l)) (.path ⟨false, [g.structName]⟩ [])
       [.const "ALIGNMENT" (.path ⟨false, ["usize"]⟩ []) (rust l g.alignment)],
     asTraitAst l name g.structName [] fields], ItemOk (typingEnv f u) P i := by
    intro i hi
    exact hok i (List.mem_append_right _ hi)
  have hnod := (hmem (structAst l vis g) (by simp)).1
  rw [List.map_map] at hnod
  obtain ⟨k1, k2⟩ := (genFieldNames_nodup hg).1 hnod
  have hfield : ∀ x ∈ fields, ∃ t, Res (typingEnv f u) P {} (verTy l x.2) t ∧
      Implements (typingEnv f u) P t "Debug" := by
    intro x hx
    obtain ⟨t, t1, t2⟩ := (hmem (structAst l vis g) (by simp)).2 (fieldAst l (x.1, .layoutOf x.2))
      (List.mem_map.2 ⟨_, by rw [h3]; exact mem_genFields.2 (.inl ⟨x, hx, rfl⟩), rfl⟩)
    exact ⟨t, t1, t2 "Debug" (by simp [derives, RustTyping.words])⟩
  have himp : ∀ x ∈ fields, Implements (typingEnv f u) P (.given x.2) (asTraitName l) ∧
      Implements (typingEnv f u) P (outputTy l x.2) "Debug" := by
    intro x hx
    obtain ⟨t, t1, t2⟩ := hfield x hx
    cases t1 with
    | proj r1 r2 r3 r4 =>
      cases r1
      rw [at_as] at r2
      injection r2 with r2
      subst r2
      exact ⟨r3, t2⟩
  refine ⟨?_, k1, fun x hx => k2 _ (List.mem_map.2 ⟨x, hx, rfl⟩), fun x hx => (himp x hx).1, fun x hx => (himp x hx).2, ?_⟩
  · intro z hz
    simp only [List.mem_cons, List.not_mem_nil, or_false] at hz
    rw [Option.eq_none_iff_forall_ne_some]
    intro s hs
    rcases hz with rfl | rfl
    · obtain ⟨x, args, r1, -, r2⟩ := hmem (asBytesAst l g.structName []) (by simp)
      obtain ⟨fn, e, ps, r, vs, p1, p2, p3, p4⟩ := r2 _ (List.mem_singleton.2 rfl)
      injection e with e
      subst e
      cases p3 with
      | ref p3 => cases p3 with
        | slice p3 =>
          have := res_own_inv hs (by decide) p3
          subst this
          cases p4 with
          | value p4 => cases p4 with
            | assocFn a1 a2 a3 a4 a5 a6 a7 =>
              rw [at_std] at a3
              injection a3 with a3
              subst a3
              rw [member_asBytes] at a5
              injection a5 with a5
              injection a5 with _ a5 a8 a9
              subst a5 a8 a9
              simp [sigFn, sigTy, prims] at a6
            | unsize p4 => cases p4 with
              | assocFn a1 a2 a3 a4 a5 a6 a7 =>
                rw [at_std] at a3
                injection a3 with a3
                subst a3
                rw [member_asBytes] at a5
                injection a5 with a5
                injection a5 with _ a5 a8 a9
                subst a5 a8 a9
                simp [sigFn, sigTy, prims] at a6
    · obtain ⟨x, args, q, d, assocs, r1, r2, r3, -, -, -, -, r4⟩ := hmem (.impl true [] (some (Expand.stdTrait l)) (.path ⟨false, [g.structName]⟩ [])
       [.const "ALIGNMENT" (.path ⟨false, ["usize"]⟩ []) (rust l g.alignment)]) (by simp)
      obtain ⟨τ, r, U, a1, a2, a3, a4⟩ := r4 _ (List.mem_singleton.2 rfl)
      rw [at_std] at r2
      injection r2 with r2
      subst r2
      rw [member_alignment] at a1
      injection a1 with a1
      injection a1 with _ a1
      subst a1
      rw [sig_usize] at a2
      injection a2 with a2
      subst a2
      have := res_own_inv hs (by decide) a3
      cases this
  · have hkey : ∀ x ∈ fields, u.scope (asTraitName l) ∧ ¬ u.otherMethod (.given x.2) (Expand.asStdMethod l) := by
      intro x hx
      obtain ⟨y, args, q, d, assocs, r1, r2, r3, -, -, -, -, r4⟩ := hmem (asTraitAst l name g.structName [] fields) (by simp)
      have hT := res_own_inv (hown) hself r1
      injection hT with _ hT hT'
      subst hT'
      subst y
      obtain ⟨v, ps, τ, r, Ps, U, a1, a2, -, vs, a3, a4, a5, a6⟩ := r4 (.fn (asFnAst l fields)) (by simp)
      cases a3 with
      | self b1 b2 =>
        cases b2
        injection b1 with b1
        subst b1
        cases a6 with
        | value a6 =>
          obtain ⟨c, hc, hin⟩ : ∃ c : Ctx α, c.vars = [("self", .ref (.adt false name []))] ∧
              Inits (typingEnv f u) P c U (fields.map fun f => (f.1, asExpr l f.1)) := by
            cases a6 with
            | update c1 c2 c3 c4 c5 => exact ⟨_, rfl, c3⟩
            | unsize a6 => cases a6 with
              | update c1 c2 c3 c4 c5 => cases c2
          clear a6
          have : ∀ (fs : List (String × α)), x ∈ fs → Inits (typingEnv f u) P c U
              (fs.map fun f => (f.1, asExpr l f.1)) → ∃ t, HasTy (typingEnv f u) P c (asExpr l x.1) t := by
            intro fs hx hin
            induction fs with
            | nil => cases hx
            | cons z fs ih =>
              cases hin with
              | cons d1 d2 d3 =>
                rcases List.mem_cons.1 hx with rfl | hx
                · exact ⟨_, d2⟩
                · exact ih hx d3
          obtain ⟨t, ht⟩ := this fields hx hin
          have fieldInv : ∀ {T : Typ α}, FieldTy (typingEnv f u) P (.adt false name []) x.1 T → T = .given x.2 := by
            intro T hT
            generalize hz : x.1 = z at hT
            cases hT with
            | own e1 e2 e3 =>
              rw [hown] at e1
              injection e1 with e1
              injection e1 with _ e1
              subst e1
              obtain ⟨w, hw, rfl⟩ := List.mem_map.1 e2
              have : w = x := inj_of_nodup k1 hw hx (congrArg plainName hz.symm)
              subst this
              cases e3
              rfl
          obtain ⟨T', q, ps, τ, r, m2, m3, m4, m5, m6⟩ := method_inv ht
          have hq := member_as_only m4
          subst hq
          obtain ⟨T, t', e1, e2, e3⟩ := field_inv m2
          have hl : c.vars.lookup "self" = some (.ref (.adt false name [])) := by rw [hc]; rfl
          have : T = .adt false name [] := by
            rcases e1 with e1 | e1
            · have := var_inv e1 hl (by simp)
              subst this
              cases e2
            · have := var_inv e1 hl (by simp)
              injection this
          subst this
          have := fieldInv e2
          subst this
          rcases e3 with rfl | ⟨a, n, e3⟩
          · exact ⟨m3, m6⟩
          · cases e3
    exact ⟨fun hne => by
      obtain ⟨x, hx⟩ := List.exists_mem_of_ne_nil _ hne
      exact (hkey x hx).1, fun x hx => (hkey x hx).2⟩

theorem needs {vis : Vis} {name : String} {fields : List (String × α)} {g : Generated α}
    (hg : emitLayout l ⟨name, [], .structNamed fields⟩ = .ok g) (hself : name ≠ "Self")
    (h : WellTyped (typingEnv f u) (program l vis name fields g)) :
    plainName name ∉ ["u8", "usize"] ∧ (fields.map fun x => plainName x.1).Nodup ∧
    (∀ x ∈ fields, plainName x.1 ∉ reservedNames fields.length) ∧
    (∀ x ∈ fields, Implements (typingEnv f u) (program l vis name fields g) (.given x.2) (asTraitName l)) ∧
    (∀ x ∈ fields, Implements (typingEnv f u) (program l vis name fields g) (outputTy l x.2) "Debug") ∧
    (fields ≠ [] → u.scope (asTraitName l)) ∧ ∀ x ∈ fields, ¬ u.otherMethod (.given x.2) (Expand.asStdMethod l) := by
  obtain ⟨n1, n2⟩ := items_need hg hself (fun i hi => h.1 i (List.mem_cons_of_mem _ hi))
    (by rw [program, inputItem, structOf, if_pos rfl])
  refine ⟨fun hc => ?_, n2⟩
  have := n1 _ hc
  rw [program, inputItem, structOf, if_pos] at this
  · cases this
  · simp only [List.mem_cons, List.not_mem_nil, or_false] at hc
    rcases hc with hc | hc <;> rw [hc] <;> decide +kernel

end Crevice.TypingProof
