import Verif.Proof.TypingNeeds
import Verif.Proof.SyntaxGlsl
/-
Typing of the items that the derives emit: `#[derive(GlslStruct)]`, and generic structs.
-/
namespace Crevice.TypingProof
open RustSyntax RustTyping Tokens Expand
variable {α : Type} {f : Features} {u : User α} {l : Layout} {P : List (Item α)}

/-! ### Generic structs -/

theorem not_generic {vis : Vis} {name : String} {gs : List String} {fields : List (String × α)} {g : Generated α}
    (hg : emitLayout l ⟨name, gs, .structNamed fields⟩ = .ok g) (hgs : gs ≠ []) :
    ¬ WellTyped (typingEnv f u) (inputItem vis name gs fields :: ast l vis name gs fields g) := by
  intro h
  obtain ⟨fields', he, h1, h2, h3, h4, h5, -⟩ := emitLayout_inv hg
  injection he with he
  subst he
  obtain ⟨y, args, q, d, assocs, r1, r2, r3, -, -, -, -, r4⟩ := h.1 (asTraitAst l name g.structName gs fields)
    (List.mem_cons_of_mem _ (List.mem_append_right _ (by simp)))
  obtain ⟨bs, U, -, hU, -⟩ := r4 (.type "Output" (.path ⟨false, [g.structName]⟩ [])) (by simp)
  have hs : structOf (inputItem vis name gs fields :: ast l vis name gs fields g) g.structName =
      some (gs, g.fields.map (fieldAst l)) := by
    rw [h1, inputItem, structOf, if_neg (plain_ne_gen l name), ast, structOf_pads]
    simp [structAst, structOf, h1, h5]
  generalize hn : g.structName = n at hU hs
  have hself : n ≠ "Self" := by
    rintro rfl
    rw [h1] at hn
    have := congrArg (fun s => s.toList.take 2) hn
    cases l <;> simp [generatedName, Layout.traitName] at this
  cases hU with
  | own k1 k2 =>
    rw [hs] at k1
    injection k1 with k1
    injection k1 with k1
    subst k1
    exact hgs (List.length_eq_zero_iff.1 k2.symm)
  | prim k1 k2 => rw [hs] at k1; cases k1
  | foreign k1 => exact absurd k1 local_not_foreign
  | self k1 => exact hself rfl

/-! ### GLSL -/

theorem at_glsl : (typingEnv f u).traitAt (glslItem "Glsl") = some "Glsl" := by
  simp only [typingEnv, (NameProof.glsl_names f).1]; rfl
theorem at_glslStruct : (typingEnv f u).traitAt (glslItem "GlslStruct") = if f.std then some "GlslStruct" else none := by
  simp only [typingEnv, (NameProof.glsl_struct f).1]; rfl
theorem struct_field : (typingEnv f u).structAt (glslItem "GlslField") = some "GlslField" := by
  simp only [typingEnv, (NameProof.glsl_names f).2.2.2]; rfl

/-- `trait Glsl`. -/
def glslDecl : RustCode.TraitDecl := ⟨true, [], [.const "NAME" (.ref false (.path ["str"] [])) true]⟩
/-- `trait GlslStruct`. -/
def glslStructDecl : RustCode.TraitDecl :=
  ⟨true, [.path ["Glsl"] []], [.const "FIELDS" (.ref false (.slice (.path ["GlslField"] []))) true,
    .fn "glsl_definition" .static [] (.path ["String"] []) false]⟩

section
attribute [local irreducible] RustCode.traitDecl RustCode.fnDecl RustCode.structDecl textWith

theorem traits_glsl : (typingEnv f u).traits "Glsl" = some glslDecl :=
  congrArg (fun x => x.or (outsideDecls.lookup "Glsl")) (text_glsl f)
theorem traits_glslStruct (h : f.std = true) : (typingEnv f u).traits "GlslStruct" = some glslStructDecl :=
  congrArg (fun x => x.or (outsideDecls.lookup "GlslStruct")) (text_glslStruct f h)
theorem structs_field : (typingEnv f u).structs "GlslField" =
    some [(true, "ty", .ref false (.path ["str"] [])), (true, "name", .ref false (.path ["str"] []))] :=
  text_field f
end

theorem member_name : member (typingEnv f u) "Glsl" "NAME" = some (.const "NAME" (.ref false (.path ["str"] [])) true) := by
  rw [member, traits_glsl]; rfl
theorem member_fields (h : f.std = true) : member (typingEnv f u) "GlslStruct" "FIELDS" =
    some (.const "FIELDS" (.ref false (.slice (.path ["GlslField"] []))) true) := by
  rw [member, traits_glslStruct h]; rfl

theorem sig_str (self : Option (Typ α)) (assoc consts) :
    sigTy (typingEnv f u) self assoc consts (.ref false (.path ["str"] [])) = some (.ref (.prim "str")) := by
  simp [sigTy, prims]

theorem sig_fields (self : Option (Typ α)) (assoc consts) :
    sigTy (typingEnv f u) self assoc consts (.ref false (.slice (.path ["GlslField"] []))) =
      some (.ref (.slice (.adt true "GlslField" []))) := by
  simp [sigTy, prims, structs_field]

theorem glslField_typed {x : String × α} {c : Ctx α} (h : Implements (typingEnv f u) P (.given x.2) "Glsl") :
    HasTy (typingEnv f u) P c (glslFieldAst x) (.adt true "GlslField" []) := by
  refine .struct (.foreign struct_field) (ns := ["ty", "name"]) (by simp [fieldNames, structs_field]) ?_ ?_ (by simp)
  · exact .cons (.foreign structs_field (by simp) (sig_str _ _ _)) (.const .spliced at_glsl h member_name (sig_str _ _ _))
      (.cons (.foreign structs_field (by simp) (sig_str _ _ _)) .str .nil)
  · show List.Nodup [plainName "ty", plainName "name"]
    decide +kernel

theorem glslFields_typed {fields : List (String × α)} {c : Ctx α}
    (h : ∀ x ∈ fields, Implements (typingEnv f u) P (.given x.2) "Glsl") :
    RustTyping.HasTys (typingEnv f u) P c (fields.map glslFieldAst) ((fields.map glslFieldAst).map fun _ => .adt true "GlslField" []) := by
  induction fields with
  | nil => exact .nil
  | cons x r ih => exact .cons (glslField_typed (h x (by simp))) (ih fun y hy => h y (by simp [hy]))

theorem glsl_items_typed {name : String} {fields : List (String × α)} (hs : f.std = true)
    (hown : structOf P name = some ([], fields.map fun x => ⟨.inherited, x.1, .spliced x.2⟩))
    (hstr : structOf P "str" = none) (himpl : Implements (typingEnv f u) P (.adt false name []) "Glsl")
    (hi : ∀ x ∈ fields, Implements (typingEnv f u) P (.given x.2) "Glsl") :
    ∀ i ∈ glslAst name [] fields, ItemOk (typingEnv f u) P i := by
  have hres : ∀ c : Ctx α, Res (typingEnv f u) P c (.ref (some "static") (.path ⟨false, ["str"]⟩ [])) (.ref (.prim "str")) :=
    fun c => .ref (.prim hstr (by simp [prims]))
  intro i hmem
  simp only [glslAst, List.mem_cons, List.not_mem_nil, or_false] at hmem
  rcases hmem with rfl | rfl
  · refine ⟨name, [], "Glsl", glslDecl, [], .own hown rfl, at_glsl, traits_glsl, rfl, fun b hb => (nomatch hb), by simp, ?_, ?_⟩
    · intro m hm hr
      simp only [glslDecl, List.mem_cons, List.not_mem_nil, or_false] at hm
      subst hm
      simp [RustCode.Member.name, assocName]
    · intro i hi
      simp only [List.mem_cons, List.not_mem_nil, or_false] at hi
      subst hi
      exact ⟨_, _, _, member_name, sig_str _ _ _, hres _, .str⟩
  · refine ⟨name, [], "GlslStruct", glslStructDecl, [], .own hown rfl, by rw [at_glslStruct, if_pos hs], traits_glslStruct hs, rfl, ?_,
      by simp, ?_, ?_⟩
    · intro b hb
      simp only [glslStructDecl, List.mem_cons, List.not_mem_nil, or_false] at hb
      exact ⟨_, hb, himpl⟩
    · intro m hm hr
      simp only [glslStructDecl, List.mem_cons, List.not_mem_nil, or_false] at hm
      rcases hm with rfl | rfl
      · simp [RustCode.Member.name, assocName]
      · simp [RustCode.Member.required] at hr
    · intro i hmi
      simp only [List.mem_cons, List.not_mem_nil, or_false] at hmi
      subst hmi
      exact ⟨_, _, _, member_fields hs, sig_fields _ _ _, .ref (.slice (.foreign struct_field)),
        .unsize (.ref (.array (glslFields_typed hi)))⟩

theorem glsl_typed {vis : Vis} {name : String} {fields : List (String × α)} (hs : f.std = true) (hp : plainName name ≠ "str")
    (hn : (fields.map fun x => plainName x.1).Nodup)
    (hi : ∀ x ∈ fields, Implements (typingEnv f u) (inputItem vis name [] fields :: glslAst name [] fields) (.given x.2) "Glsl") :
    WellTyped (typingEnv f u) (inputItem vis name [] fields :: glslAst name [] fields) := by
  refine ⟨fun i hmem => ?_, ?_, ?_, ?_⟩
  · rcases List.mem_cons.1 hmem with rfl | hmem
    · refine ⟨by rw [List.map_map]; exact hn, fun y hy => ?_⟩
      obtain ⟨x, hx, rfl⟩ := List.mem_map.1 hy
      exact ⟨_, .spliced, fun q hq => (nomatch hq)⟩
    · refine glsl_items_typed hs (by simp [inputItem, structOf]) ?_ ?_ hi i hmem
      · rw [inputItem, structOf, if_neg (by rw [show plainName "str" = "str" by decide +kernel]; exact hp)]
        rfl
      · exact .impl (List.mem_cons_of_mem _ (List.mem_cons_self ..)) at_glsl
  · simp [inputItem, glslAst, RustTyping.structs]
  · simp [inputItem, glslAst, RustTyping.fns]
  · simp [inputItem, glslAst, implHeads, at_glsl, at_glslStruct, hs]

theorem array_inv {env : Env α} {c : Ctx α} {es : List (Expr α)} {t : Typ α} {n : Expr α}
    (h : HasTy env P c (.ref (.array es)) (.ref t)) : ∃ s, RustTyping.HasTys env P c es (es.map fun _ => s) := by
  have key : ∀ t, HasTy env P c (.array es) t → ∃ s, RustTyping.HasTys env P c es (es.map fun _ => s) := by
    intro t h
    cases h with
    | array h => exact ⟨_, h⟩
    | unsize h => cases h
  cases h with
  | ref h => exact key _ h
  | unsize h => cases h with
    | ref h => exact key _ h

/-- What the items of the derive ask of the program they are in. -/
theorem glsl_items_need {name : String} {fields : List (String × α)}
    (hmem : ∀ i ∈ glslAst name [] fields, ItemOk (typingEnv f u) P i) :
    f.std = true ∧ structOf P "str" = none ∧ ∀ x ∈ fields, Implements (typingEnv f u) P (.given x.2) "Glsl" := by
  obtain ⟨y, args, q, d, assocs, r1, r2, r3, -, -, -, -, r4⟩ := hmem _ (List.mem_cons_of_mem _ (List.mem_cons_self ..))
  have hs : f.std = true := by
    cases e : f.std with
    | true => rfl
    | false =>
      rw [at_glslStruct, e] at r2
      cases r2
  refine ⟨hs, ?_, ?_⟩
  · rw [Option.eq_none_iff_forall_ne_some]
    intro s' hs'
    obtain ⟨y, args, q, d, assocs, r1, r2, r3, -, -, -, -, r4⟩ := hmem _ (List.mem_cons_self ..)
    obtain ⟨τ, r, U, a1, a2, a3, a4⟩ := r4 _ (List.mem_singleton.2 rfl)
    rw [at_glsl] at r2
    injection r2 with r2
    subst r2
    rw [member_name] at a1
    injection a1 with a1
    injection a1 with _ a1
    subst a1
    rw [sig_str] at a2
    injection a2 with a2
    subst a2
    cases a3 with
    | ref a3 =>
      have := res_own_inv hs' (by decide) a3
      cases this
  · intro x hx
    obtain ⟨τ, r, U, a1, a2, a3, a4⟩ := r4 _ (List.mem_singleton.2 rfl)
    rw [at_glslStruct, if_pos hs] at r2
    injection r2 with r2
    subst r2
    rw [member_fields hs] at a1
    injection a1 with a1
    injection a1 with _ a1
    subst a1
    rw [sig_fields] at a2
    injection a2 with a2
    subst a2
    obtain ⟨s, hs⟩ := array_inv (n := .int 0 "usize") a4
    generalize Ctx.mk _ _ _ true = c at hs
    have : ∀ fs : List (String × α), x ∈ fs → RustTyping.HasTys (typingEnv f u) P
        c (fs.map glslFieldAst) ((fs.map glslFieldAst).map fun _ => s) →
        ∃ s, HasTy (typingEnv f u) P c (glslFieldAst x) s := by
      intro fs hx hh
      induction fs with
      | nil => cases hx
      | cons z fs ih =>
        cases hh with
        | cons d1 d2 =>
          rcases List.mem_cons.1 hx with rfl | hx
          · exact ⟨_, d1⟩
          · exact ih hx d2
    obtain ⟨s, hh⟩ := this fields hx hs
    have key : ∀ s, Inits (typingEnv f u) P c s
        [("ty", .assoc (.spliced x.2) (glslItem "Glsl") "NAME"), ("name", .str x.1)] →
        Implements (typingEnv f u) P (.given x.2) "Glsl" := by
      intro s h
      have key2 : ∀ t, HasTy (typingEnv f u) P c
          (.assoc (.spliced x.2) (glslItem "Glsl") "NAME") t →
          Implements (typingEnv f u) P (.given x.2) "Glsl" := by
        have key3 : ∀ T q, Res (typingEnv f u) P c (.spliced x.2) T →
            (typingEnv f u).traitAt (glslItem "Glsl") = some q →
            Implements (typingEnv f u) P T q →
            Implements (typingEnv f u) P (.given x.2) "Glsl" := by
          intro T q b1 b2 b3
          cases b1
          rw [at_glsl] at b2
          injection b2 with b2
          subst b2
          exact b3
        intro t h
        cases h with
        | const b1 b2 b3 b4 b5 => exact key3 _ _ b1 b2 b3
        | unsize h => cases h with
          | const b1 b2 b3 b4 b5 => exact key3 _ _ b1 b2 b3
      cases h with
      | cons d1 d2 d3 => exact key2 _ d2
    unfold glslFieldAst at hh
    cases hh with
    | struct c1 c2 c3 c4 c5 => exact key _ c3
    | unsize h => cases h with
      | struct c1 c2 c3 c4 c5 => exact key _ c3

theorem glsl_needs {vis : Vis} {name : String} {fields : List (String × α)}
    (h : WellTyped (typingEnv f u) (inputItem vis name [] fields :: glslAst name [] fields)) :
    f.std = true ∧ plainName name ≠ "str" ∧ (fields.map fun x => plainName x.1).Nodup ∧
    ∀ x ∈ fields, Implements (typingEnv f u) (inputItem vis name [] fields :: glslAst name [] fields) (.given x.2) "Glsl" := by
  obtain ⟨n1, n2, n3⟩ := glsl_items_need fun i hi => h.1 i (List.mem_cons_of_mem _ hi)
  have hn := (h.1 _ (List.mem_cons_self ..)).1
  rw [List.map_map] at hn
  refine ⟨n1, fun hc => ?_, hn, n3⟩
  rw [inputItem, structOf, if_pos (hc.trans (by decide +kernel))] at n2
  cases n2

end Crevice.TypingProof
