import Verif.Proof.TypingItems
import Verif.Proof.TypingGlsl
import Verif.Proof.ClientIndex
import Verif.Model.TextProgram
/-
Typing of a crate with any number of derives.
-/
namespace Crevice.TypingProof
open RustSyntax RustTyping Tokens
variable {α : Type} {f : Features} {l : Layout} {P : List (Item α)}

/-! ### Looking items up in a program without duplicates -/

theorem structOf_none {x : String} (h : ∀ y ∈ RustTyping.structs P, plainName y ≠ plainName x) : structOf P x = none := by
  induction P with
  | nil => rfl
  | cons i P ih =>
    cases i with
    | struct a v y gs fs =>
      simp only [RustTyping.structs, List.mem_cons, forall_eq_or_imp] at h
      rw [structOf, if_neg h.1, ih h.2]
    | fn d => exact ih h
    | impl u gs p s is => exact ih (by cases p <;> exact h)

theorem structs_mem {a v x gs fs} (h : Item.struct a v x gs fs ∈ P) : x ∈ RustTyping.structs P := by
  induction P with
  | nil => cases h
  | cons i P ih =>
    rcases List.mem_cons.1 h with rfl | h'
    · exact List.mem_cons_self ..
    · cases i with
      | struct => exact List.mem_cons_of_mem _ (ih h')
      | fn => exact ih h'
      | impl => exact ih h'

theorem structOf_mem {a v x gs fs} (h : Item.struct a v x gs fs ∈ P) (hn : ((RustTyping.structs P).map plainName).Nodup) :
    structOf P x = some (gs, fs) := by
  induction P with
  | nil => cases h
  | cons i P ih =>
    rcases List.mem_cons.1 h with rfl | h'
    · rw [structOf, if_pos rfl]
    · cases i with
      | struct a' v' y gs' fs' =>
        simp only [RustTyping.structs, List.map_cons, List.nodup_cons] at hn
        rw [structOf, if_neg, ih h' hn.2]
        intro e
        exact hn.1 (e ▸ List.mem_map.2 ⟨_, structs_mem h', rfl⟩)
      | fn => exact ih h' hn
      | impl => exact ih h' hn

theorem fns_mem {d : Fn α} (h : Item.fn d ∈ P) : d.name ∈ RustTyping.fns P := by
  induction P with
  | nil => cases h
  | cons i P ih =>
    rcases List.mem_cons.1 h with rfl | h'
    · exact List.mem_cons_self ..
    · cases i with
      | fn => exact List.mem_cons_of_mem _ (ih h')
      | struct => exact ih h'
      | impl => exact ih h'

theorem fnOf_mem {d : Fn α} (h : Item.fn d ∈ P) (hn : ((RustTyping.fns P).map plainName).Nodup) : fnOf P d.name = some d := by
  induction P with
  | nil => cases h
  | cons i P ih =>
    rcases List.mem_cons.1 h with rfl | h'
    · rw [fnOf, if_pos rfl]
    · cases i with
      | fn d' =>
        simp only [RustTyping.fns, List.map_cons, List.nodup_cons] at hn
        rw [fnOf, if_neg, ih h' hn.2]
        intro e
        exact hn.1 (e ▸ List.mem_map.2 ⟨_, fns_mem h', rfl⟩)
      | struct => exact ih h' hn
      | impl => exact ih h' hn

theorem structs_append (P Q : List (Item α)) : RustTyping.structs (P ++ Q) = RustTyping.structs P ++ RustTyping.structs Q := by
  induction P with
  | nil => rfl
  | cons i P ih => cases i <;> simp [RustTyping.structs, ih]

theorem fns_append (P Q : List (Item α)) : RustTyping.fns (P ++ Q) = RustTyping.fns P ++ RustTyping.fns Q := by
  induction P with
  | nil => rfl
  | cons i P ih => cases i <;> simp [RustTyping.fns, ih]

theorem implHeads_append (env : Env α) (P Q : List (Item α)) : implHeads env (P ++ Q) = implHeads env P ++ implHeads env Q := by
  induction P with
  | nil => rfl
  | cons i P ih =>
    cases i with
    | impl u gs p s is => cases p <;> simp [implHeads, ih]
    | fn => simp [implHeads, ih]
    | struct => simp [implHeads, ih]

/-! ### What the items of a derive define -/

section
variable {u : User α} {vis : Vis} {name : String} {fields : List (String × α)} {g : Generated α}
  (hg : emitLayout l ⟨name, [], .structNamed fields⟩ = .ok g)
include hg

theorem ast_structs : RustTyping.structs (ast l vis name [] fields g) = [generatedName l name] := by
  obtain ⟨fields', he, h1, h2, h3, h4, h5, -⟩ := emitLayout_inv hg
  have e : ∀ ps : List (String × CExpr α), RustTyping.structs (ps.map (padFnItem l)) = [] := by
    intro ps
    induction ps with
    | nil => rfl
    | cons p ps ih =>
      obtain ⟨off, al, hp⟩ := padItem (l := l) p
      simp only [List.map_cons, hp, RustTyping.structs, ih]
  rw [ast, structs_append, e]
  simp [structAst, asBytesAst, asTraitAst, RustTyping.structs, h1]

theorem ast_fns : RustTyping.fns (ast l vis name [] fields g) = (List.range fields.length).map (padFnName l name) := by
  obtain ⟨fields', he, h1, h2, h3, h4, h5, -⟩ := emitLayout_inv hg
  injection he with he
  subst he
  have e : ∀ ps : List (String × CExpr α), RustTyping.fns (ps.map (padFnItem l)) = ps.map Prod.fst := by
    intro ps
    induction ps with
    | nil => rfl
    | cons p ps ih =>
      obtain ⟨off, al, hp⟩ := padItem (l := l) p
      simp [hp, RustTyping.fns, ih, padFnAst]
  rw [ast, fns_append, e, h2]
  simp [structAst, asBytesAst, asTraitAst, RustTyping.fns, Function.comp_def]

theorem ast_heads : implHeads (typingEnv f u) (ast l vis name [] fields g) =
    [(some "Zeroable", .path ⟨false, [generatedName l name]⟩ []), (some "Pod", .path ⟨false, [generatedName l name]⟩ []),
      (some l.traitName, .path ⟨false, [generatedName l name]⟩ []), (some (asTraitName l), .path ⟨false, [name]⟩ [])] := by
  obtain ⟨fields', he, h1, h2, h3, h4, h5, -⟩ := emitLayout_inv hg
  have e : ∀ ps : List (String × CExpr α), implHeads (typingEnv f u) (ps.map (padFnItem l)) = [] := by
    intro ps
    induction ps with
    | nil => rfl
    | cons p ps ih =>
      obtain ⟨off, al, hp⟩ := padItem (l := l) p
      simp only [List.map_cons, hp, implHeads, ih]
  rw [ast, implHeads_append, e]
  simp only [implHeads, structAst, asBytesAst, asTraitAst, at_std, at_as, h1,
      at_bytemuck f u (x := "Zeroable") (by simp), at_bytemuck f u (x := "Pod") (by simp), List.nil_append]

theorem facts_in (hin : inputItem vis name [] fields ∈ P) (hmem : ∀ i ∈ ast l vis name [] fields g, i ∈ P)
    (hs : ((RustTyping.structs P).map plainName).Nodup) (hf : ((RustTyping.fns P).map plainName).Nodup)
    (hfree : ∀ x ∈ ["u8", "usize"], structOf P x = none) : Facts f u l name fields P := by
  obtain ⟨fields', he, h1, h2, h3, h4, h5, -⟩ := emitLayout_inv hg
  injection he with he
  subst he
  have hm : ∀ i ∈ [structAst l vis g, asBytesAst l g.structName [],
     .impl true [] (some (Expand.bytemuckTrait "Zeroable")) (.path ⟨false, [g.structName]⟩ []) [],
     .impl true [] (some (Expand.bytemuckTrait "Pod")) (.path ⟨false, [g.structName]⟩ []) [],
     .impl true [] (some (Expand.stdTrait l)) (.path ⟨false, [g.structName]⟩ [])
       [.const "ALIGNMENT" (.path ⟨false, ["usize"]⟩ []) (rust l g.alignment)],
     asTraitAst l name g.structName [] fields], i ∈ P := by
    intro i hi
    exact hmem _ (List.mem_append_right _ hi)
  have hst := hm (structAst l vis g) (by simp)
  rw [structAst, h5] at hst
  refine ⟨hfree _ (by simp), hfree _ (by simp), structOf_mem hin hs, ⟨g.fields.map (fieldAst l), ?_, ?_⟩, ?_, ?_, ?_, ?_, ?_⟩
  · rw [← h1]; exact structOf_mem hst hs
  · intro x hx
    rw [h3]
    exact List.mem_map.2 ⟨_, mem_genFields.2 (.inl ⟨x, hx, rfl⟩), rfl⟩
  · intro i hi
    have : padFnName l name i ∈ g.padFns.map Prod.fst := by
      rw [h2]; simp only [List.map_map, List.mem_map, List.mem_range]; exact ⟨i, hi, rfl⟩
    obtain ⟨p, hp, e⟩ := List.mem_map.1 this
    obtain ⟨off, al, hp'⟩ := padItem (l := l) p
    have hmp := hmem (padFnItem l p) (List.mem_append_left _ (List.mem_map.2 ⟨p, hp, rfl⟩))
    rw [hp'] at hmp
    have := fnOf_mem hmp hf
    exact ⟨_, by rw [← e]; exact this, rfl, rfl, rfl⟩
  · rw [← h1]
    exact .impl (u := true) (items := []) (hm _ (by simp)) (at_bytemuck f u (by simp))
  · rw [← h1]
    exact .impl (u := true) (items := []) (hm _ (by simp)) (at_bytemuck f u (by simp))
  · rw [← h1]
    exact .derive hst (by simp [derives, RustTyping.words])
  · rw [← h1]
    exact .impl (u := true) (hm (.impl true [] (some (Expand.stdTrait l)) (.path ⟨false, [g.structName]⟩ [])
       [.const "ALIGNMENT" (.path ⟨false, ["usize"]⟩ []) (rust l g.alignment)]) (by simp)) (at_std f u l)

end

/-! ### The crate -/

section
variable {u : User RustCode.Ty} {cs gs : List ClientStruct} {ds : List (ClientStruct × Layout)}
  {is js : List (Item RustCode.Ty)}

theorem expansion_gen {c : ClientStruct} (h : Expansion l c is) :
    ∃ g, emitLayout l ⟨c.name, [], .structNamed c.fields⟩ = .ok g ∧ is = ast l c.vis c.name [] c.fields g := by
  obtain ⟨ts, h1, h2⟩ := h
  have h3 := h1 5 (by omega)
  rw [C64_layout false l c.vis _ (by omega), emitAll_false] at h3
  rcases Tokens.emit_sim l c.vis { ident := c.name, data := .structNamed c.fields } with
    ⟨ts', fields, g, pads, str, k1, k2, k3, -, -, k4, -⟩ | ⟨e, k1, -⟩
  case inr => rw [k1] at h3; cases h3
  rw [k1] at h3
  injection h3 with h3
  injection h3 with h3
  subst h3
  injection k2 with k2
  subst k2
  exact ⟨g, k3, Reads.unique h2 k4⟩

theorem returned_mem (h : Returned ds is) : ∀ d ∈ ds, ∃ js, Expansion d.2 d.1 js ∧ ∀ i ∈ js, i ∈ is := by
  induction h with
  | nil => intro d hd; cases hd
  | cons h r ih =>
    intro d hd
    rcases List.mem_cons.1 hd with rfl | hd
    · exact ⟨_, h, fun i hi => List.mem_append_left _ hi⟩
    · obtain ⟨js, h1, h2⟩ := ih d hd
      exact ⟨js, h1, fun i hi => List.mem_append_right _ (h2 i hi)⟩

theorem returned_inv (h : Returned ds is) : ∀ i ∈ is, ∃ d ∈ ds, ∃ js, Expansion d.2 d.1 js ∧ i ∈ js ∧ ∀ i ∈ js, i ∈ is := by
  induction h with
  | nil => intro i hi; cases hi
  | cons h r ih =>
    intro i hi
    rcases List.mem_append.1 hi with hi | hi
    · exact ⟨_, List.mem_cons_self .., _, h, hi, fun i hi => List.mem_append_left _ hi⟩
    · obtain ⟨d, hd, js, h1, h2, h3⟩ := ih i hi
      exact ⟨d, List.mem_cons_of_mem _ hd, js, h1, h2, fun i hi => List.mem_append_right _ (h3 i hi)⟩

/-- The traits that a derive implements. -/
def heads (d : ClientStruct × Layout) : List (Option String × TyExpr RustCode.Ty) :=
  [(some "Zeroable", .path ⟨false, [generatedName d.2 d.1.name]⟩ []), (some "Pod", .path ⟨false, [generatedName d.2 d.1.name]⟩ []),
    (some d.2.traitName, .path ⟨false, [generatedName d.2 d.1.name]⟩ []), (some (asTraitName d.2), .path ⟨false, [d.1.name]⟩ [])]

theorem returned_eqs (h : Returned ds is) :
    RustTyping.structs is = (ds.map fun d => generatedName d.2 d.1.name) ∧
    RustTyping.fns is = (ds.flatMap fun d => (List.range d.1.fields.length).map (padFnName d.2 d.1.name)) ∧
    implHeads (typingEnv f u) is = ds.flatMap heads := by
  induction h with
  | nil => exact ⟨rfl, rfl, rfl⟩
  | cons h r ih =>
    obtain ⟨g, hg, rfl⟩ := expansion_gen h
    obtain ⟨i1, i2, i3⟩ := ih
    refine ⟨?_, ?_, ?_⟩
    · rw [structs_append, ast_structs hg, i1]; rfl
    · rw [fns_append, ast_fns hg, i2]; rfl
    · rw [implHeads_append, ast_heads hg, i3]; rfl

/-- The traits that `GlslStruct` implements. -/
def glslHeads (c : ClientStruct) : List (Option String × TyExpr RustCode.Ty) :=
  [(some "Glsl", .path ⟨false, [c.name]⟩ []), (some "GlslStruct", .path ⟨false, [c.name]⟩ [])]

theorem glslReturned_inv (h : GlslReturned gs js) : ∀ i ∈ js, ∃ c ∈ gs, i ∈ glslAst c.name [] c.fields ∧
    ∀ i ∈ glslAst c.name [] c.fields, i ∈ js := by
  induction h with
  | nil => intro i hi; cases hi
  | cons h r ih =>
    have e := ClientProof.glslExpansion_items h
    subst e
    intro i hi
    rcases List.mem_append.1 hi with hi | hi
    · exact ⟨_, List.mem_cons_self .., hi, fun i hi => List.mem_append_left _ hi⟩
    · obtain ⟨d, hd, h2, h3⟩ := ih i hi
      exact ⟨d, List.mem_cons_of_mem _ hd, h2, fun i hi => List.mem_append_right _ (h3 i hi)⟩

theorem glslReturned_eqs (h : GlslReturned gs js) (hf : gs ≠ [] → f.std = true) :
    RustTyping.structs js = [] ∧ RustTyping.fns js = [] ∧ implHeads (typingEnv f u) js = gs.flatMap glslHeads := by
  induction h with
  | nil => exact ⟨rfl, rfl, rfl⟩
  | cons h r ih =>
    have e := ClientProof.glslExpansion_items h
    subst e
    obtain ⟨i1, i2, i3⟩ := ih fun _ => hf (by simp)
    refine ⟨?_, ?_, ?_⟩
    · rw [structs_append, i1]; rfl
    · rw [fns_append, i2]; rfl
    · rw [implHeads_append, i3]
      simp only [glslAst, implHeads, at_glsl, at_glslStruct, hf (by simp), List.flatMap_cons, glslHeads]
      rfl

theorem inputs_eqs (cs : List ClientStruct) :
    RustTyping.structs (cs.map fun c => inputItem c.vis c.name [] c.fields) = cs.map ClientStruct.name ∧
    RustTyping.fns (cs.map fun c => inputItem c.vis c.name [] c.fields) = [] ∧
    implHeads (typingEnv f u) (cs.map fun c => inputItem c.vis c.name [] c.fields) = [] := by
  induction cs with
  | nil => exact ⟨rfl, rfl, rfl⟩
  | cons c cs ih =>
    obtain ⟨i1, i2, i3⟩ := ih
    exact ⟨by simp [inputItem, RustTyping.structs, ← i1], by simpa [inputItem, RustTyping.fns] using i2,
      by simpa [inputItem, implHeads] using i3⟩

theorem gen_congr {m : Layout} {a b : String} (h : l = m) (hn : unraw a = unraw b) : generatedName l a = generatedName m b := by
  subst h
  simp [generatedName, hn]

theorem heads_nodup (hn : ((ds.map fun d => generatedName d.2 d.1.name).map plainName).Nodup) : (ds.flatMap heads).Nodup := by
  have hp : ds.Pairwise fun a b => generatedName a.2 a.1.name ≠ generatedName b.2 b.1.name := by
    rw [List.map_map] at hn
    exact (List.pairwise_map.1 hn).imp fun h e => h (by simp [e])
  refine List.pairwise_flatMap.2 ⟨fun d _ => ?_, hp.imp fun {a b} h x hx y hy e => ?_⟩
  · obtain ⟨c, l⟩ := d
    cases l <;> simp [heads, Layout.traitName, asTraitName]
  · subst e
    obtain ⟨c, l⟩ := a
    obtain ⟨c', m⟩ := b
    simp only [heads, List.mem_cons, List.not_mem_nil, or_false] at hx hy
    have key : asTraitName l = asTraitName m → c.name = c'.name → False := by
      intro e1 e2
      exact h (gen_congr (by cases l <;> cases m <;> simp [asTraitName] at e1 ⊢) (congrArg unraw e2))
    rcases hx with rfl | rfl | rfl | rfl <;> rcases hy with hy | hy | hy | hy <;>
      simp only [Prod.mk.injEq, Option.some.injEq, TyExpr.path.injEq, Path.mk.injEq, List.cons.injEq, and_true, true_and] at hy
    all_goals first
      | exact h hy
      | exact h hy.2
      | exact key hy.1 hy.2
      | (exfalso; revert hy; cases l <;> cases m <;> simp [Layout.traitName, asTraitName] <;> exact fun _ => h)
      | (exfalso; revert hy; cases l <;> simp [Layout.traitName, asTraitName])
      | (exfalso; revert hy; cases m <;> simp [Layout.traitName, asTraitName])

theorem fns_nodup (hn : ((ds.map fun d => generatedName d.2 d.1.name).map plainName).Nodup) :
    ((ds.flatMap fun d => (List.range d.1.fields.length).map (padFnName d.2 d.1.name)).map plainName).Nodup := by
  have hp : ds.Pairwise fun a b => generatedName a.2 a.1.name ≠ generatedName b.2 b.1.name := by
    rw [List.map_map] at hn
    exact (List.pairwise_map.1 hn).imp fun h e => h (by simp [e])
  rw [List.map_flatMap]
  refine List.pairwise_flatMap.2 ⟨fun d _ => ?_, hp.imp fun {a b} h x hx y hy e => ?_⟩
  · rw [List.map_map]
    refine nodup_map_of_injective (fun a b hab => ?_) List.nodup_range
    simp only [Function.comp, plain_pad] at hab
    exact (padFnName_inj' hab).2.2
  · subst e
    simp only [List.map_map, List.mem_map, List.mem_range, Function.comp, plain_pad] at hx hy
    obtain ⟨i, -, rfl⟩ := hx
    obtain ⟨j, -, e⟩ := hy
    obtain ⟨h1, h2, -⟩ := padFnName_inj' e
    exact h (gen_congr h1 h2).symm

theorem glslHeads_nodup (hgs : gs.Nodup) (hsub : ∀ c ∈ gs, c ∈ cs) (hn : ((cs.map ClientStruct.name).map plainName).Nodup) :
    (gs.flatMap glslHeads).Nodup := by
  rw [List.map_map] at hn
  have hp : gs.Pairwise fun a b => a.name ≠ b.name := by
    refine List.Pairwise.imp_of_mem (fun {a b} ha hb h e => h ?_) hgs
    exact inj_of_nodup hn (hsub a ha) (hsub b hb) (by simp [e])
  refine List.pairwise_flatMap.2 ⟨fun d _ => by simp [glslHeads], hp.imp fun {a b} h x hx y hy e => ?_⟩
  subst e
  simp only [glslHeads, List.mem_cons, List.not_mem_nil, or_false] at hx hy
  rcases hx with rfl | rfl <;> rcases hy with hy | hy <;> simp at hy <;> exact h hy

/-- A crate with any number of structs and derives is well typed. -/
theorem crate_typed (h : Returned ds is) (hj : GlslReturned gs js) (hd : ∀ d ∈ ds, d.1 ∈ cs) (hg : ∀ c ∈ gs, c ∈ cs) (hgs : gs.Nodup)
    (hstd : gs ≠ [] → f.std = true)
    (hn : ((cs.map ClientStruct.name ++ ds.map fun d => generatedName d.2 d.1.name).map plainName).Nodup)
    (hfree : ∀ c ∈ cs, (ds ≠ [] → plainName c.name ∉ ["u8", "usize"]) ∧ (gs ≠ [] → plainName c.name ≠ "str"))
    (hfields : ∀ c ∈ cs, (c.fields.map fun x => plainName x.1).Nodup)
    (hr : ∀ d ∈ ds, ∀ x ∈ d.1.fields, plainName x.1 ∉ reservedNames d.1.fields.length)
    (hi : ∀ d ∈ ds, ∀ x ∈ d.1.fields, Implements (typingEnv f u) (crateProgram cs is js) (.given x.2) (asTraitName d.2))
    (hdbg : ∀ d ∈ ds, ∀ x ∈ d.1.fields, Implements (typingEnv f u) (crateProgram cs is js) (outputTy d.2 x.2) "Debug")
    (hs : ∀ d ∈ ds, d.1.fields ≠ [] → u.scope (asTraitName d.2))
    (ho : ∀ d ∈ ds, ∀ x ∈ d.1.fields, ¬ u.otherMethod (.given x.2) (Expand.asStdMethod d.2))
    (hglsl : ∀ c ∈ gs, ∀ x ∈ c.fields, Implements (typingEnv f u) (crateProgram cs is js) (.given x.2) "Glsl") :
    WellTyped (typingEnv f u) (crateProgram cs is js) := by
  obtain ⟨a1, a2, a3⟩ := inputs_eqs (f := f) (u := u) cs
  obtain ⟨b1, b2, b3⟩ := returned_eqs (f := f) (u := u) h
  obtain ⟨c1, c2, c3⟩ := glslReturned_eqs (f := f) (u := u) hj hstd
  have hn' := hn
  rw [List.map_append, List.nodup_append] at hn'
  have es : RustTyping.structs (crateProgram cs is js) = cs.map ClientStruct.name ++ ds.map fun d => generatedName d.2 d.1.name := by
    rw [crateProgram, structs_append, structs_append, a1, b1, c1, List.append_nil]
  have ef : RustTyping.fns (crateProgram cs is js) =
      ds.flatMap fun d => (List.range d.1.fields.length).map (padFnName d.2 d.1.name) := by
    rw [crateProgram, fns_append, fns_append, a2, b2, c2, List.append_nil, List.nil_append]
  have eh : implHeads (typingEnv f u) (crateProgram cs is js) = ds.flatMap heads ++ gs.flatMap glslHeads := by
    rw [crateProgram, implHeads_append, implHeads_append, a3, b3, c3, List.nil_append]
  have ns : ((RustTyping.structs (crateProgram cs is js)).map plainName).Nodup := by rw [es]; exact hn
  have nf : ((RustTyping.fns (crateProgram cs is js)).map plainName).Nodup := by rw [ef]; exact fns_nodup hn'.2.1
  have hprim : ∀ x ∈ ["u8", "usize", "str"], (∀ c ∈ cs, plainName c.name ≠ x) → structOf (crateProgram cs is js) x = none := by
    intro x hx hne
    have e : plainName x = x := by
      simp only [List.mem_cons, List.not_mem_nil, or_false] at hx
      rcases hx with rfl | rfl | rfl <;> decide +kernel
    refine structOf_none fun y hy => ?_
    rw [es] at hy
    rcases List.mem_append.1 hy with hy | hy
    · obtain ⟨c, hc, rfl⟩ := List.mem_map.1 hy
      rw [e]
      exact hne c hc
    · obtain ⟨d, -, rfl⟩ := List.mem_map.1 hy
      exact gen_not_prim _ _ x hx
  have hin : ∀ c ∈ cs, inputItem c.vis c.name [] c.fields ∈ crateProgram cs is js := fun c hc =>
    List.mem_append_left _ (List.mem_map.2 ⟨c, hc, rfl⟩)
  refine ⟨fun i hmem => ?_, ns, nf, ?_⟩
  · rcases List.mem_append.1 hmem with hm | hm
    · obtain ⟨c, hc, rfl⟩ := List.mem_map.1 hm
      refine ⟨by rw [List.map_map]; exact hfields c hc, fun y hy => ?_⟩
      obtain ⟨x, hx, rfl⟩ := List.mem_map.1 hy
      exact ⟨_, .spliced, fun q hq => (nomatch hq)⟩
    · rcases List.mem_append.1 hm with hm | hm
      · obtain ⟨d, hdm, es, he, hie, hall⟩ := returned_inv h i hm
        obtain ⟨g, hg', rfl⟩ := expansion_gen he
        refine layout_items_typed hg' (facts_in hg' (hin d.1 (hd d hdm)) (fun i hi => ?_) ns nf fun x hx => hprim x ?_ ?_)
          (hfields d.1 (hd d hdm)) (hr d hdm) (hi d hdm) (hdbg d hdm) (hs d hdm) (ho d hdm) i hie
        · exact List.mem_append_right _ (List.mem_append_left _ (hall i hi))
        · simp only [List.mem_cons, List.not_mem_nil, or_false] at hx ⊢
          rcases hx with h | h <;> simp [h]
        · intro c hc e
          exact (hfree c hc).1 (by rintro rfl; cases hdm) (e ▸ hx)
      · obtain ⟨c, hc, hic, hall⟩ := glslReturned_inv hj i hm
        have hne : gs ≠ [] := by rintro rfl; cases hc
        refine glsl_items_typed (hstd hne) (structOf_mem (hin c (hg c hc)) ns)
          (hprim _ (by simp) fun c hc => (hfree c hc).2 hne) ?_ (hglsl c hc) i hic
        exact .impl (u := true) (p := Expand.glslItem "Glsl")
          (List.mem_append_right _ (List.mem_append_right _ (hall _ (List.mem_cons_self ..)))) at_glsl
  · rw [eh]
    refine List.nodup_append.2 ⟨heads_nodup hn'.2.1, glslHeads_nodup hgs hg hn'.1, fun x hx y hy e => ?_⟩
    subst e
    obtain ⟨d, -, hx⟩ := List.mem_flatMap.1 hx
    obtain ⟨c, -, hy⟩ := List.mem_flatMap.1 hy
    obtain ⟨d, l⟩ := d
    simp only [heads, glslHeads, List.mem_cons, List.not_mem_nil, or_false] at hx hy
    rcases hx with rfl | rfl | rfl | rfl <;> cases l <;> simp [Layout.traitName, asTraitName] at hy

theorem glslReturned_mem (h : GlslReturned gs js) : ∀ c ∈ gs, ∀ i ∈ glslAst c.name [] c.fields, i ∈ js := by
  induction h with
  | nil => intro c hc; cases hc
  | cons h r ih =>
    have e := ClientProof.glslExpansion_items h
    subst e
    intro d hd i hi
    rcases List.mem_cons.1 hd with rfl | hd
    · exact List.mem_append_left _ hi
    · exact List.mem_append_right _ (ih d hd i hi)

/-- What a well-typed crate satisfies. -/
theorem crate_needs (h : Returned ds is) (hj : GlslReturned gs js) (hd : ∀ d ∈ ds, d.1 ∈ cs)
    (hself : ∀ c ∈ cs, c.name ≠ "Self") (hw : WellTyped (typingEnv f u) (crateProgram cs is js)) :
    gs.Nodup ∧ (gs ≠ [] → f.std = true) ∧
    ((cs.map ClientStruct.name ++ ds.map fun d => generatedName d.2 d.1.name).map plainName).Nodup ∧
    (∀ c ∈ cs, (ds ≠ [] → plainName c.name ∉ ["u8", "usize"]) ∧ (gs ≠ [] → plainName c.name ≠ "str")) ∧
    (∀ c ∈ cs, (c.fields.map fun x => plainName x.1).Nodup) ∧
    (∀ d ∈ ds, (∀ x ∈ d.1.fields, plainName x.1 ∉ reservedNames d.1.fields.length) ∧
      (∀ x ∈ d.1.fields, Implements (typingEnv f u) (crateProgram cs is js) (.given x.2) (asTraitName d.2)) ∧
      (∀ x ∈ d.1.fields, Implements (typingEnv f u) (crateProgram cs is js) (outputTy d.2 x.2) "Debug") ∧
      (d.1.fields ≠ [] → u.scope (asTraitName d.2)) ∧
      ∀ x ∈ d.1.fields, ¬ u.otherMethod (.given x.2) (Expand.asStdMethod d.2)) ∧
    ∀ c ∈ gs, ∀ x ∈ c.fields, Implements (typingEnv f u) (crateProgram cs is js) (.given x.2) "Glsl" := by
  obtain ⟨hok, ns, nf, nh⟩ := hw
  have hin : ∀ c ∈ cs, inputItem c.vis c.name [] c.fields ∈ crateProgram cs is js := fun c hc =>
    List.mem_append_left _ (List.mem_map.2 ⟨c, hc, rfl⟩)
  have gn : ∀ c ∈ gs, f.std = true ∧ structOf (crateProgram cs is js) "str" = none ∧
      ∀ x ∈ c.fields, Implements (typingEnv f u) (crateProgram cs is js) (.given x.2) "Glsl" := fun c hc =>
    glsl_items_need fun i hi => hok i (List.mem_append_right _ (List.mem_append_right _ (glslReturned_mem hj c hc i hi)))
  have hstd : gs ≠ [] → f.std = true := fun hne => by
    obtain ⟨c, hc⟩ := List.exists_mem_of_ne_nil _ hne
    exact (gn c hc).1
  have dn : ∀ d ∈ ds, (∀ z ∈ ["u8", "usize"], structOf (crateProgram cs is js) z = none) ∧
      (d.1.fields.map fun x => plainName x.1).Nodup ∧
      (∀ x ∈ d.1.fields, plainName x.1 ∉ reservedNames d.1.fields.length) ∧
      (∀ x ∈ d.1.fields, Implements (typingEnv f u) (crateProgram cs is js) (.given x.2) (asTraitName d.2)) ∧
      (∀ x ∈ d.1.fields, Implements (typingEnv f u) (crateProgram cs is js) (outputTy d.2 x.2) "Debug") ∧
      (d.1.fields ≠ [] → u.scope (asTraitName d.2)) ∧
      ∀ x ∈ d.1.fields, ¬ u.otherMethod (.given x.2) (Expand.asStdMethod d.2) := by
    intro d hdm
    obtain ⟨es, he, hall⟩ := returned_mem h d hdm
    obtain ⟨g, hg, rfl⟩ := expansion_gen he
    exact items_need hg (hself _ (hd d hdm))
      (fun i hi => hok i (List.mem_append_right _ (List.mem_append_left _ (hall i hi)))) (structOf_mem (hin d.1 (hd d hdm)) ns)
  obtain ⟨a1, a2, a3⟩ := inputs_eqs (f := f) (u := u) cs
  obtain ⟨b1, b2, b3⟩ := returned_eqs (f := f) (u := u) h
  obtain ⟨c1, c2, c3⟩ := glslReturned_eqs (f := f) (u := u) hj hstd
  have taken : ∀ c ∈ cs, ∀ z : String, plainName z = z → structOf (crateProgram cs is js) z = none → plainName c.name ≠ z := by
    intro c hc z hz hno e
    have h1 := structOf_mem (hin c hc) ns
    have : ∀ Q : List (Item RustCode.Ty), structOf Q z = structOf Q c.name := by
      intro Q
      induction Q with
      | nil => rfl
      | cons i Q ih =>
        cases i with
        | struct => simp only [structOf, ih, hz, e]
        | fn => exact ih
        | impl => exact ih
    rw [this, h1] at hno
    cases hno
  refine ⟨?_, hstd, ?_, fun c hc => ⟨fun hne => ?_, fun hne => ?_⟩, fun c hc => ?_, fun d hdm => (dn d hdm).2.2, fun c hc => (gn c hc).2.2⟩
  · rw [crateProgram, implHeads_append, implHeads_append, a3, b3, c3, List.nil_append] at nh
    have := (List.pairwise_flatMap.1 (List.nodup_append.1 nh).2.1).2
    exact this.imp fun {a b} hab e => hab _ (List.mem_cons_self ..) _ (e ▸ List.mem_cons_self ..) rfl
  · rw [crateProgram, structs_append, structs_append, a1, b1, c1, List.append_nil] at ns
    exact ns
  · obtain ⟨d, hdm⟩ := List.exists_mem_of_ne_nil _ hne
    intro hm
    have hz : ∀ z ∈ ["u8", "usize"], plainName z = z := by decide +kernel
    exact taken c hc _ (hz _ hm) ((dn d hdm).1 _ hm) rfl
  · obtain ⟨c', hc'⟩ := List.exists_mem_of_ne_nil _ hne
    exact taken c hc _ (by decide +kernel) (gn c' hc').2.1
  · have := (hok _ (hin c hc)).1
    rw [List.map_map] at this
    exact this

end

end Crevice.TypingProof
