import Verif.Proof.Typing
/-
Typing of the items that the derives emit: the items of `#[derive(AsStdN)]`.
-/
namespace Crevice.TypingProof
open RustSyntax RustTyping Tokens
variable {α : Type} {f : Features} {u : User α} {l : Layout} {P : List (Item α)}

/-! ### Names -/

theorem plain_gen (l : Layout) (name : String) : plainName (generatedName l name) = generatedName l name := by
  rw [plainName_eq_unraw]
  have : (generatedName l name).toList = 'S' :: ((l.traitName.toList.drop 1) ++ (unraw name).toList) := by
    cases l <;> simp [generatedName, Layout.traitName]
  unfold unraw
  rw [this]
  rfl

theorem plain_ne_gen (l : Layout) (name : String) : plainName name ≠ plainName (generatedName l name) := by
  rw [plain_gen, plainName_eq_unraw]
  intro h
  have := congrArg (fun s => s.toList.length) h
  cases l <;> simp [generatedName, Layout.traitName] at this <;> omega

theorem plain_pad (l : Layout) (name : String) (i : Nat) : plainName (padFnName l name i) = padFnName l name i := by
  rw [plainName_eq_unraw]
  have : ∃ r, (padFnName l name i).toList = '_' :: r := by
    simp [padFnName]
  obtain ⟨r, hr⟩ := this
  unfold unraw
  rw [hr]
  rfl

theorem gen_not_prim (l : Layout) (name : String) : ∀ x ∈ prims, plainName (generatedName l name) ≠ plainName x := by
  intro x hx h
  rw [plain_gen] at h
  have h' := congrArg (fun s => s.toList.head?) h
  simp only [prims, List.mem_cons, List.not_mem_nil, or_false] at hx
  rcases hx with rfl | rfl | rfl <;> cases l <;> simp [generatedName, Layout.traitName, plainName] at h'

/-! ### Looking items up -/

theorem structOf_pads (ps : List (String × CExpr α)) (r : List (Item α)) (x : String) :
    structOf (ps.map (padFnItem l) ++ r) x = structOf r x := by
  induction ps with
  | nil => rfl
  | cons p ps ih =>
    obtain ⟨n, e⟩ := p
    cases e <;> exact ih

theorem padItem (p : String × CExpr α) : ∃ off al, padFnItem l p = .fn (padFnAst l p.1 off al) := by
  obtain ⟨n, e⟩ := p
  cases e <;> exact ⟨_, _, rfl⟩

theorem padFn_of {ps : List (String × CExpr α)} {r : List (Item α)} {x : String} (h : x ∈ ps.map Prod.fst) :
    PadFn (ps.map (padFnItem l) ++ r) x := by
  induction ps with
  | nil => simp at h
  | cons p ps ih =>
    obtain ⟨off, al, hp⟩ := padItem (l := l) p
    simp only [List.map_cons, List.cons_append, PadFn, hp, fnOf]
    split
    · exact ⟨_, rfl, rfl, rfl, rfl⟩
    · rename_i hne
      rcases List.mem_cons.1 h with rfl | h
      · exact absurd rfl hne
      · exact ih h

/-- What is used of the program. -/
structure Facts (f : Features) (u : User α) (l : Layout) (name : String) (fields : List (String × α)) (P : List (Item α)) : Prop where
  usize : structOf P "usize" = none
  u8 : structOf P "u8" = none
  own : structOf P name = some ([], fields.map fun x => ⟨.inherited, x.1, .spliced x.2⟩)
  gen : ∃ gfs, structOf P (generatedName l name) = some ([], gfs) ∧ ∀ x ∈ fields, fieldAst l (x.1, .layoutOf x.2) ∈ gfs
  pads : ∀ i < fields.length, PadFn P (padFnName l name i)
  zeroable : Implements (typingEnv f u) P (.adt false (generatedName l name) []) "Zeroable"
  pod : Implements (typingEnv f u) P (.adt false (generatedName l name) []) "Pod"
  copy : Implements (typingEnv f u) P (.adt false (generatedName l name) []) "Copy"
  std : Implements (typingEnv f u) P (.adt false (generatedName l name) []) l.traitName

section
variable {name : String} {fields : List (String × α)} (F : Facts f u l name fields P)
include F

theorem res_gen {c : Ctx α} :
    Res (typingEnv f u) P c (.path ⟨false, [generatedName l name]⟩ []) (.adt false (generatedName l name) []) := by
  obtain ⟨gfs, h, -⟩ := F.gen
  exact .own h rfl

theorem field_own {x : String × α} (hx : x ∈ fields) :
    FieldTy (typingEnv f u) P (.adt false name []) x.1 (.given x.2) :=
  .own (f := ⟨.inherited, x.1, .spliced x.2⟩) F.own (List.mem_map.2 ⟨x, hx, rfl⟩) .spliced

theorem field_gen {x : String × α} (hx : x ∈ fields) (h : Implements (typingEnv f u) P (.given x.2) (asTraitName l)) :
    FieldTy (typingEnv f u) P (.adt false (generatedName l name) []) x.1 (outputTy l x.2) := by
  obtain ⟨gfs, h1, h2⟩ := F.gen
  exact .own (f := fieldAst l (x.1, .layoutOf x.2)) h1 (h2 x hx) (res_ver h)

theorem asBytes_typed : ItemOk (typingEnv f u) P (asBytesAst l (generatedName l name) []) := by
  refine ⟨generatedName l name, [], res_gen F, by simp, fun i hi => ?_⟩
  simp only [List.mem_singleton] at hi
  subst hi
  refine ⟨_, rfl, [.ref (.adt false (generatedName l name) [])], .ref (.slice (.prim "u8")), _, .self rfl .nil, rfl,
    .ref (.slice (.prim F.u8 (by simp [prims]))), .value ?_⟩
  exact .assocFn rfl (res_gen F) (at_std f u l) F.std (member_asBytes f u l)
    (Ps := [.ref (.adt false (generatedName l name) [])]) (by simp [sigFn, sigTy, prims]) (.cons (.var rfl) .nil)

theorem zeroed_typed {c : Ctx α} (hc : c.const = false) :
    HasTy (typingEnv f u) P c (.call (.path ⟨true, (Expand.bytemuckTrait "Zeroable").segments ++ ["zeroed"]⟩) [])
      (.adt false (generatedName l name) []) :=
  .traitFn hc (q := "Zeroable") (at_bytemuck f u (by simp)) F.zeroable (member_zeroed f u) (Ps := [])
    (by simp [sigFn, sigTy, prims]) .nil

theorem from_typed {c : Ctx α} (hc : c.const = false) (hv : c.vars.lookup "input" = some (.adt false (generatedName l name) []))
    {x : String × α} (hx : x ∈ fields) (h : Implements (typingEnv f u) P (.given x.2) (asTraitName l)) :
    HasTy (typingEnv f u) P c (fromExpr l x.1) (.given x.2) := by
  have e : splitPath ⟨true, (Expand.asStdTrait l).segments ++ [Expand.fromStdMethod l]⟩ = (Expand.asStdTrait l, Expand.fromStdMethod l) := by
    cases l <;> rfl
  refine .traitFn hc (q := asTraitName l) (by rw [e]; exact at_as f u l) h (by rw [e]; exact member_from f u l) (Ps := [outputTy l x.2])
    (by simp [sigFn, sigTy, prims, outputTy]) (.cons (.field (.var hv) (field_gen F hx h)) .nil)

theorem as_typed {c : Ctx α} (hc : c.const = false) (hv : c.vars.lookup "self" = some (.ref (.adt false name [])))
    {x : String × α} (hx : x ∈ fields) (h : Implements (typingEnv f u) P (.given x.2) (asTraitName l))
    (hs : u.scope (asTraitName l)) (ho : ¬ u.otherMethod (.given x.2) (Expand.asStdMethod l)) :
    HasTy (typingEnv f u) P c (asExpr l x.1) (outputTy l x.2) :=
  .method hc (.fieldRef (.var hv) (field_own F hx)) hs (member_as f u l) h ho (Ps := [])
    (by simp [sigFn, sigTy, prims, outputTy]) .nil

theorem inits_typed {c : Ctx α} {T : Typ α} {e : String × α → Expr α} {ty : String × α → Typ α} (fs : List (String × α))
    (h1 : ∀ x ∈ fs, FieldTy (typingEnv f u) P T x.1 (ty x)) (h2 : ∀ x ∈ fs, HasTy (typingEnv f u) P c (e x) (ty x)) :
    Inits (typingEnv f u) P c T (fs.map fun x => (x.1, e x)) := by
  clear F
  induction fs with
  | nil => exact .nil
  | cons x r ih =>
    exact .cons (h1 x (by simp)) (h2 x (by simp)) (ih (fun y hy => h1 y (by simp [hy])) fun y hy => h2 y (by simp [hy]))

theorem asTrait_typed (hi : ∀ x ∈ fields, Implements (typingEnv f u) P (.given x.2) (asTraitName l))
    (hs : fields ≠ [] → u.scope (asTraitName l)) (ho : ∀ x ∈ fields, ¬ u.otherMethod (.given x.2) (Expand.asStdMethod l))
    (hn : (fields.map fun x => plainName x.1).Nodup) :
    ItemOk (typingEnv f u) P (asTraitAst l name (generatedName l name) [] fields) := by
  have hn' : ∀ e : String × α → Expr α, ((fields.map fun x => (x.1, e x)).map fun i => plainName i.1).Nodup := by
    intro e
    rw [List.map_map]
    exact hn
  refine ⟨name, [], asTraitName l, asDecl l, [("Output", .adt false (generatedName l name) [])], .own F.own rfl, at_as f u l,
    traits_as f u l, rfl, fun b hb => (nomatch hb), by cases l <;> simp [assocName, asFnAst, fromFnAst, Expand.asStdMethod, Expand.fromStdMethod], ?_, fun i hmem => ?_⟩
  · intro m hm hr
    simp only [asDecl, List.mem_cons, List.not_mem_nil, or_false] at hm
    rcases hm with rfl | rfl | rfl | rfl
    · simp [RustCode.Member.name, assocName]
    · simp [RustCode.Member.name, assocName, asFnAst]
    · simp [RustCode.Member.required] at hr
    · simp [RustCode.Member.name, assocName, fromFnAst]
  · simp only [List.mem_cons, List.not_mem_nil, or_false] at hmem
    rcases hmem with rfl | rfl | rfl
    · exact ⟨_, _, member_output f u l, res_gen F, rfl, fun b hb => ⟨l.traitName, by simpa using hb, F.std⟩⟩
    · refine ⟨_, _, _, _, [.ref (.adt false name [])], .adt false (generatedName l name) [], member_as f u l,
        by simp [sigFn, sigTy, prims], rfl, _, .self rfl .nil, rfl, .assoc rfl, .value ?_⟩
      obtain ⟨gfs, h1, h2⟩ := F.gen
      refine .update (.assoc rfl) (ns := gfs.map Field.name) (by simp [fieldNames, h1])
        (inits_typed (e := fun x => asExpr l x.1) (ty := fun x => outputTy l x.2) F fields (fun x hx => field_gen F hx (hi x hx))
          fun x hx => as_typed F rfl rfl hx (hi x hx) (hs fun h => by rw [h] at hx; cases hx) (ho x hx))
        (hn' _) (zeroed_typed F rfl)
    · refine ⟨_, _, _, _, [.adt false (generatedName l name) []], .adt false name [], member_from f u l,
        by simp [sigFn, sigTy, prims], rfl, _, .typed (.assoc rfl) .nil, rfl, .self rfl, .value ?_⟩
      refine .struct (.self rfl) (ns := fields.map Prod.fst) (by simp [fieldNames, F.own, Function.comp_def])
        (inits_typed (e := fun x => fromExpr l x.1) (ty := fun x => .given x.2) F fields (fun x hx => field_own F hx)
          fun x hx => from_typed F rfl rfl hx (hi x hx)) (hn' _) ?_
      intro x hx
      simpa using hx

end

/-! ### All items -/

/-- The program: the struct and what the derive adds. -/
def program (l : Layout) (vis : Vis) (name : String) (fields : List (String × α)) (g : Generated α) : List (Item α) :=
  inputItem vis name [] fields :: ast l vis name [] fields g

theorem mem_genFields {l : Layout} {name : String} {fields : List (String × α)} {y : String × GenTy α} :
    y ∈ ((fields.zipIdx.map fun x => [(x.1.1, GenTy.layoutOf x.1.2),
        (padFieldName x.2, GenTy.padBytes (padFnName l name x.2))]).flatten) ↔
      (∃ x ∈ fields, y = (x.1, .layoutOf x.2)) ∨ ∃ i < fields.length, y = (padFieldName i, .padBytes (padFnName l name i)) := by
  simp only [List.mem_flatten, List.mem_map]
  constructor
  · rintro ⟨_, ⟨x, hx, rfl⟩, hy⟩
    simp only [List.mem_cons, List.not_mem_nil, or_false] at hy
    have hm := List.mem_zipIdx hx
    rcases hy with rfl | rfl
    · refine .inl ⟨x.1, ?_, rfl⟩
      rw [hm.2.2]; exact List.getElem_mem _
    · exact .inr ⟨x.2, by omega, rfl⟩
  · rintro (⟨x, hx, rfl⟩ | ⟨i, hi, rfl⟩)
    · obtain ⟨i, hi, rfl⟩ := List.mem_iff_getElem.1 hx
      exact ⟨_, ⟨(fields[i], i), List.mem_zipIdx_iff_getElem?.2 (by simp [hi]), rfl⟩, by simp⟩
    · exact ⟨_, ⟨(fields[i], i), List.mem_zipIdx_iff_getElem?.2 (by simp [hi]), rfl⟩, by simp⟩

theorem facts {vis : Vis} {name : String} {fields : List (String × α)} {g : Generated α}
    (hg : emitLayout l ⟨name, [], .structNamed fields⟩ = .ok g) (hp : plainName name ∉ ["u8", "usize"]) :
    Facts f u l name fields (program l vis name fields g) := by
  obtain ⟨fields', he, h1, h2, h3, h4, h5, -⟩ := emitLayout_inv hg
  injection he with he
  subst he
  have hmem : ∀ i ∈ [structAst l vis g, asBytesAst l g.structName [],
     .impl true [] (some (Expand.bytemuckTrait "Zeroable")) (.path ⟨false, [g.structName]⟩ []) [],
     .impl true [] (some (Expand.bytemuckTrait "Pod")) (.path ⟨false, [g.structName]⟩ []) [],
     .impl true [] (some (Expand.stdTrait l)) (.path ⟨false, [g.structName]⟩ [])
       [.const "ALIGNMENT" (.path ⟨false, ["usize"]⟩ []) (rust l g.alignment)],
     asTraitAst l name g.structName [] fields], i ∈ program l vis name fields g := by
    intro i hi
    exact List.mem_cons_of_mem _ (List.mem_append_right _ hi)
  have hs : ∀ x, plainName name ≠ plainName x → structOf (program l vis name fields g) x =
      if plainName g.structName = plainName x then some ([], g.fields.map (fieldAst l)) else none := by
    intro x hx
    rw [program, inputItem, structOf, if_neg hx, ast, structOf_pads]
    simp [structAst, structOf, asBytesAst, asTraitAst, h5]
  have hprim : ∀ x ∈ ["u8", "usize"], structOf (program l vis name fields g) x = none := by
    intro x hx
    have e : plainName x = x := by
      simp only [List.mem_cons, List.not_mem_nil, or_false] at hx
      rcases hx with rfl | rfl <;> decide +kernel
    rw [hs x (by rw [e]; intro h; exact hp (h ▸ hx)), h1,
      if_neg (gen_not_prim l name x (by simp only [prims, List.mem_cons, List.not_mem_nil, or_false] at hx ⊢; rcases hx with h | h <;> simp [h]))]
  refine ⟨hprim _ (by simp), hprim _ (by simp), by simp [program, inputItem, structOf], ⟨g.fields.map (fieldAst l), ?_, ?_⟩, ?_, ?_, ?_, ?_, ?_⟩
  · exact (hs _ (plain_ne_gen l name)).trans (by rw [h1, if_pos rfl])
  · intro x hx
    rw [h3]
    exact List.mem_map.2 ⟨_, mem_genFields.2 (.inl ⟨x, hx, rfl⟩), rfl⟩
  · intro i hi
    have : PadFn (ast l vis name [] fields g) (padFnName l name i) :=
      padFn_of (by rw [h2]; simp only [List.map_map, List.mem_map, List.mem_range]; exact ⟨i, hi, rfl⟩)
    exact this
  · rw [← h1]
    exact .impl (u := true) (items := []) (hmem _ (by simp)) (at_bytemuck f u (by simp))
  · rw [← h1]
    exact .impl (u := true) (items := []) (hmem _ (by simp)) (at_bytemuck f u (by simp))
  · rw [← h1]
    have := hmem (structAst l vis g) (by simp)
    rw [structAst, h5] at this
    exact .derive this (by simp [derives, RustTyping.words])
  · rw [← h1]
    exact .impl (u := true) (hmem (.impl true [] (some (Expand.stdTrait l)) (.path ⟨false, [g.structName]⟩ [])
       [.const "ALIGNMENT" (.path ⟨false, ["usize"]⟩ []) (rust l g.alignment)]) (by simp)) (at_std f u l)

/-- The items of the derive are well typed in every program with the facts. -/
theorem layout_items_typed {vis : Vis} {name : String} {fields : List (String × α)} {g : Generated α}
    (hg : emitLayout l ⟨name, [], .structNamed fields⟩ = .ok g) (F : Facts f u l name fields P)
    (hn : (fields.map fun x => plainName x.1).Nodup) (hr : ∀ x ∈ fields, plainName x.1 ∉ reservedNames fields.length)
    (hi : ∀ x ∈ fields, Implements (typingEnv f u) P (.given x.2) (asTraitName l))
    (hd : ∀ x ∈ fields, Implements (typingEnv f u) P (outputTy l x.2) "Debug")
    (hs : fields ≠ [] → u.scope (asTraitName l)) (ho : ∀ x ∈ fields, ¬ u.otherMethod (.given x.2) (Expand.asStdMethod l)) :
    ∀ i ∈ ast l vis name [] fields g, ItemOk (typingEnv f u) P i := by
  obtain ⟨fields', he, h1, h2, h3, h4, h5, -⟩ := emitLayout_inv hg
  injection he with he
  subst he
  intro i hmem
  rcases List.mem_append.1 hmem with hm | hm
  · obtain ⟨p, hp', rfl⟩ := List.mem_map.1 hm
    rw [h2] at hp'
    obtain ⟨i, hi', rfl⟩ := List.mem_map.1 hp'
    have hi'' : i < fields.length := List.mem_range.1 hi'
    rw [dif_pos hi'']
    exact fn_pad hi F.usize F.pads hi''
  · simp only [List.mem_cons, List.not_mem_nil, or_false] at hm
    rcases hm with rfl | rfl | rfl | rfl | rfl | rfl
    · refine ⟨?_, fun y hy => ?_⟩
      · rw [List.map_map]
        refine (genFieldNames_nodup hg).2 ⟨hn, fun x hx => ?_⟩
        obtain ⟨y, hy, rfl⟩ := List.mem_map.1 hx
        exact hr y hy
      · obtain ⟨z, hz, rfl⟩ := List.mem_map.1 hy
        rw [h3] at hz
        rcases mem_genFields.1 hz with ⟨x, hx, rfl⟩ | ⟨i, hi', rfl⟩
        · refine ⟨outputTy l x.2, res_ver (hi x hx), fun q hq => ?_⟩
          change q ∈ ["Debug", "Clone", "Copy"] at hq
          simp only [List.mem_cons, List.not_mem_nil, or_false] at hq
          rcases hq with rfl | rfl | rfl
          · exact hd x hx
          · exact clone_std (bound_std (hi x hx))
          · exact copy_std (bound_std (hi x hx))
        · refine ⟨.array (.prim "u8") (callExpr (padFnName l name i)), .array (.prim F.u8 (by simp [prims]))
            (ty_call (F.pads i hi') F.usize rfl), fun q hq => ?_⟩
          change q ∈ ["Debug", "Clone", "Copy"] at hq
          simp only [List.mem_cons, List.not_mem_nil, or_false] at hq
          have hq : q ∈ simple := by rcases hq with rfl | rfl | rfl <;> simp [simple]
          exact .array (.prim (by simp) hq) hq
    · rw [h1]
      exact asBytes_typed F
    · rw [h1]
      exact ⟨_, [], "Zeroable", ⟨true, [], [.fn "zeroed" .static [] (.path ["Self"] []) false]⟩, [], res_gen F,
        at_bytemuck f u (by simp), traits_outside f u (by simp [outsideDecls]), rfl,
        fun b hb => (nomatch hb), by simp, by simp [RustCode.Member.required], fun i hi => (nomatch hi)⟩
    · rw [h1]
      refine ⟨_, [], "Pod", ⟨true, [.path ["Zeroable"] [], .path ["Copy"] []], []⟩, [], res_gen F, at_bytemuck f u (by simp),
        traits_outside f u (by simp [outsideDecls]), rfl, fun b hb => ?_, by simp, by simp, fun i hi => (nomatch hi)⟩
      simp only [List.mem_cons, List.not_mem_nil, or_false] at hb
      rcases hb with rfl | rfl
      · exact ⟨_, rfl, F.zeroable⟩
      · exact ⟨_, rfl, F.copy⟩
    · rw [h1, h4]
      refine ⟨_, [], _, stdDecl, [], res_gen F, at_std f u l, traits_std f u l, rfl, fun b hb => ?_, by simp, ?_, fun i hmi => ?_⟩
      · simp only [stdDecl, List.mem_cons, List.not_mem_nil, or_false] at hb
        rcases hb with rfl | rfl | rfl
        · exact ⟨_, rfl, F.copy⟩
        · exact ⟨_, rfl, F.zeroable⟩
        · exact ⟨_, rfl, F.pod⟩
      · intro m hm hr
        simp only [stdDecl, List.mem_cons, List.not_mem_nil, or_false] at hm
        rcases hm with rfl | rfl
        · simp [RustCode.Member.name, assocName]
        · simp [RustCode.Member.required] at hr
      · simp only [List.mem_cons, List.not_mem_nil, or_false] at hmi
        subst hmi
        exact ⟨_, _, .usize, member_alignment f u l, sig_usize _ _ _, .prim F.usize (by simp [prims]), ty_alignment hi⟩
    · rw [h1]
      exact asTrait_typed F hi hs ho hn

theorem typed {vis : Vis} {name : String} {fields : List (String × α)} {g : Generated α}
    (hg : emitLayout l ⟨name, [], .structNamed fields⟩ = .ok g) (hp : plainName name ∉ ["u8", "usize"])
    (hn : (fields.map fun x => plainName x.1).Nodup) (hr : ∀ x ∈ fields, plainName x.1 ∉ reservedNames fields.length)
    (hi : ∀ x ∈ fields, Implements (typingEnv f u) (program l vis name fields g) (.given x.2) (asTraitName l))
    (hd : ∀ x ∈ fields, Implements (typingEnv f u) (program l vis name fields g) (outputTy l x.2) "Debug")
    (hs : fields ≠ [] → u.scope (asTraitName l)) (ho : ∀ x ∈ fields, ¬ u.otherMethod (.given x.2) (Expand.asStdMethod l)) :
    WellTyped (typingEnv f u) (program l vis name fields g) := by
  have F : Facts f u l name fields (program l vis name fields g) := facts hg hp
  obtain ⟨fields', he, h1, h2, h3, h4, h5, -⟩ := emitLayout_inv hg
  injection he with he
  subst he
  have hv : plainName name ≠ plainName (generatedName l name) := plain_ne_gen l name
  refine ⟨fun i hmem => ?_, ?_, ?_, ?_⟩
  · rcases List.mem_cons.1 hmem with rfl | hmem
    · refine ⟨by rw [List.map_map]; exact hn, fun y hy => ?_⟩
      obtain ⟨x, hx, rfl⟩ := List.mem_map.1 hy
      exact ⟨_, .spliced, fun q hq => (nomatch hq)⟩
    · exact layout_items_typed hg F hn hr hi hd hs ho i hmem
  · have e : ∀ ps : List (String × CExpr α), ∀ r, RustTyping.structs (ps.map (padFnItem l) ++ r) = RustTyping.structs r := by
      intro ps r
      induction ps with
      | nil => rfl
      | cons p ps ih =>
        obtain ⟨off, al, hp⟩ := padItem (l := l) p
        simp only [List.map_cons, List.cons_append, hp, RustTyping.structs, ih]
    simp only [program, inputItem, RustTyping.structs, ast, e]
    simp [structAst, asBytesAst, asTraitAst, RustTyping.structs, h1]
    exact hv
  · have e : ∀ ps : List (String × CExpr α), ∀ r, RustTyping.fns (ps.map (padFnItem l) ++ r) = ps.map Prod.fst ++ RustTyping.fns r := by
      intro ps r
      induction ps with
      | nil => rfl
      | cons p ps ih =>
        obtain ⟨off, al, hp⟩ := padItem (l := l) p
        simp [List.map_cons, List.cons_append, hp, RustTyping.fns, ih, padFnAst]
    simp only [program, inputItem, RustTyping.fns, ast, e]
    simp only [structAst, asBytesAst, asTraitAst, RustTyping.fns, List.append_nil, h2, List.map_map]
    refine nodup_map_of_injective (fun a b hab => ?_) List.nodup_range
    simp only [Function.comp, plain_pad] at hab
    exact (padFnName_inj' hab).2.2
  · have e : ∀ ps : List (String × CExpr α), ∀ r, implHeads (typingEnv f u) (ps.map (padFnItem l) ++ r) = implHeads (typingEnv f u) r := by
      intro ps r
      induction ps with
      | nil => rfl
      | cons p ps ih =>
        obtain ⟨off, al, hp⟩ := padItem (l := l) p
        simp only [List.map_cons, List.cons_append, hp, implHeads, ih]
    simp only [program, inputItem, implHeads, ast, e, structAst, asBytesAst, asTraitAst, at_std, at_as,
      at_bytemuck f u (x := "Zeroable") (by simp), at_bytemuck f u (x := "Pod") (by simp)]
    cases l <;> simp [Layout.traitName, asTraitName]

end Crevice.TypingProof
