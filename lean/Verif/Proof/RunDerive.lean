import Verif.Proof.Macro
import Verif.Model.TextDerive
import Verif.Source.ParsedDerive
/-
The text of the derive macros, executed symbolically.
-/
namespace Crevice.Expand
open RustMacro Tokens
open RustCode (Parsed.deriveLayout3_emit)
variable {α : Type}

theorem withoutRaw_eq (s : String) : withoutRaw s = unraw s := by
  unfold withoutRaw unraw
  rcases s.toList with _ | ⟨a, _ | ⟨b, r⟩⟩
  · rfl
  · simp
  · by_cases h : a = 'r' ∧ b = '#'
    · obtain ⟨rfl, rfl⟩ := h; rfl
    · rw [if_neg (by simpa using h)]
      split
      · rename_i h'; simp at h'; exact absurd ⟨h'.1, h'.2.1⟩ h
      · rfl

theorem paramTokens_eq (gs : List String) : (paramTokens gs : List (Out α)) = genericsTokens gs := by
  cases gs <;> rfl

@[simp] theorem withoutRaw_trait (l : Layout) : withoutRaw l.traitName = l.traitName := by cases l <;> decide +kernel
@[simp] theorem withoutRaw_mod (l : Layout) : withoutRaw l.modName = l.modName := by cases l <;> decide +kernel

@[simp] theorem unraw_trait (l : Layout) : unraw l.traitName = l.traitName := by cases l <;> decide +kernel
@[simp] theorem unraw_mod (l : Layout) : unraw l.modName = l.modName := by cases l <;> decide +kernel

set_option maxRecDepth 100000
set_option maxHeartbeats 4000000

/-- The statements of `emit`. -/
def stmts : List RustCode.Stmt :=
  match Parsed.deriveLayout3_emit.body with
  | some (.block ss _) => ss
  | _ => []

/-- The body of the closure that statement `i` binds. -/
def closureBody (i : Nat) : RustCode.Expr :=
  match stmts[i]? with
  | some (.bind _ _ _ (.closure _ b)) => b
  | _ => .unit

/-- `offset_after_field`. -/
theorem offset_run (p : Program) (l : Layout) (fs : List (String × α)) (padFns : List String) (env : Env α) (ver : Val α)
    (hver : ∀ k t, apply { prog := p, run := run p (k + 1) } ver [.ty t] = .val (.toks (layoutVersionOfTy l t)))
    (h1 : List.lookup "layout_version_of_ty" env = some ver)
    (h2 : List.lookup "fields" env = some (.list (fs.map synField)))
    (h3 : List.lookup "pad_fns" env = some (.list (padFns.map .ident))) (k t : Nat) :
    run p (k + 2) [.var "target"] (closureBody 18) env [.int t] =
      outcome DeriveError.message .toks (Tokens.offsetAfterField l fs padFns t) := by
  simp only [run_succ, bindsAll, binds, List.cons_append, List.nil_append]
  refine eval_block ?_
  refine Steps.bindCons _ (.list [.toks [.int 0 "usize"]]) (by simp [rustMacro]) rfl ?_
  refine Steps.fold DeriveError.message .int .toks (fun os => ("output", .list (os.map .toks)) :: ("target", .int t) :: env)
    _ (List.range (t + 1)) [[.int 0 "usize"]] ?_ ?_ ?_
  · simp [rustMacro, List.range_eq_range']
  · intro os i
    let a (f : String × α) : List (Out α) := [.punct .plus, .punct .colon2, .ident "core", .punct .colon2, .ident "mem",
      .punct .colon2, .ident "size_of", .punct .colon2, .punct .lt] ++ layoutVersionOfTy l f.2 ++
      [.punct .gt, .punct .lparen, .punct .rparen]
    let b (q : String) : List (Out α) := [.punct .plus, .ident q, .punct .lparen, .punct .rparen]
    cases hf : fs[i]? with
    | none =>
      refine .inr ⟨.indexOutOfBounds, ("output", .list (os.map .toks)) :: ("target", .int t) :: env, ?_, ?_⟩
      · simp [Crevice.index, hf, bind, Except.bind]
      · simp [rustMacro, inScope, h2, hf, DeriveError.message]
    | some f =>
      by_cases hi : i < t
      · cases hp : padFns[i]? with
        | none =>
          refine .inr ⟨.indexOutOfBounds, ("output", .list ((os ++ [a f]).map .toks)) :: ("target", .int t) :: env, ?_, ?_⟩
          · simp [Crevice.index, hf, hp, hi, bind, Except.bind, Functor.map, Except.map]
          · simp [rustMacro, inScope, setVar, Env.set, h1, h2, h3, hf, hp, hi, hver, synField, List.lookup, DeriveError.message, a]
        | some q =>
          refine .inl ⟨os ++ [a f, b q], ?_, ?_⟩
          · simp [Crevice.index, hf, hp, hi, bind, Except.bind, Functor.map, Except.map, a, b]
            rfl
          · simp [rustMacro, inScope, setVar, Env.set, h1, h2, h3, hf, hp, hi, hver, synField, List.lookup, a, b]
      · refine .inl ⟨os ++ [a f], ?_, ?_⟩
        · simp [Crevice.index, hf, hi, bind, Except.bind, pure, Except.pure, a]
        · simp [rustMacro, inScope, setVar, Env.set, h1, h2, hf, hi, hver, synField, List.lookup, a]
  · intro os'
    refine Steps.last ?_
    have := concatTokens_map (fun x : List (Out α) => x) os'
    simp only [List.map_id'] at this
    simp [rustMacro, this]

/-- The body of the closure that statement `i` maps over a list. -/
def mapBody (i : Nat) : RustCode.Expr :=
  match stmts[i]? with
  | some (.bind _ _ _ (.method (.method _ _ [.closure _ b]) _ _)) => b
  | _ => .unit

/-- An element of `pad_fn_impls`. -/
theorem padFn_run (p : Program) (l : Layout) (fs : List (String × α)) (padFns : List String) (env : Env α) (off alg : Val α)
    (hoff : ∀ k t, apply { prog := p, run := run p (k + 2) } off [.int t] =
      outcome DeriveError.message .toks (Tokens.offsetAfterField l fs padFns t))
    (halg : ∀ k t, apply { prog := p, run := run p (k + 1) } alg [.ty t] = .val (.toks (layoutAlignmentOfTy l t)))
    (h1 : List.lookup "offset_after_field" env = some off)
    (h2 : List.lookup "fields" env = some (.list (fs.map synField)))
    (h3 : List.lookup "layout_alignment_of_ty" env = some alg)
    (h4 : List.lookup "struct_alignment" env = some (.toks (Tokens.structAlignment l fs))) (k i : Nat) (q : String) :
    run p (k + 3) [.tuple ["index", "pad_fn"]] (mapBody 19) env [.tuple [.int i, .ident q]] =
      outcome DeriveError.message .toks (Tokens.padFnImpl l fs padFns i q) := by
  simp only [run_succ, bindsAll, binds, List.cons_append, List.nil_append, List.length_cons, List.length_nil,
    if_true, List.zip_cons_cons, List.zip_nil_right]
  refine eval_block ?_
  cases ho : Tokens.offsetAfterField l fs padFns i with
  | error e =>
    rw [Tokens.padFnImpl, ho]
    exact Steps.panics (env' := _) (by simp [rustMacro, h1, hoff, ho, outcome]; rfl)
  | ok o =>
    refine Steps.bind _ (.toks o) (by simp [rustMacro, h1, hoff, ho, outcome]) rfl fun env1 e1 => ?_
    refine Steps.bind _ (.toks (match fs[i + 1]? with
      | some f => layoutAlignmentOfTy l f.2
      | none => Tokens.structAlignment l fs)) ?_ rfl fun env2 e2 => ?_
    · cases hf : fs[i + 1]? with
      | none => simp [rustMacro, e1 _, h2, h4, hf]
      | some f => simp [rustMacro, run_succ, e1 _, h2, h3, h4, hf, halg, synField, List.lookup]
    · refine Steps.last ?_
      simp [rustMacro, e1 _, e2 _, Tokens.padFnImpl, ho, bind, Except.bind, pure, Except.pure, docTokens, outcome, internalPath]
      cases fs[i + 1]? <;> rfl

/-- An element of `generated_struct_fields`. -/
theorem structField_run (p : Program) (l : Layout) (padFns : List String) (env : Env α) (ver : Val α)
    (hver : ∀ k t, apply { prog := p, run := run p (k + 1) } ver [.ty t] = .val (.toks (layoutVersionOfTy l t)))
    (h1 : List.lookup "layout_version_of_ty" env = some ver)
    (h2 : List.lookup "pad_fns" env = some (.list (padFns.map .ident))) (k i : Nat) (f : String × α) :
    run p (k + 2) [.tuple ["index", "field"]] (mapBody 20) env [.tuple [.int i, synField f]] =
      outcome DeriveError.message .toks (generatedStructField l padFns i f) := by
  simp only [run_succ, bindsAll, binds, List.cons_append, List.nil_append, List.length_cons, List.length_nil,
    if_true, List.zip_cons_cons, List.zip_nil_right]
  refine eval_block ?_
  refine Steps.bind _ (.ident f.1) (by simp [rustMacro, synField, List.lookup]) rfl fun env1 e1 => ?_
  refine Steps.bind _ (.toks (layoutVersionOfTy l f.2)) (by simp [rustMacro, e1 _, synField, List.lookup, h1, hver])
    rfl fun env2 e2 => ?_
  refine Steps.bind _ (.ident (padFieldName i)) (by simp [rustMacro, between, e1 _, e2 _, padFieldName]) rfl
    fun env3 e3 => ?_
  cases hp : padFns[i]? with
  | none =>
    have : generatedStructField l padFns i f = .error .indexOutOfBounds := by
      simp [generatedStructField, Crevice.index, hp, bind, Except.bind]
    rw [this]
    exact Steps.panics (env' := _) (by simp [rustMacro, e1 _, e2 _, e3 _, h2, hp, DeriveError.message]; rfl)
  | some q =>
    refine Steps.bind _ (.ident q) (by simp [rustMacro, e1 _, e2 _, e3 _, h2, hp]) rfl fun env4 e4 => ?_
    refine Steps.last ?_
    simp [rustMacro, e1 _, e2 _, e3 _, e4 _, generatedStructField, Crevice.index, hp, bind, Except.bind, pure, Except.pure,
      outcome]

/-- An element of `generated_struct_field_init`. -/
theorem init_run (p : Program) (l : Layout) (env : Env α)
    (h1 : List.lookup "as_trait_method" env = some (.ident (asTraitMethod l))) (k : Nat) (f : String × α) :
    run p (k + 1) [.var "field"] (mapBody 21) env [synField f] = .val (.toks (generatedStructFieldInit l f)) := by
  simp only [run_succ, bindsAll, binds, List.cons_append, List.nil_append]
  refine eval_block ?_
  refine Steps.bind _ (.ident f.1) (by simp [rustMacro, synField, List.lookup]) rfl fun env1 e1 => ?_
  refine Steps.last ?_
  simp [rustMacro, e1 _, h1, generatedStructFieldInit]

/-- An element of `input_struct_field_init`. -/
theorem inputInit_run (p : Program) (l : Layout) (env : Env α)
    (h1 : List.lookup "as_trait_path" env = some (.toks (asTraitPath l)))
    (h2 : List.lookup "from_trait_method" env = some (.ident (fromTraitMethod l))) (k : Nat) (f : String × α) :
    run p (k + 1) [.var "field"] (mapBody 22) env [synField f] = .val (.toks (inputStructFieldInit l f)) := by
  simp only [run_succ, bindsAll, binds, List.cons_append, List.nil_append]
  refine eval_block ?_
  refine Steps.bind _ (.ident f.1) (by simp [rustMacro, synField, List.lookup]) rfl fun env1 e1 => ?_
  refine Steps.last ?_
  simp [rustMacro, e1 _, h1, h2, inputStructFieldInit]

/-- The body of the closure in `debug_methods`. -/
def debugBody : RustCode.Expr :=
  match stmts[(24 : Nat)]? with
  | some (.bind _ _ _ (.cond _ (.block ss _) _)) =>
    match ss with
    | [.bind _ _ _ (.method (.method _ _ [.closure _ b]) _ _)] => b
    | _ => .unit
  | _ => .unit

/-- `debug_methods`. -/
def debugExpr : RustCode.Expr :=
  match stmts[(24 : Nat)]? with
  | some (.bind _ _ _ e) => e
  | _ => .unit

/-- An element of `debug_fields`. -/
theorem debugField_run (p : Program) (env : Env α) (k : Nat) (f : String × α) :
    run p (k + 1) [.var "field"] debugBody env [synField f] = .val (.toks (debugField f)) := by
  simp only [run_succ, bindsAll, binds, List.cons_append, List.nil_append]
  refine eval_block ?_
  refine Steps.bind _ (.ident f.1) (by simp [rustMacro, synField, List.lookup]) rfl fun env1 e1 => ?_
  refine Steps.bind _ (.ty f.2) (by simp [rustMacro, e1 _, synField, List.lookup]) rfl fun env2 e2 => ?_
  refine Steps.last ?_
  simp [rustMacro, e1 _, e2 _, debugField]

theorem eval_cond_true {cx : Ctx α} {c t e : RustCode.Expr} {env : Env α} {r : Res (Val α) × Env α}
    (hc : eval cx c env = (.val (.bool true), env)) (h : eval cx t env = r) : eval cx (.cond c t e) env = r := by
  simp [eval, M.bind, hc, ifVal, h]

theorem eval_cond_false {cx : Ctx α} {c t e : RustCode.Expr} {env : Env α} {r : Res (Val α) × Env α}
    (hc : eval cx c env = (.val (.bool false), env)) (h : eval cx e env = r) : eval cx (.cond c t e) env = r := by
  simp [eval, M.bind, hc, ifVal, h]

theorem emit_run (p : Program) (n : Nat) (l : Layout) (vis : RustSyntax.Vis) (input : DeriveInput α) :
    run p (n + 4) (Parsed.deriveLayout3_emit.params.map fun x => .var x.1) (Parsed.deriveLayout3_emit.body.getD .unit) []
      [synInput vis input, .str l.traitName, .str l.modName, .int l.minStructAlignment] =
      outcome DeriveError.message .toks (emitAll l (p.features.contains "debug-methods") vis input) := by
  have h0 : ∀ k : String, List.lookup k ([("input", synInput vis input), ("trait_name", .str l.traitName), ("mod_name", .str l.modName),
    ("min_struct_alignment", .int l.minStructAlignment)] : Env α) = if k = "input" then some (synInput vis input) else
    if k = "trait_name" then some (.str l.traitName) else if k = "mod_name" then some (.str l.modName) else
    if k = "min_struct_alignment" then some (.int l.minStructAlignment) else none := by
    intro k; simp only [lookup_cons]; rfl
  rw [run]
  simp only [Parsed.deriveLayout3_emit, List.map_cons, List.map_nil, bindsAll, binds, List.cons_append, List.nil_append,
    Option.getD_some]
  generalize ([("input", synInput vis input), ("trait_name", .str l.traitName), ("mod_name", .str l.modName),
    ("min_struct_alignment", .int l.minStructAlignment)] : Env α) = env0 at h0
  refine eval_block ?_
  -- mod_name, trait_name
  refine Steps.bind _ (.ident l.modName) (by simp [rustMacro, h0]) rfl fun env1 h1 => ?_
  refine Steps.bind _ (.ident l.traitName) (by simp [rustMacro, h0, h1 _]) rfl fun env2 h2 => ?_
  -- mod_path, trait_path, as_trait_name, as_trait_path, as_trait_method, from_trait_method
  refine Steps.bind _ (.toks (modPath l)) (by simp [rustMacro, h1 _, h2 _]; rfl) rfl fun env3 h3 => ?_
  refine Steps.bind _ (.toks (traitPath l)) (by simp [rustMacro, h2 _, h3 _]; rfl) rfl fun env4 h4 => ?_
  refine Steps.bind _ (.ident ("As" ++ l.traitName)) (by simp [rustMacro, between, h2 _, h3 _, h4 _]) rfl fun env5 h5 => ?_
  refine Steps.bind _ (.toks (asTraitPath l)) (by simp [rustMacro, h3 _, h4 _, h5 _]; rfl) rfl fun env6 h6 => ?_
  refine Steps.bind _ (.ident (asTraitMethod l)) (by simp [rustMacro, between, h1 _, h2 _, h3 _, h4 _, h5 _, h6 _]; rfl) rfl fun env7 h7 => ?_
  refine Steps.bind _ (.ident (fromTraitMethod l)) (by simp [rustMacro, between, h1 _, h2 _, h3 _, h4 _, h5 _, h6 _, h7 _]; rfl) rfl fun env8 h8 => ?_
  -- visibility, input_name, generics
  have hi : List.lookup "input" env8 = some (synInput vis input) := by
    simp [h1 _, h2 _, h3 _, h4 _, h5 _, h6 _, h7 _, h8 _, h0]
  refine Steps.bind _ (.toks (visTokens vis)) (by simp [rustMacro, hi, synInput, List.lookup]) rfl fun env9 h9 => ?_
  refine Steps.bind _ (.ident input.ident) (by simp [rustMacro, hi, h9 _, synInput, List.lookup]) rfl fun env10 h10 => ?_
  refine Steps.bindTuple3 (.toks (genericsTokens input.generics)) (.toks (genericsTokens input.generics)) (.toks [])
    (by simp [rustMacro, hi, h9 _, h10 _, synInput, List.lookup, paramTokens_eq]) fun env11 h11 => ?_
  refine Steps.bind _ (.ident (generatedName l input.ident))
    (by simp [rustMacro, between, h2 _, h3 _, h4 _, h5 _, h6 _, h7 _, h8 _, h9 _, h10 _, h11 _, withoutRaw_eq, generatedName]) rfl fun env12 h12 => ?_
  have lMin : List.lookup "min_struct_alignment" env12 = some (.int l.minStructAlignment) := by
    simp [h0, h1 _, h2 _, h3 _, h4 _, h5 _, h6 _, h7 _, h8 _, h9 _, h10 _, h11 _, h12 _]
  have lTrait : List.lookup "trait_name" env12 = some (.ident l.traitName) := by
    simp [h2 _, h3 _, h4 _, h5 _, h6 _, h7 _, h8 _, h9 _, h10 _, h11 _, h12 _]
  have lTraitPath : List.lookup "trait_path" env12 = some (.toks (traitPath l)) := by
    simp [h4 _, h5 _, h6 _, h7 _, h8 _, h9 _, h10 _, h11 _, h12 _]
  have lAs : List.lookup "as_trait_path" env12 = some (.toks (asTraitPath l)) := by
    simp [h6 _, h7 _, h8 _, h9 _, h10 _, h11 _, h12 _]
  have lAsMethod : List.lookup "as_trait_method" env12 = some (.ident (asTraitMethod l)) := by
    simp [h7 _, h8 _, h9 _, h10 _, h11 _, h12 _]
  have lFromMethod : List.lookup "from_trait_method" env12 = some (.ident (fromTraitMethod l)) := by
    simp [h8 _, h9 _, h10 _, h11 _, h12 _]
  have lVis : List.lookup "visibility" env12 = some (.toks (visTokens vis)) := by
    simp [h9 _, h10 _, h11 _, h12 _]
  have lInput : List.lookup "input_name" env12 = some (.ident input.ident) := by
    simp [h10 _, h11 _, h12 _]
  have lImplG : List.lookup "impl_generics" env12 = some (.toks (genericsTokens input.generics)) := by
    simp [h11 _, h12 _]
  have lTyG : List.lookup "ty_generics" env12 = some (.toks (genericsTokens input.generics)) := by
    simp [h11 _, h12 _]
  have lWhere : List.lookup "where_clause" env12 = some (.toks []) := by
    simp [h11 _, h12 _]
  have lName : List.lookup "generated_name" env12 = some (.ident (generatedName l input.ident)) := by
    simp [h12 _]
  have hi : List.lookup "input" env12 = some (synInput vis input) := by
    simp [h9 _, h10 _, h11 _, h12 _, hi]
  clear h0 h1 h2 h3 h4 h5 h6 h7 h8 h9 h10 h11 h12
  -- fields
  cases hd : input.data with
  | structUnnamed ts =>
    rw [emitAll, emitTokens, hd]
    exact Steps.panics (env' := env12) (by simp [rustMacro, inScope, hi, synInput, hd, synData, List.lookup, DeriveError.message])
  | structUnit =>
    rw [emitAll, emitTokens, hd]
    exact Steps.panics (env' := env12) (by simp [rustMacro, inScope, hi, synInput, hd, synData, List.lookup, DeriveError.message])
  | enum =>
    rw [emitAll, emitTokens, hd]
    exact Steps.panics (env' := env12) (by simp [rustMacro, inScope, hi, synInput, hd, synData, List.lookup, DeriveError.message])
  | union =>
    rw [emitAll, emitTokens, hd]
    exact Steps.panics (env' := env12) (by simp [rustMacro, inScope, hi, synInput, hd, synData, List.lookup, DeriveError.message])
  | structNamed fs =>
  refine Steps.bind _ (.list (fs.map synField))
    (by simp [rustMacro, inScope, hi, synInput, hd, synData, List.lookup]) rfl fun env13 h13 => ?_
  -- layout_version_of_ty, layout_alignment_of_ty
  refine Steps.bindP (fun v => ∀ k t, apply { prog := p, run := run p (k + 1) } v [.ty t] =
    .val (.toks (layoutVersionOfTy l t))) _ _ rfl rfl
    (by intro k t; simp [rustMacro, run_succ, inScope_fst, h13 _, lAs, layoutVersionOfTy]) fun ver env14 hver h14 => ?_
  refine Steps.bindP (fun v => ∀ k t, apply { prog := p, run := run p (k + 1) } v [.ty t] =
    .val (.toks (layoutAlignmentOfTy l t))) _ _ rfl rfl
    (by intro k t; simp [rustMacro, run_succ, inScope_fst, h13 _, h14 _, lAs, lTraitPath, layoutAlignmentOfTy])
    fun alg env15 halg h15 => ?_
  -- field_alignments, struct_alignment
  refine Steps.bind _ (.list (fs.map fun f => .toks (layoutAlignmentOfTy l f.2))) (by
    simp [rustMacro, h13 _, h14 _, h15 _]
    rw [mapList_map (h := fun f : String × α => .toks (layoutAlignmentOfTy l f.2))]
    simp [rustMacro, run_succ, h15 _, halg, synField]) rfl fun env16 h16 => ?_
  refine Steps.bind _ (.toks (Tokens.structAlignment l fs)) (by
    simp [rustMacro, repeated, holes, lMin, h13 _, h14 _, h15 _, h16 _]
    rw [mapM_some (h := fun f : String × α => layoutAlignmentOfTy l f.2 ++ [.punct .comma]) (by simp [rustMacro])]
    simp [rustMacro, Tokens.structAlignment, internalPath]) rfl fun env17 h17 => ?_
  -- pad_fns
  refine Steps.bind _ (.list ((padFnNames l input.ident fs.length).map .ident)) (by
    simp [rustMacro, h13 _, h14 _, h15 _, h16 _, h17 _]
    rw [mapList_map (h := fun i : Nat => .ident (padFnName l input.ident i))]
    · simp [rustMacro, padFnNames, List.range_eq_range']
    · simp [rustMacro, run_succ, between, h13 _, h14 _, h15 _, h16 _, h17 _, lTrait, lInput, withoutRaw_eq, padFnName, String.append_assoc]) rfl fun env18 h18 => ?_
  -- offset_after_field
  refine Steps.bindP (fun v => ∀ k t, apply { prog := p, run := run p (k + 2) } v [.int t] =
    outcome DeriveError.message .toks (Tokens.offsetAfterField l fs (padFnNames l input.ident fs.length) t)) _ _ rfl rfl
    ?_ fun off env19 hoff h19 => ?_
  · intro k t
    simp only [apply_closure]
    exact offset_run p l fs _ env18 ver hver (by simp [h14 _, h15 _, h16 _, h17 _, h18 _])
      (by simp [h13 _, h14 _, h15 _, h16 _, h17 _, h18 _]) (by simp [h18 _]) k t
  have lFields : List.lookup "fields" env19 = some (.list (fs.map synField)) := by
    simp [h13 _, h14 _, h15 _, h16 _, h17 _, h18 _, h19 _]
  have lVer : List.lookup "layout_version_of_ty" env19 = some ver := by
    simp [h14 _, h15 _, h16 _, h17 _, h18 _, h19 _]
  have lAlg : List.lookup "layout_alignment_of_ty" env19 = some alg := by
    simp [h15 _, h16 _, h17 _, h18 _, h19 _]
  have lAlignment : List.lookup "struct_alignment" env19 = some (.toks (Tokens.structAlignment l fs)) := by
    simp [h17 _, h18 _, h19 _]
  have lPadFns : List.lookup "pad_fns" env19 = some (.list ((padFnNames l input.ident fs.length).map .ident)) := by
    simp [h18 _, h19 _]
  have lOff : List.lookup "offset_after_field" env19 = some off := by
    simp [h19 _]
  have keep : ∀ y : String, y ∉ ["fields", "layout_version_of_ty", "layout_alignment_of_ty", "field_alignments",
      "struct_alignment", "pad_fns", "offset_after_field"] → List.lookup y env19 = List.lookup y env12 := by
    intro y hy
    simp only [List.mem_cons, List.not_mem_nil, or_false, not_or] at hy
    simp [h13 _, h14 _, h15 _, h16 _, h17 _, h18 _, h19 _, hy]
  rw [← keep _ (by decide)] at lTraitPath lAs lAsMethod lFromMethod lVis lInput lImplG lTyG lWhere lName
  clear h13 h14 h15 h16 h17 h18 h19 keep lMin lTrait hi
  generalize hpf : padFnNames l input.ident fs.length = padFns at *
  -- pad_fn_impls
  refine Steps.enumerated DeriveError.message .ident padFns (fun x => Tokens.padFnImpl l fs padFns x.2 x.1) lPadFns
    (fun q i => padFn_run p l fs padFns env19 off alg hoff halg lOff lFields lAlg lAlignment n i q) ?_ ?_
  · intro e he
    simp [emitAll, emitTokens, namedFields, hd, padFnImpls, hpf, he, bind, Except.bind, outcome]
  intro impls hI env20 h20
  have hI' : padFnImpls l input = .ok impls.flatten := by
    simp [namedFields, hd, padFnImpls, hpf, hI, bind, Except.bind, pure, Except.pure]
  -- generated_struct_fields
  refine Steps.enumerated DeriveError.message synField fs (fun x => generatedStructField l padFns x.2 x.1)
    (by simp [h20 _, lFields])
    (fun f i => structField_run p l padFns env20 ver hver (by simp [h20 _, lVer]) (by simp [h20 _, lPadFns]) (n + 1) i f) ?_ ?_
  · intro e he
    simp [emitAll, emitTokens, namedFields, hd, hI', structItem, hpf, he, bind, Except.bind, outcome]
  intro sfs hS env21 h21
  have hS' : structItem l vis input =
      .ok (structDefinition vis (generatedName l input.ident) input.generics sfs.flatten) := by
    simp [namedFields, hd, structItem, hpf, hS, bind, Except.bind, pure, Except.pure]
  -- generated_struct_field_init, input_struct_field_init
  refine Steps.mapped synField fs (generatedStructFieldInit l) (by simp [h20 _, h21 _, lFields])
    (fun f => init_run p l env21 (by simp [h20 _, h21 _, lAsMethod]) (n + 2) f) ?_
  intro env22 h22
  refine Steps.mapped synField fs (inputStructFieldInit l) (by simp [h20 _, h21 _, h22 _, lFields])
    (fun f => inputInit_run p l env22 (by simp [h20 _, h21 _, h22 _, lAs])
      (by simp [h20 _, h21 _, h22 _, lFromMethod]) (n + 2) f) ?_
  intro env23 h23
  -- struct_definition
  refine Steps.bind _ (.toks (structDefinition vis (generatedName l input.ident) input.generics sfs.flatten)) (by
    simp [rustMacro, h20 _, h21 _, h22 _, h23 _, lVis, lName, lTyG, lWhere, structDefinition]) rfl fun env24 h24 => ?_
  -- debug_methods
  have hD : ∃ D, (if p.features.contains "debug-methods" = true then debugImpl l vis input else .ok []) = .ok D ∧
      ∀ (ss : List RustCode.Stmt) (e' : RustCode.Expr) (r : Res (Val α)) (m : Bool),
        (∀ env', Ext env24 env' "debug_methods" (.toks D) → Steps { prog := p, run := run p (n + 3) } ss e' env' r) →
        Steps { prog := p, run := run p (n + 3) } (.bind m "debug_methods" .unit debugExpr :: ss) e' env24 r := by
    cases hb : p.features.contains "debug-methods" with
    | false =>
      refine ⟨[], rfl, fun ss e' r m hr => Steps.bind _ _ ?_ rfl hr⟩
      have hc : eval { prog := p, run := run p (n + 3) }
          (.mac "cfg" [.id "feature", .op .eq, .str "debug-methods"]) env24 = (.val (.bool false), env24) := by
        simp only [eval, macroVal, hb]
      refine eval_cond_false hc (inScope_eq (vs := []) ?_)
      simp [rustMacro]
    | true =>
      refine ⟨_, by simp [debugImpl, namedFields, hd, debugDefinitions, hI', hS', bind, Except.bind, pure, Except.pure]; rfl,
        fun ss e' r m hr => Steps.bind _ _ ?_ rfl hr⟩
      have hc : eval { prog := p, run := run p (n + 3) }
          (.mac "cfg" [.id "feature", .op .eq, .str "debug-methods"]) env24 = (.val (.bool true), env24) := by
        simp only [eval, macroVal, hb]
      refine eval_cond_true hc ?_
      refine eval_block_mapped synField fs debugField (by simp [h20 _, h21 _, h22 _, h23 _, h24 _, lFields])
        (fun f => debugField_run p env24 (n + 2) f) ?_
      simp [rustMacro, h20 _, h21 _, h22 _, h23 _, h24 _, lImplG, lName, lTyG, lWhere, lTraitPath, debugMetrics, bytemuckPath,
        internalPath]
  obtain ⟨D, hD, hstep⟩ := hD
  refine hstep _ _ _ _ fun env25 h25 => ?_
  refine Steps.last ?_
  have hE : emitAll l (p.features.contains "debug-methods") vis input = (emitTokens l vis input).map (· ++ D) := by
    unfold emitAll
    cases emitTokens l vis input with
    | error e => rfl
    | ok code =>
      show ((debugMethods l (p.features.contains "debug-methods") vis input) >>= fun methods => pure (code ++ methods)) = _
      rw [show debugMethods l (p.features.contains "debug-methods") vis input = .ok D from hD]
      rfl
  rw [hE]
  simp only [emitTokens, namedFields, hd, hI', hS', bind, Except.bind, pure, Except.pure, Except.map]
  simp [rustMacro, h20 _, h21 _, h22 _, h23 _, h24 _, h25 _, lImplG, lName, lTyG, lWhere, lTraitPath, lAs, lAsMethod, lFromMethod,
    lInput, lAlignment, asBytesImpl, unsafeImpl, asTraitImpl, bytemuckPath, internalPath, outcome]
end Crevice.Expand
