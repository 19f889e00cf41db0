import Verif.Proof.RunDerive
/-
The entry points of the derive macros, and `#[derive(GlslStruct)]`, executed symbolically.
-/
namespace Crevice.Expand
open RustMacro Tokens
open RustCode (Parsed.deriveGlsl3_emit Parsed.deriveLayout3_emit)
variable {α : Type}

set_option maxRecDepth 100000
set_option maxHeartbeats 4000000

theorem program_eq (debug : Bool) : deriveProgram debug =
    { modules := [("lib", RustCode.Parsed.deriveLib), ("layout", RustCode.Parsed.deriveLayout),
        ("glsl", RustCode.Parsed.deriveGlsl)]
      features := if debug then ["debug-methods"] else [] } := by
  simp only [deriveProgram, RustCode.Parsed.parse_deriveLib, RustCode.Parsed.parse_deriveLayout,
    RustCode.Parsed.parse_deriveGlsl, Option.getD_some]

theorem find_entry (debug : Bool) (l : Layout) : findFn (deriveProgram debug) "lib" (deriveEntry l) =
    some (match l with
      | .std140 => RustCode.Parsed.deriveLib4_derive_as_std140
      | .std430 => RustCode.Parsed.deriveLib5_derive_as_std430) := by
  rw [program_eq]
  cases l <;> rfl

theorem find_glsl (debug : Bool) : findFn (deriveProgram debug) "lib" "derive_glsl_struct" =
    some RustCode.Parsed.deriveLib6_derive_glsl_struct := by
  rw [program_eq]
  rfl

theorem find_emit (debug : Bool) : findFn (deriveProgram debug) "layout" "emit" = some Parsed.deriveLayout3_emit := by
  rw [program_eq]
  rfl

theorem find_emitGlsl (debug : Bool) : findFn (deriveProgram debug) "glsl" "emit" = some Parsed.deriveGlsl3_emit := by
  rw [program_eq]
  rfl

theorem features_debug (debug : Bool) : (deriveProgram debug).features.contains "debug-methods" = debug := by
  cases debug <;> decide

/-- A function of the program. -/
theorem exec_fn {p : Program} {m f : String} {fn : RustCode.Fn} {body : RustCode.Expr} (h : findFn p m f = some fn)
    (hr : fn.receiver = .static) (hb : fn.body = some body) (hm : m = "lib" ∨ m = "layout" ∨ m = "glsl")
    (cx : Ctx α) (hp : cx.prog = p) (vs : List (Val α)) (env : Env α) :
    call cx (.path (.path [m, f] [])) vs env = (cx.run (fn.params.map fun x => .var x.1) body [] vs, env) := by
  obtain ⟨_, _, _, _, _, _⟩ := fn
  simp only at hr hb
  subst hr hb hp
  rcases hm with rfl | rfl | rfl <;> simp [call, h, M.res]

/-- `let input = parse_macro_input!(input as DeriveInput); let expanded = m::emit(..); CompilerTokenStream::from(expanded)`. -/
theorem entry_steps {ε : Type} (message : ε → Option String) (cx : Ctx α) (env : Env α) (v : Val α) (m : String) (args : List RustCode.Expr) (vs : List (Val α))
    (out : Except ε (List (Out α)))
    (hi : List.lookup "input" env = some v)
    (ha : ∀ env', List.lookup "input" env' = some v → evalList cx args env' = (.val vs, env'))
    (hc : ∀ env', call cx (.path (.path [m, "emit"] [])) vs env' = (outcome message .toks out, env')) :
    Steps cx [.bind false "input" .unit (.mac "parse_macro_input" [.id "input", .kw .kAs, .id "DeriveInput"]),
      .bind false "expanded" .unit (.call (.path (.path [m, "emit"] [])) args)]
      (.call (.path (.path ["CompilerTokenStream", "from"] [])) [.var "expanded"]) env (outcome message .toks out) := by
  refine Steps.bind _ v (by simp [rustMacro, hi]) rfl fun env1 e1 => ?_
  have h1 := ha env1 (by simp [e1 _])
  cases ho : out with
  | error e =>
    refine Steps.panics (env' := env1) ?_
    simp only [eval, M.bind, h1, hc, ho]
    rfl
  | ok ts =>
    refine Steps.bind (.toks ts) (.toks ts) ?_ rfl fun env2 e2 => ?_
    · simp only [eval, M.bind, h1, hc, ho]
      rfl
    · exact Steps.last (by simp [rustMacro, e2 _, outcome])

theorem derive_exec (debug : Bool) (n : Nat) (l : Layout) (vis : RustSyntax.Vis) (input : DeriveInput α) :
    exec (deriveProgram debug) (n + 5) "lib" (deriveEntry l) [synInput vis input] =
      outcome DeriveError.message .toks (emitAll l debug vis input) := by
  have he := emit_run (deriveProgram debug) n l vis input
  obtain ⟨body, hb⟩ : ∃ b, Parsed.deriveLayout3_emit.body = some b := ⟨_, rfl⟩
  rw [features_debug, hb, Option.getD_some] at he
  have hc : ∀ env', call { prog := deriveProgram debug, run := run (deriveProgram debug) (n + 4) }
      (.path (.path ["layout", "emit"] []))
      [synInput vis input, .str l.traitName, .str l.modName, .int l.minStructAlignment] env' =
      (outcome DeriveError.message .toks (emitAll l debug vis input), env') := by
    intro env'
    rw [exec_fn (find_emit debug) rfl hb (.inr (.inl rfl)) _ rfl]
    exact congrArg (·, env') he
  have hfind := find_entry debug l
  unfold exec
  cases l with
  | std140 =>
    simp only at hfind
    rw [exec_fn hfind rfl rfl (.inl rfl) _ rfl]
    simp only [run_succ, RustCode.Parsed.deriveLib4_derive_as_std140, List.map_cons, List.map_nil, bindsAll, binds, List.cons_append,
      List.nil_append]
    exact eval_block (entry_steps _ _ _ (synInput vis input) _ _ _ _ (by simp [rustMacro])
      (fun env' h => by simp [rustMacro, h]; exact ⟨rfl, rfl, rfl⟩) hc)
  | std430 =>
    simp only at hfind
    rw [exec_fn hfind rfl rfl (.inl rfl) _ rfl]
    simp only [run_succ, RustCode.Parsed.deriveLib5_derive_as_std430, List.map_cons, List.map_nil, bindsAll, binds, List.cons_append,
      List.nil_append]
    exact eval_block (entry_steps _ _ _ (synInput vis input) _ _ _ _ (by simp [rustMacro])
      (fun env' h => by simp [rustMacro, h]; exact ⟨rfl, rfl, rfl⟩) hc)

/-! ### `#[derive(GlslStruct)]` -/

/-- The statements of `emit` in `glsl.rs`. -/
def glslStmts : List RustCode.Stmt :=
  match Parsed.deriveGlsl3_emit.body with
  | some (.block ss _) => ss
  | _ => []

/-- The body of the closure in `glsl_fields`. -/
def glslBody : RustCode.Expr :=
  match glslStmts[(6 : Nat)]? with
  | some (.bind _ _ _ (.method _ _ [.closure _ b])) => b
  | _ => .unit

/-- An element of `glsl_fields`. -/
theorem glslField_run (p : Program) (env : Env α) (k : Nat) (f : String × α) :
    run p (k + 1) [.var "field"] glslBody env [synField f] = .val (.toks (glslFieldTokens f)) := by
  simp only [run_succ, bindsAll, binds, List.cons_append, List.nil_append]
  refine eval_block ?_
  refine Steps.bind _ (.ty f.2) (by simp [rustMacro, synField, List.lookup]) rfl fun env1 e1 => ?_
  refine Steps.bind _ (.toks [.str f.1]) (by simp [rustMacro, e1 _, synField, List.lookup]) rfl fun env2 e2 => ?_
  refine Steps.last ?_
  simp [rustMacro, e1 _, e2 _, glslFieldTokens, glslPath]

/-- `let v = e.iter().map(closure);` -/
theorem Steps.lazily {β : Type} {cx : Ctx α} {m : Bool} {v : String} {e : RustCode.Expr} {ps : List RustCode.Pat}
    {b e' : RustCode.Expr} {ss : List RustCode.Stmt} {env : Env α} {r : Res (Val α)} (g : β → Val α) (xs : List β)
    (h : β → Val α) (hx : eval cx e env = (.val (.list (xs.map g)), env))
    (hf : ∀ y, cx.run ps b env [g y] = .val (h y))
    (hr : ∀ env', Ext env env' v (.list (xs.map h)) → Steps cx ss e' env' r) :
    Steps cx (.bind m v .unit (.method (.method e "iter" []) "map" [.closure ps b]) :: ss) e' env r := by
  have hm := mapList_map (xs := xs) (g := g) (f := fun u => cx.run ps b env [u]) (h := h) fun x _ => hf x
  exact Steps.bind (.list (xs.map h)) (.list (xs.map h)) (by
    simp only [eval, evalList, M.bind, hx, method, M.pure, mapVal, M.res, apply_closure, hm]) rfl hr

theorem emitGlsl_run (p : Program) (n : Nat) (vis : RustSyntax.Vis) (input : DeriveInput α) :
    run p (n + 2) (Parsed.deriveGlsl3_emit.params.map fun x => .var x.1) (Parsed.deriveGlsl3_emit.body.getD .unit) []
      [synInput vis input] = outcome DeriveError.message .toks (emitGlslTokens input) := by
  have h0 : List.lookup "input" ([("input", synInput vis input)] : Env α) = some (synInput vis input) := rfl
  rw [run_succ]
  simp only [Parsed.deriveGlsl3_emit, List.map_cons, List.map_nil, bindsAll, binds, List.cons_append, List.nil_append,
    Option.getD_some]
  generalize ([("input", synInput vis input)] : Env α) = env0 at h0
  refine eval_block ?_
  -- fields
  cases hd : input.data with
  | structUnnamed ts =>
    rw [emitGlslTokens, hd]
    exact Steps.panics (env' := env0) (by simp [rustMacro, inScope, h0, synInput, hd, synData, List.lookup, DeriveError.message])
  | structUnit =>
    rw [emitGlslTokens, hd]
    exact Steps.panics (env' := env0) (by simp [rustMacro, inScope, h0, synInput, hd, synData, List.lookup, DeriveError.message])
  | enum =>
    rw [emitGlslTokens, hd]
    exact Steps.panics (env' := env0) (by simp [rustMacro, inScope, h0, synInput, hd, synData, List.lookup, DeriveError.message])
  | union =>
    rw [emitGlslTokens, hd]
    exact Steps.panics (env' := env0) (by simp [rustMacro, inScope, h0, synInput, hd, synData, List.lookup, DeriveError.message])
  | structNamed fs =>
  refine Steps.bind _ (.struct [("named", .list (fs.map synField))])
    (by simp [rustMacro, inScope, h0, synInput, hd, synData, List.lookup]) rfl fun env1 h1 => ?_
  -- base_trait_path, struct_trait_path, name, name_str, generics
  refine Steps.bind _ (.toks (glslPath "Glsl")) (by simp [rustMacro, glslPath]) rfl fun env2 h2 => ?_
  refine Steps.bind _ (.toks (glslPath "GlslStruct")) (by simp [rustMacro, glslPath]) rfl fun env3 h3 => ?_
  refine Steps.bind _ (.ident input.ident) (by simp [rustMacro, h0, h1 _, h2 _, h3 _, synInput, List.lookup]) rfl
    fun env4 h4 => ?_
  refine Steps.bind _ (.toks [.str input.ident]) (by simp [rustMacro, h4 _]) rfl fun env5 h5 => ?_
  refine Steps.bindTuple3 (.toks (genericsTokens input.generics)) (.toks (genericsTokens input.generics)) (.toks [])
    (by simp [rustMacro, h0, h1 _, h2 _, h3 _, h4 _, h5 _, synInput, List.lookup, paramTokens_eq]) fun env6 h6 => ?_
  -- glsl_fields
  refine Steps.lazily synField fs (fun f => .toks (glslFieldTokens f))
    (by simp [rustMacro, h1 _, h2 _, h3 _, h4 _, h5 _, h6 _, List.lookup]) (fun f => glslField_run p env6 n f) fun env7 h7 => ?_
  refine Steps.last ?_
  simp [rustMacro, repeated, holes, h1 _, h2 _, h3 _, h4 _, h5 _, h6 _, h7 _]
  rw [mapM_some (h := fun f : String × α => glslFieldTokens f ++ [.punct .comma]) (by simp [rustMacro])]
  simp [rustMacro, emitGlslTokens, namedFields, hd, bind, Except.bind, pure, Except.pure, outcome, unsafeImpl, glslPath]

theorem glsl_exec (debug : Bool) (n : Nat) (vis : RustSyntax.Vis) (input : DeriveInput α) :
    exec (deriveProgram debug) (n + 3) "lib" "derive_glsl_struct" [synInput vis input] =
      outcome DeriveError.message .toks (emitGlslTokens input) := by
  have he := emitGlsl_run (deriveProgram debug) n vis input
  obtain ⟨body, hb⟩ : ∃ b, Parsed.deriveGlsl3_emit.body = some b := ⟨_, rfl⟩
  rw [hb, Option.getD_some] at he
  have hc : ∀ env', call { prog := deriveProgram debug, run := run (deriveProgram debug) (n + 2) }
      (.path (.path ["glsl", "emit"] [])) [synInput vis input] env' =
      (outcome DeriveError.message .toks (emitGlslTokens input), env') := by
    intro env'
    rw [exec_fn (find_emitGlsl debug) rfl hb (.inr (.inr rfl)) _ rfl]
    exact congrArg (·, env') he
  unfold exec
  rw [exec_fn (find_glsl debug) rfl rfl (.inl rfl) _ rfl]
  simp only [run_succ, RustCode.Parsed.deriveLib6_derive_glsl_struct, List.map_cons, List.map_nil, bindsAll, binds, List.cons_append,
    List.nil_append]
  exact eval_block (entry_steps _ _ _ (synInput vis input) _ _ _ _ (by simp [rustMacro])
    (fun env' h => by simp [rustMacro, h]) hc)

end Crevice.Expand
