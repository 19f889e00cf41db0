import Verif.Spec.MacroRun
import Verif.Proof.MacroAttr
/-
Symbolic execution of macros (`Spec/MacroRun.lean`).
-/
namespace RustMacro
open RustCode (Expr Stmt Pat Ty Item Fn BinOp)
variable {α : Type}

attribute [rustMacro] M.bind M.pure M.res M.ofOption declare getVar binds bindsAll keyword punct literal toTokens
  hole quote fill fragment formatArgs format collected mapVal getVal indexVal
  method call macroVal getField binOp ifVal rangeVal rangeInclVal forVal withPat
  eval evalList evalArms evalStmt evalStmts

@[rustMacro] theorem append_some {β : Type} (a b : List β) : append? (some a) (some b) = some (a ++ b) := rfl

@[rustMacro] theorem apply_closure (cx : Ctx α) (ps : List Pat) (b : Expr) (env : Env α) (vs : List (Val α)) :
    apply cx (.closure ps b env) vs = cx.run ps b env vs := rfl

theorem run_succ (p : Program) (n : Nat) (ps : List Pat) (e : Expr) (env : Env α) (vs : List (Val α)) :
    run p (n + 1) ps e env vs =
      match bindsAll ps vs with
      | some b => (eval { prog := p, run := run p n } e (b ++ env)).1
      | none => .stuck := rfl

/-- The rest of a block gives `r`. -/
def Steps (cx : Ctx α) (ss : List Stmt) (e : Expr) (env : Env α) (r : Res (Val α)) : Prop :=
  (((evalStmts cx ss).bind fun _ => eval cx e) env).1 = r

/-- Lookups in `env'` are those in `env` with `x` declared. -/
def Ext (env env' : Env α) (x : String) (v : Val α) : Prop :=
  ∀ y, env'.lookup y = if y = x then some v else env.lookup y

theorem ext_cons (env : Env α) (x : String) (v : Val α) : Ext env ((x, v) :: env) x v := by
  intro y
  rw [List.lookup_cons]
  by_cases h : y = x
  · simp [h]
  · rw [beq_eq_false_iff_ne.mpr h, if_neg h]

@[rustMacro] theorem lookup_cons (env : Env α) (x y : String) (v : Val α) :
    List.lookup y ((x, v) :: env) = if y = x then some v else env.lookup y := ext_cons env x v y

theorem Steps.bindP {cx : Ctx α} {b : Bool} {x : String} {t : Ty} {e e' : Expr} {ss : List Stmt} {env : Env α}
    {r : Res (Val α)} (P : Val α → Prop) (v v' : Val α) (h : eval cx e env = (.val v, env))
    (hc : collected t v = some v') (hv : P v')
    (hr : ∀ v' env', P v' → Ext env env' x v' → Steps cx ss e' env' r) :
    Steps cx (.bind b x t e :: ss) e' env r := by
  have := hr _ _ hv (ext_cons env x v')
  unfold Steps at this ⊢
  simp only [evalStmts, evalStmt, M.bind, h, hc, M.ofOption, M.pure, declare, List.cons_append, List.nil_append] at this ⊢
  exact this

theorem Steps.bind {cx : Ctx α} {b : Bool} {x : String} {t : Ty} {e e' : Expr} {ss : List Stmt} {env : Env α}
    {r : Res (Val α)} (v v' : Val α) (h : eval cx e env = (.val v, env)) (hc : collected t v = some v')
    (hr : ∀ env', Ext env env' x v' → Steps cx ss e' env' r) :
    Steps cx (.bind b x t e :: ss) e' env r := by
  have := hr _ (ext_cons env x v')
  unfold Steps at this ⊢
  simp only [evalStmts, evalStmt, M.bind, h, hc, M.ofOption, M.pure, declare, List.cons_append, List.nil_append] at this ⊢
  exact this

theorem Steps.panics {cx : Ctx α} {b : Bool} {x : String} {t : Ty} {e e' : Expr} {ss : List Stmt} {env env' : Env α}
    {m : Option String} (h : eval cx e env = (.panic m, env')) :
    Steps cx (.bind b x t e :: ss) e' env (.panic m) := by
  simp [Steps, evalStmts, evalStmt, M.bind, h]

theorem Steps.last {cx : Ctx α} {e : Expr} {env : Env α} {r : Res (Val α)} (h : (eval cx e env).1 = r) :
    Steps cx [] e env r := by
  simpa [Steps, evalStmts, M.bind, M.pure] using h

theorem inScope_fst {β : Type} (p : M α β) (env : Env α) : (inScope p env).1 = (p env).1 := rfl

theorem inScope_eq {β : Type} {p : M α β} {env vs : Env α} {r : Res β} (h : p env = (r, vs ++ env)) :
    inScope p env = (r, env) := by
  simp [inScope, h]

theorem eval_block {cx : Ctx α} {ss : List Stmt} {e : Expr} {env : Env α} {r : Res (Val α)}
    (h : Steps cx ss e env r) : (eval cx (.block ss e) env).1 = r := by
  rw [eval, inScope_fst]
  exact h

theorem Steps.bindTuple3 {cx : Ctx α} {x y z : String} {e e' : Expr} {ss : List Stmt} {env : Env α}
    {r : Res (Val α)} (u v w : Val α) (h : eval cx e env = (.val (.tuple [u, v, w]), env))
    (hr : ∀ env', (∀ k, List.lookup k env' =
      if k = x then some u else if k = y then some v else if k = z then some w else env.lookup k) →
      Steps cx ss e' env' r) :
    Steps cx (.bindTuple [x, y, z] e :: ss) e' env r := by
  have := hr ((x, u) :: (y, v) :: (z, w) :: env) fun k => by simp only [lookup_cons]
  unfold Steps at this ⊢
  simp only [evalStmts, evalStmt, M.bind, h, M.ofOption, M.pure, declare, binds, List.length_cons, List.length_nil,
    if_true, List.zip_cons_cons, List.zip_nil_right, List.cons_append, List.nil_append] at this ⊢
  exact this

theorem Steps.bindCons {cx : Ctx α} {b : Bool} {x : String} {t : Ty} {e e' : Expr} {ss : List Stmt} {env : Env α}
    {r : Res (Val α)} (v v' : Val α) (h : eval cx e env = (.val v, env)) (hc : collected t v = some v')
    (hr : Steps cx ss e' ((x, v') :: env) r) : Steps cx (.bind b x t e :: ss) e' env r := by
  unfold Steps at hr ⊢
  simp only [evalStmts, evalStmt, M.bind, h, hc, M.ofOption, M.pure, declare, List.cons_append, List.nil_append] at hr ⊢
  exact hr

theorem Steps.each {cx : Ctx α} {p : Pat} {e e' body : Expr} {ss : List Stmt} {env env' : Env α}
    {r : Res (Val α)} {vs : List (Val α)} {u : Val α} (he : eval cx e env = (.val (.list vs), env))
    (h : forList (fun v => withPat p v (eval cx body)) vs env = (.val u, env')) (hr : Steps cx ss e' env' r) :
    Steps cx (.expr (.each p e body) :: ss) e' env r := by
  unfold Steps at hr ⊢
  simp only [evalStmts, evalStmt, eval, forVal, M.bind, M.pure, he, h] at hr ⊢
  exact hr

theorem Steps.eachPanics {cx : Ctx α} {p : Pat} {e e' body : Expr} {ss : List Stmt} {env env' : Env α}
    {m : Option String} {vs : List (Val α)} (he : eval cx e env = (.val (.list vs), env))
    (h : forList (fun v => withPat p v (eval cx body)) vs env = (.panic m, env')) :
    Steps cx (.expr (.each p e body) :: ss) e' env (.panic m) := by
  unfold Steps
  simp only [evalStmts, evalStmt, eval, forVal, M.bind, he, h]

/-! ### Outcomes with errors -/

/-- How a function that can fail ends. -/
def outcome {ε β γ : Type} (message : ε → Option String) (f : β → γ) : Except ε β → Res γ
  | .ok b => .val (f b)
  | .error e => .panic (message e)

theorem mapList_mapM {ε β γ : Type} {message : ε → Option String} {f : Val α → Res (Val α)} {g : γ → Val α}
    {h : γ → Except ε β} {k : β → Val α} {xs : List γ}
    (hf : ∀ x ∈ xs, f (g x) = outcome message k (h x)) :
    mapList f (xs.map g) = outcome message (List.map k) (xs.mapM h) := by
  induction xs with
  | nil => rfl
  | cons x xs ih =>
    rw [List.map_cons, mapList, hf x (by simp), ih fun y hy => hf y (by simp [hy]), List.mapM_cons]
    cases h x with
    | error e => rfl
    | ok b =>
      cases xs.mapM h with
      | error e => rfl
      | ok bs => rfl

theorem mapList_map {γ : Type} {f : Val α → Res (Val α)} {g h : γ → Val α} {xs : List γ}
    (hf : ∀ x ∈ xs, f (g x) = .val (h x)) : mapList f (xs.map g) = .val (xs.map h) := by
  induction xs with
  | nil => rfl
  | cons x xs ih => rw [List.map_cons, mapList, hf x (by simp), ih fun y hy => hf y (by simp [hy])]; rfl

/-- A loop that collects parts of a list. -/
theorem forList_fold {ε β γ : Type} {message : ε → Option String} {body : Val α → M α (Val α)} {g : γ → Val α}
    {E : List (List β) → Env α} {step : List β → γ → Except ε (List β)}
    (hb : ∀ os i, (∃ os', step os.flatten i = .ok os'.flatten ∧ body (g i) (E os) = (.val .unit, E os')) ∨
      ∃ e env', step os.flatten i = .error e ∧ body (g i) (E os) = (.panic (message e), env'))
    (is : List γ) (os : List (List β)) :
    (∃ os', is.foldlM step os.flatten = .ok os'.flatten ∧ forList body (is.map g) (E os) = (.val .unit, E os')) ∨
      ∃ e env', is.foldlM step os.flatten = .error e ∧ forList body (is.map g) (E os) = (.panic (message e), env') := by
  induction is generalizing os with
  | nil => exact .inl ⟨os, rfl, rfl⟩
  | cons i is ih =>
    rcases hb os i with ⟨os', h1, h2⟩ | ⟨e, env', h1, h2⟩
    · rw [List.map_cons, List.foldlM_cons, h1, forList, M.bind, h2]
      exact ih os'
    · rw [List.map_cons, List.foldlM_cons, h1, forList, M.bind, h2]
      exact .inr ⟨e, env', rfl, rfl⟩

/-- `for` with such a loop. -/
theorem Steps.fold {ε β γ : Type} {cx : Ctx α} {p : Pat} {e e' body : Expr} {ss : List Stmt}
    (message : ε → Option String) (g : γ → Val α) (k : List β → Val α)
    (E : List (List β) → Env α) (step : List β → γ → Except ε (List β)) (is : List γ) (os : List (List β))
    (he : eval cx e (E os) = (.val (.list (is.map g)), E os))
    (hb : ∀ os i, (∃ os', step os.flatten i = .ok os'.flatten ∧
        withPat p (g i) (eval cx body) (E os) = (.val .unit, E os')) ∨
      ∃ e env', step os.flatten i = .error e ∧ withPat p (g i) (eval cx body) (E os) = (.panic (message e), env'))
    (hr : ∀ os', Steps cx ss e' (E os') (.val (k os'.flatten))) :
    Steps cx (.expr (.each p e body) :: ss) e' (E os) (outcome message k (is.foldlM step os.flatten)) := by
  rcases forList_fold (body := fun v => withPat p v (eval cx body)) hb is os with ⟨os', h1, h2⟩ | ⟨e, env', h1, h2⟩
  · rw [h1]
    exact Steps.each he h2 (hr os')
  · rw [h1]
    exact Steps.eachPanics he h2

theorem mapM_some {β δ : Type} {f : β → Option δ} {h : β → δ} {xs : List β}
    (hf : ∀ x ∈ xs, f x = some (h x)) : xs.mapM f = some (xs.map h) := by
  induction xs with
  | nil => rfl
  | cons x xs ih => rw [List.mapM_cons, hf x (by simp), ih fun y hy => hf y (by simp [hy])]; rfl

theorem concatTokens_map {β : Type} (f : β → List (Out α)) (xs : List β) :
    concatTokens (xs.map fun x => Val.toks (f x)) = some (xs.map f).flatten := by
  induction xs with
  | nil => rfl
  | cons x xs ih => rw [List.map_cons, concatTokens, ih]; rfl

/-- `let v: TokenStream = x.iter().enumerate().map(closure).collect();` -/
theorem Steps.enumerated {ε β : Type} {cx : Ctx α} {m : Bool} {x v : String} {ps : List Pat} {b e' : Expr}
    {ss : List Stmt} {env : Env α} {r : Res (Val α)} (message : ε → Option String) (g : β → Val α) (xs : List β)
    (h : β × Nat → Except ε (List (Out α)))
    (hx : List.lookup x env = some (.list (xs.map g)))
    (hf : ∀ y i, cx.run ps b env [.tuple [.int i, g y]] = outcome message .toks (h (y, i)))
    (he : ∀ e, xs.zipIdx.mapM h = .error e → r = .panic (message e))
    (hr : ∀ outs, xs.zipIdx.mapM h = .ok outs → ∀ env', Ext env env' v (.toks outs.flatten) → Steps cx ss e' env' r) :
    Steps cx (.bind m v (.path ["TokenStream"] [])
      (.method (.method (.method (.method (.var x) "iter" []) "enumerate" []) "map" [.closure ps b]) "collect" []) :: ss)
      e' env r := by
  have hz : (xs.map g).zipIdx.map (fun x => Val.tuple [.int x.2, x.1]) =
      xs.zipIdx.map fun x => Val.tuple [.int x.2, g x.1] := by
    rw [List.zipIdx_map, List.map_map]; rfl
  have hm := mapList_mapM (xs := xs.zipIdx) (g := fun x => Val.tuple [.int x.2, g x.1])
    (f := fun u => cx.run ps b env [u]) (h := h) (message := message) (k := .toks) fun x _ => hf x.1 x.2
  rw [← hz] at hm
  cases hI : xs.zipIdx.mapM h with
  | error e =>
    rw [he e hI]
    rw [hI] at hm
    exact Steps.panics (env' := env) (by
      simp only [eval, evalList, M.bind, getVar, hx, method, M.pure, mapVal, M.res, apply_closure, hm]; rfl)
  | ok outs =>
    rw [hI] at hm
    exact Steps.bind (.list (outs.map .toks)) (.toks outs.flatten) (by
      simp only [eval, evalList, M.bind, getVar, hx, method, M.pure, mapVal, M.res, apply_closure, hm]; rfl) (by
      have := concatTokens_map (fun x : List (Out α) => x) outs
      simp only [List.map_id'] at this
      simp only [collected, this]; rfl) (hr outs hI)

/-- `let v: TokenStream = x.iter().map(closure).collect();` -/
theorem Steps.mapped {β : Type} {cx : Ctx α} {m : Bool} {x v : String} {ps : List Pat} {b e' : Expr}
    {ss : List Stmt} {env : Env α} {r : Res (Val α)} (g : β → Val α) (xs : List β) (h : β → List (Out α))
    (hx : List.lookup x env = some (.list (xs.map g)))
    (hf : ∀ y, cx.run ps b env [g y] = .val (.toks (h y)))
    (hr : ∀ env', Ext env env' v (.toks (xs.map h).flatten) → Steps cx ss e' env' r) :
    Steps cx (.bind m v (.path ["TokenStream"] [])
      (.method (.method (.method (.var x) "iter" []) "map" [.closure ps b]) "collect" []) :: ss) e' env r := by
  have hm := mapList_map (xs := xs) (g := g) (f := fun u => cx.run ps b env [u]) (h := fun y => .toks (h y))
    fun x _ => hf x
  exact Steps.bind (.list (xs.map fun y => .toks (h y))) (.toks (xs.map h).flatten) (by
    simp only [eval, evalList, M.bind, getVar, hx, method, M.pure, mapVal, M.res, apply_closure, hm]) (by
    simp only [collected, concatTokens_map]; rfl) hr

/-- A block with one such statement. -/
theorem eval_block_mapped {β : Type} {cx : Ctx α} {m : Bool} {x v : String} {ps : List Pat} {b e : Expr}
    {env : Env α} {u : Val α} (g : β → Val α) (xs : List β) (h : β → List (Out α))
    (hx : List.lookup x env = some (.list (xs.map g)))
    (hf : ∀ y, cx.run ps b env [g y] = .val (.toks (h y)))
    (hr : eval cx e ((v, .toks (xs.map h).flatten) :: env) = (.val u, (v, .toks (xs.map h).flatten) :: env)) :
    eval cx (.block [.bind m v (.path ["TokenStream"] [])
      (.method (.method (.method (.var x) "iter" []) "map" [.closure ps b]) "collect" [])] e) env = (.val u, env) := by
  have hm := mapList_map (xs := xs) (g := g) (f := fun u => cx.run ps b env [u]) (h := fun y => .toks (h y))
    fun x _ => hf x
  refine inScope_eq (vs := [(v, .toks (xs.map h).flatten)]) ?_
  simp only [evalStmts, evalStmt, eval, evalList, M.bind, getVar, hx, method, M.pure, mapVal, M.res, apply_closure, hm,
    collected, concatTokens_map, Option.map_some, M.ofOption, declare, List.cons_append, List.nil_append, hr]

end RustMacro
