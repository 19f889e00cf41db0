import Verif.Proof.TextIndex
/-
What the text of the crate says about its types: general part.
-/
namespace Crevice.Tables
open RustCode RustTypes TypeNames

/-- The semantics of the crate. -/
abbrev G (env : ForeignEnv) (n : Nat) : Sem := sem jx (outside env) n

theorem crateSem_eq (env : ForeignEnv) (n : Nat) : crateSem env n = G env n := by
  unfold crateSem
  rw [ix_eq]

/-- `c` is converted to and from `O` by `a` and `b`. -/
def Conv (env : ForeignEnv) (l : Layout) (c O : CTy) (a b : RVal → Option RVal) (n : Nat) : Prop :=
  ∃ f, (G env n).find [mod l, asTrait l] [] c = some f ∧
    (G env n).project [mod l, asTrait l] c "Output" = some O ∧
    (∀ v, (G env n).call f (asName l) (some (c, v)) [] = (a v).map fun w => (O, w)) ∧
    (∀ v, (G env n).call f (fromName l) none [(O, v)] = (b v).map fun w => (c, w))

/-- Layout, alignment and traits of an Output type. -/
structure OutOk (env : ForeignEnv) (l : Layout) (O : CTy) (r : RTy) (al : Nat) (dbg : Bool) (n : Nat) : Prop where
  layout : (G env n).layout O = some r
  std : ∃ f, (G env n).find [mod l, stdTrait l] [] O = some f ∧
    (assocConst f.items "ALIGNMENT").bind ((G env n).const f.scope []) = some (.nat al)
  debug : (G env n).implements ["Debug"] O = some dbg
  zeroable : (G env n).implements ["Zeroable"] O = some true
  pod : (G env n).implements ["Pod"] O = some true
  copy : (G env n).implements ["Copy"] O = some true
  clone : (G env n).implements ["Clone"] O = some true

theorem textImpl_some {env : ForeignEnv} {n : Nat} {l : Layout} {t : RustCode.Ty} {c O : CTy} {i : Impl}
    (hn : (G env n).norm topScope t = some c) (hc : Conv env l c O i.asStd i.fromStd n)
    (ho : OutOk env l O i.out i.alignment i.outDebug n) : textImpl env n l t = some i := by
  obtain ⟨f, hf, hp, ha, hb⟩ := hc
  obtain ⟨g, hg, hal⟩ := ho.std
  unfold textImpl semImpl
  rw [crateSem_eq, hn]
  simp only [Option.bind_some, hf, hp, ho.layout, hg, hal, ho.debug, ha, hb, Option.map_map]
  congr 1
  cases i
  simp only [Impl.mk.injEq, true_and]
  exact ⟨by funext v; simp [Function.comp_def], by funext v; simp [Function.comp_def], trivial⟩

theorem textImpl_none_of_norm {env : ForeignEnv} {n : Nat} {l : Layout} {t : RustCode.Ty}
    (hn : (G env n).norm topScope t = none) : textImpl env n l t = none := by
  unfold textImpl
  rw [crateSem_eq, hn]
  rfl

theorem textImpl_none {env : ForeignEnv} {n : Nat} {l : Layout} {t : RustCode.Ty} {c : CTy}
    (hn : (G env n).norm topScope t = some c) (hc : (G env n).candidates [mod l, asTrait l] [] c = some []) :
    textImpl env n l t = none := by
  unfold textImpl semImpl
  rw [crateSem_eq, hn]
  simp only [Option.bind_some, Sem.find, hc]
  rfl

/-! ### Rules -/

theorem eval_succ (env : ForeignEnv) (n : Nat) (s : Scope) (l : Locals) (w : Option CTy) (e : Expr) :
    (G env (n + 1)).eval s l w e = evalRule jx (outside env) (G env n) s l w e := rfl

theorem norm_succ (env : ForeignEnv) (n : Nat) (s : Scope) (t : RustCode.Ty) :
    (G env (n + 1)).norm s t = normRule jx (G env n) s t := rfl

theorem candidates_succ (env : ForeignEnv) (n : Nat) (t : List String) (args : List CTy) (c : CTy) :
    (G env (n + 1)).candidates t args c = filterMapM (applies jx (G env n) args c) (jx.impls t) := rfl

theorem implements_succ (env : ForeignEnv) (n : Nat) (t : List String) (c : CTy) :
    (G env (n + 1)).implements t c = implementsRule jx (outside env) (G env n) t c := rfl

theorem layout_succ (env : ForeignEnv) (n : Nat) (c : CTy) :
    (G env (n + 1)).layout c = layoutRule jx (outside env) (G env n) c := rfl

theorem const_succ (env : ForeignEnv) (n : Nat) (s : Scope) (l : List (String × Const)) (e : Expr) :
    (G env (n + 1)).const s l e = constRule jx (outside env) (G env n) s l e := rfl

theorem find_of_candidates {g : Sem} {t : List String} {args : List CTy} {c : CTy} {f : Found}
    (h : g.candidates t args c = some [f]) : g.find t args c = some f := by
  unfold Sem.find
  rw [h]
  rfl

theorem getField_eq {f : String} (hf : f ≠ "0") (v : RVal) : getField v f = v.field f := by
  simp [getField, hf]

theorem forall_of_map {α β : Type} {f g : α → β} {l : List α} (h : l.map f = l.map g) : ∀ x ∈ l, f x = g x := by
  simpa using h

/-! ### Bodies of `easy_impl!` -/

theorem mapM_zip_map {α β γ : Type} (xs : List α) (h : α → β) (f : α × β → Option γ) :
    (xs.zip (xs.map h)).mapM f = xs.mapM fun x => f (x, h x) := by
  induction xs with
  | nil => rfl
  | cons x xs ih => simp only [List.map_cons, List.zip_cons_cons, List.mapM_cons, ih]

theorem mapM_congr' {α β : Type} {f g : α → Option β} {l : List α} (h : ∀ x ∈ l, f x = g x) : l.mapM f = l.mapM g := by
  induction l with
  | nil => rfl
  | cons x xs ih =>
    simp only [List.mapM_cons]
    rw [h x (by simp), ih fun y hy => h y (by simp [hy])]

/-- Field access in an expression. -/
theorem eval_field {env : ForeignEnv} {n : Nat} {s : Scope} {l : Locals} {w : Option CTy} {x f : String} {c d : CTy}
    {v : RVal} {fs : List (String × CTy)} (hx : l.lookup x = some (c, v))
    (hfs : fieldsOf jx (outside env) (G env (n + 1)) c = some fs) (hf : fs.lookup f = some d) :
    (G env (n + 2)).eval s l w (.field (.var x) f) = (getField v f).map fun y => (d, y) := by
  rw [eval_succ]
  simp only [evalRule]
  rw [eval_succ]
  simp only [evalRule, hx, Option.bind_some, hfs, hf]

theorem easyAs_eval {env : ForeignEnv} {l : Layout} {n : Nat} {s : Scope} {c d O dO : CTy} {w : Option CTy} {v : RVal}
    {stdName : String} {fields : List String} {a b : RVal → Option RVal} {r : RTy} {fsO fsC : List (String × CTy)}
    (hnorm : (G env (n + 3)).norm s (inMod l stdName) = some O)
    (hO : fieldsOf jx (outside env) (G env (n + 3)) O = some fsO)
    (hC : fieldsOf jx (outside env) (G env (n + 1)) c = some fsC)
    (hCf : ∀ f ∈ fields, fsC.lookup f = some d) (h0 : "0" ∉ fields)
    (hz : (G env (n + 2)).implements ["Zeroable"] O = some true) (hl : (G env (n + 2)).layout O = some r)
    (hcomp : Conv env l d dO a b (n + 2)) :
    (G env (n + 5)).eval s [("self", c, v)] w (easyAs l stdName fields) =
      ((fields.mapM fun f => (v.field f).bind fun x => (a x).map fun y => (f, y)).bind fun inits =>
        structUpdate (fsO.map Prod.fst) inits (zeroed r)).map fun u => (O, u) := by
  obtain ⟨fd, hfd, -, hcall, -⟩ := hcomp
  have hfield : ∀ f ∈ fields, ∀ w', (G env (n + 3)).eval s [("self", c, v)] w'
      (.method (.field (.var "self") f) (asName l) []) =
      ((v.field f).bind a).map fun y => (dO, y) := by
    intro f hf w'
    have hne : f ≠ "0" := fun e => h0 (e ▸ hf)
    rw [eval_succ]
    simp only [evalRule]
    rw [eval_field (c := c) (v := v) (by rfl) hC (hCf f hf), getField_eq hne]
    have hinto : asName l ≠ "into" := by cases l <;> decide
    cases v.field f with
    | none => rfl
    | some x =>
      simp only [Option.map_some, Option.bind_some, hinto, if_false, owner_as, hfd, hcall]
  have hbase : ∀ O', O' = some O → (G env (n + 3)).eval s [("self", c, v)] O'
      (.call (.path (.path ["bytemuck", "Zeroable", "zeroed"] [])) []) = some (O, zeroed r) := by
    intro O' h
    subst h
    rw [eval_succ]
    simp only [evalRule, if_true, Option.bind_some, hz, hl, Option.map_some]
  unfold easyAs
  rw [eval_succ]
  simp only [evalRule, evalStmts, Option.bind_some]
  rw [eval_succ]
  simp only [evalRule, hnorm, hO, Option.bind_some, hbase _ rfl, evalFields, mapM_zip_map]
  rw [mapM_congr' (g := fun f => (v.field f).bind fun x => (a x).map fun y => (f, y))]
  · rw [Option.map_bind]
    rfl
  · intro f hf
    rw [hfield f hf]
    cases v.field f with
    | none => rfl
    | some x => simp [Function.comp_def]

theorem easyFrom_eval {env : ForeignEnv} {l : Layout} {n : Nat} {s : Scope} {c d O dO : CTy} {w : Option CTy} {v : RVal}
    {fields : List String} {a b : RVal → Option RVal} {fsO fsC : List (String × CTy)}
    (hself : s.vars.lookup "Self" = some c)
    (hO : fieldsOf jx (outside env) (G env (n + 1)) O = some fsO)
    (hC : fieldsOf jx (outside env) (G env (n + 3)) c = some fsC)
    (hOf : ∀ f ∈ fields, fsO.lookup f = some dO)
    (hCf : ∀ f ∈ fields, fsC.lookup f = some d) (h0 : "0" ∉ fields)
    (hcomp : Conv env l d dO a b (n + 2)) :
    (G env (n + 5)).eval s [("value", O, v)] w (easyFrom l fields) =
      ((fields.mapM fun f => (v.field f).bind fun x => (b x).map fun y => (f, y)).bind fun inits =>
        structNew (fsC.map Prod.fst) inits).map fun u => (c, u) := by
  obtain ⟨fd, hfd, -, -, hcall⟩ := hcomp
  have hres : resolveName jx.names s.module ["crate", mod l, asTrait l] = some [mod l, asTrait l] := by
    cases l <;> kernel_rfl
  have hfield : ∀ f ∈ fields, (G env (n + 3)).eval s [("value", O, v)] (fsC.lookup f)
      (.call (.path (.proj (ty "_") (inMod l (asTrait l)) [fromName l])) [.field (.var "value") f]) =
      ((v.field f).bind b).map fun y => (d, y) := by
    intro f hf
    have hne : f ≠ "0" := fun e => h0 (e ▸ hf)
    rw [hCf f hf, eval_succ]
    simp only [evalRule, Option.bind_some, hres, hfd]
    rw [eval_field (c := O) (v := v) (by rfl) hO (hOf f hf), getField_eq hne]
    cases v.field f with
    | none => rfl
    | some x => simp only [Option.map_some, Option.bind_some, hcall]
  have hn : (G env (n + 3)).norm s (ty "Self") = some c := by
    rw [norm_succ]
    simp [normRule, hself]
  unfold easyFrom
  rw [eval_succ]
  simp only [evalRule, evalStmts, Option.bind_some]
  rw [eval_succ]
  simp only [evalRule, hn, hC, Option.bind_some, evalFields, mapM_zip_map]
  rw [mapM_congr' (g := fun f => (v.field f).bind fun x => (b x).map fun y => (f, y))]
  · rw [Option.map_bind]
    rfl
  · intro f hf
    rw [hfield f hf]
    cases v.field f with
    | none => rfl
    | some x => simp [Function.comp_def]

end Crevice.Tables
