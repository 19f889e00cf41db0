import Verif.Proof.TextRows
import Verif.Proof.TextForeign
/-
What the text of the crate says about its types: conversions.
-/
namespace Crevice.Tables
open RustCode RustTypes TypeNames

/-! ### The implementation for all `T: StdN` -/

theorem blanket_conv {env : ForeignEnv} {l : Layout} {c : CTy} {k : Nat}
    (h : (G env (k + 4)).candidates [mod l, asTrait l] [] c = some [blanketFound l c]) :
    Conv env l c c some some (k + 4) := by
  have hn : ∀ c, (G env (k + 4)).norm (blanketFound l c).scope (ty "Self") = some c := by
    intro c
    cases l <;> kernel_rfl
  have ha : ∀ c v, (G env (k + 4)).call (blanketFound l c) (asName l) (some (c, v)) [] = some (c, v) := by
    intro c v
    cases l <;> kernel_rfl
  have hb : ∀ c v, (G env (k + 4)).call (blanketFound l c) (fromName l) none [(c, v)] = some (c, v) := by
    intro c v
    cases l <;> kernel_rfl
  refine ⟨_, find_of_candidates h, ?_, fun v => by rw [ha]; rfl, fun v => by rw [hb]; rfl⟩
  unfold Sem.project
  rw [find_of_candidates h]
  exact hn c

/-! ### `bool` -/

theorem bool_conv (env : ForeignEnv) (l : Layout) (k : Nat) :
    Conv env l (simpleCTy "bool") boolCTy (boolImpl l).asStd (boolImpl l).fromStd (k + 12) := by
  have hc := bool_as env (k + 9) l
  have hn : (G env (k + 12)).norm (boolFound l).scope (ty "Bool") = some boolCTy := by
    cases l <;> kernel_rfl
  refine ⟨_, find_of_candidates hc, ?_, ?_, ?_⟩
  · unfold Sem.project
    rw [find_of_candidates hc]
    exact hn
  · have h : ∀ v, (G env (k + 12)).call (boolFound l) (asName l) (some (simpleCTy "bool", v)) [] =
        ((G env (k + 10)).convert (outside env) (simpleCTy "bool") boolCTy v).map fun w => (boolCTy, w) := by
      intro v
      cases l <;> kernel_rfl
    intro v
    rw [h, bool_into_Bool env (k + 2)]
    rfl
  · have h : ∀ v, (G env (k + 12)).call (boolFound l) (fromName l) none [(boolCTy, v)] =
        ((G env (k + 10)).convert (outside env) boolCTy (simpleCTy "bool") v).map fun w => (simpleCTy "bool", w) := by
      intro v
      cases l <;> kernel_rfl
    intro v
    rw [h, Bool_into_bool env (k + 2)]
    rfl

/-! ### `easy_impl!` -/

theorem easy_conv {env : ForeignEnv} {l : Layout} {n : Nat} {c d O dO : CTy}
    {stdName : String} {fields : List String} {a b : RVal → Option RVal} {r : RTy} {fsO fsC : List (String × CTy)}
    (hfind : ∀ m ≥ n, (G env m).candidates [mod l, asTrait l] [] c = some [easyFound l c stdName fields])
    (hnorm : ∀ m ≥ n, ∀ s, (G env m).norm s (inMod l stdName) = some O)
    (hO : ∀ m ≥ n, fieldsOf jx (outside env) (G env m) O = some fsO)
    (hC : ∀ m ≥ n, fieldsOf jx (outside env) (G env m) c = some fsC)
    (hOf : ∀ f ∈ fields, fsO.lookup f = some dO)
    (hCf : ∀ f ∈ fields, fsC.lookup f = some d) (h0 : "0" ∉ fields)
    (hz : ∀ m ≥ n, (G env m).implements ["Zeroable"] O = some true) (hl : ∀ m ≥ n, (G env m).layout O = some r)
    (hcomp : ∀ m ≥ n, Conv env l d dO a b m) :
    ∀ m ≥ n + 5, Conv env l c O
      (fun v => (fields.mapM fun f => (v.field f).bind fun x => (a x).map fun y => (f, y)).bind fun inits =>
        structUpdate (fsO.map Prod.fst) inits (zeroed r))
      (fun v => (fields.mapM fun f => (v.field f).bind fun x => (b x).map fun y => (f, y)).bind fun inits =>
        structNew (fsC.map Prod.fst) inits) m := by
  intro m hm
  obtain ⟨k, rfl⟩ : ∃ k, m = k + 5 := ⟨m - 5, by omega⟩
  have hf := find_of_candidates (hfind (k + 5) (by omega))
  have hs : ∀ j ≥ n, (G env (j + 1)).norm (easyFound l c stdName fields).scope selfOutput = some O := by
    intro j hj
    rw [norm_succ]
    show (Option.bind (some (inMod l stdName)) _) = _
    exact hnorm j hj _
  refine ⟨_, hf, ?_, ?_, ?_⟩
  · unfold Sem.project
    rw [hf, Option.bind_some]
    show (Option.bind (some (inMod l stdName)) _) = _
    exact hnorm _ (by omega) _
  · intro v
    have e : assocFn (easyFound l c stdName fields).items (asName l) = some (asFn l (easyAs l stdName fields)) := by
      cases l <;> kernel_rfl
    unfold Sem.call
    rw [e]
    simp only [Option.bind_some, asFn, List.length_nil, hs (k + 4) (by omega)]
    rw [if_pos (by simp)]
    exact easyAs_eval (hnorm _ (by omega) _) (hO _ (by omega)) (hC _ (by omega)) hCf h0 (hz _ (by omega))
      (hl _ (by omega)) (hcomp _ (by omega))
  · intro v
    have e : assocFn (easyFound l c stdName fields).items (fromName l) =
        some (fromFn l "value" (easyFrom l fields)) := by
      cases l <;> kernel_rfl
    have hn : (G env (k + 5)).norm (easyFound l c stdName fields).scope (ty "Self") = some c := by
      rw [norm_succ]
      rfl
    unfold Sem.call
    rw [e]
    simp only [Option.bind_some, fromFn, List.length_nil, List.length_cons, hn]
    rw [if_pos (by simp)]
    exact easyFrom_eval (by rfl) (hO _ (by omega)) (hC _ (by omega)) hOf hCf h0 (hcomp _ (by omega))

/-! ### `minty_impl!` -/

theorem resolve_asTrait (l : Layout) (m : String) :
    resolveName jx.names m ["crate", mod l, asTrait l] = some [mod l, asTrait l] := by
  cases l <;> kernel_rfl

theorem convert_outside {env : ForeignEnv} {n : Nat} {c d : CTy} (h : (G env n).candidates ["From"] [c] d = some [])
    (v : RVal) : (G env n).convert (outside env) c d v = (outside env).into c d v := by
  unfold Sem.convert
  rw [h]
  rfl

theorem minty_conv {env : ForeignEnv} {l : Layout} {n : Nat} {c cm O : CTy} {name : String} {p : List String}
    {args : List RustCode.Ty} {a b : RVal → Option RVal} (hp : p ≠ ["_"])
    (hfind : ∀ m ≥ n, (G env m).candidates [mod l, asTrait l] [] c = some [mintyFound l c (.path p args)])
    (hmint : ∀ m ≥ n, (G env m).norm (mintyFound l c (.path p args)).scope (.path p args) = some cm)
    (hfrom1 : ∀ m ≥ n, (G env m).candidates ["From"] [c] cm = some [])
    (hfrom2 : ∀ m ≥ n, (G env m).candidates ["From"] [cm] c = some [])
    (hinto1 : (outside env).into c cm = env.into name) (hinto2 : (outside env).into cm c = env.ofMint name)
    (hconv : ∀ m ≥ n, Conv env l cm O a b m) :
    ∀ m ≥ n + 5, Conv env l c O (fun v => (env.into name v).bind a) (fun v => (b v).bind (env.ofMint name)) m := by
  intro m hm
  obtain ⟨k, rfl⟩ : ∃ k, m = k + 5 := ⟨m - 5, by omega⟩
  have hf := find_of_candidates (hfind (k + 5) (by omega))
  have hout : ∀ j ≥ n, (G env (j + 1)).norm (mintyFound l c (.path p args)).scope
      (.proj (.path p args) (inMod l (asTrait l)) ["Output"]) = some O := by
    intro j hj
    rw [norm_succ]
    simp only [normRule, hmint j hj, Option.bind_some, resolve_asTrait]
    obtain ⟨_, _, h, _⟩ := hconv j hj
    exact h
  have hs : ∀ j ≥ n, (G env (j + 2)).norm (mintyFound l c (.path p args)).scope selfOutput = some O := by
    intro j hj
    rw [norm_succ]
    exact hout j hj
  have hinto : asName l ≠ "into" := by cases l <;> decide
  refine ⟨_, hf, ?_, ?_, ?_⟩
  · unfold Sem.project
    rw [hf, Option.bind_some]
    exact hout (k + 4) (by omega)
  · intro v
    obtain ⟨fm, hfm, -, hcall, -⟩ := hconv (k + 3) (by omega)
    have e : ∃ body, assocFn (mintyFound l c (.path p args)).items (asName l) = some (asFn l body) ∧
        body = (.block [.bind false "mint" (.path p args) (.method (.deref (.var "self")) "into" [])]
          (.method (.var "mint") (asName l) [])) := by
      exact ⟨_, by cases l <;> rfl, rfl⟩
    obtain ⟨body, e, hbody⟩ := e
    unfold Sem.call
    rw [e]
    simp only [Option.bind_some, asFn, List.length_nil, hs (k + 3) (by omega)]
    rw [if_pos (by simp), hbody, eval_succ]
    simp only [evalRule, evalStmts, hmint (k + 4) (by omega), Option.bind_some]
    rw [eval_succ]
    simp only [evalRule, if_true]
    rw [eval_succ]
    simp only [evalRule]
    rw [eval_succ]
    simp only [evalRule, Option.map_some, Option.toList, List.map_nil, List.zip_nil_left, List.append_nil,
      List.lookup_cons_self, Option.bind_some, convert_outside (hfrom1 (k + 3) (by omega)), hinto1]
    cases env.into name v with
    | none => rfl
    | some w =>
      simp only [Option.map_some, Option.bind_some]
      rw [eval_succ]
      simp only [evalRule]
      rw [eval_succ]
      simp only [evalRule, List.lookup_cons_self, Option.bind_some, hinto, if_false, owner_as, hfm, hcall]
  · intro v
    obtain ⟨fm, hfm, -, -, hcall⟩ := hconv (k + 2) (by omega)
    have e : ∃ body, assocFn (mintyFound l c (.path p args)).items (fromName l) = some (fromFn l "value" body) ∧
        body = (.block [] (.method (.call (.path (.proj (.path p args) .unit [fromName l])) [.var "value"]) "into" [])) := by
      exact ⟨_, by cases l <;> rfl, rfl⟩
    obtain ⟨body, e, hbody⟩ := e
    have hn : (G env (k + 5)).norm (mintyFound l c (.path p args)).scope (ty "Self") = some c := by
      rw [norm_succ]
      rfl
    have hcall' : (G env (k + 3)).eval (mintyFound l c (.path p args)).scope [("value", O, v)] none
        (.call (.path (.proj (.path p args) .unit [fromName l])) [.var "value"]) = (b v).map fun w => (cm, w) := by
      rw [eval_succ]
      simp only [evalRule, hmint (k + 2) (by omega), Option.bind_some, owner_from, hfm]
      split
      · next h => exact absurd (by injection h) hp
      · simp only [Option.bind_some, hmint (k + 2) (by omega), hfm]
        rw [eval_succ]
        simp only [evalRule, List.lookup_cons_self, Option.bind_some]
        exact hcall v
    unfold Sem.call
    rw [e]
    simp only [Option.bind_some, fromFn, List.length_nil, List.length_cons, hn]
    rw [if_pos (by simp), hbody, eval_succ]
    simp only [evalRule, evalStmts, Option.bind_some]
    rw [eval_succ]
    simp only [evalRule, if_true, Option.bind_some]
    erw [hcall']
    cases b v with
    | none => rfl
    | some w =>
      simp only [Option.map_some, Option.bind_some, convert_outside (hfrom2 (k + 3) (by omega)), hinto2]

end Crevice.Tables
