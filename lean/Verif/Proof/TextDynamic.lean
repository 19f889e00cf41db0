import Verif.Proof.TextConv
/-
What the text of the crate says about its types: `DynamicUniform`.
-/
namespace Crevice.Tables
open RustCode RustTypes TypeNames

theorem filterMapM_append {α β : Type} (p : α → Option (Option β)) (xs ys : List α) :
    filterMapM p (xs ++ ys) = (filterMapM p xs).bind fun a => (filterMapM p ys).map fun b => a ++ b := by
  induction xs with
  | nil => cases h : filterMapM p ys <;> simp [filterMapM, h]
  | cons x xs ih =>
    simp only [List.cons_append, filterMapM, ih]
    cases p x with
    | none => rfl
    | some r =>
      cases filterMapM p xs with
      | none => rfl
      | some a => cases filterMapM p ys <;> simp

theorem implements_of_candidates {env : ForeignEnv} {n : Nat} {t : List String} {c : CTy} {fs : List Found}
    (h : (G env n).candidates t [] c = some fs) (ht : t.length = 2) :
    (G env (n + 1)).implements t c = some !fs.isEmpty := by
  rw [implements_succ]
  unfold implementsRule
  rw [h]
  match t, ht with
  | [a, b], _ => cases fs <;> rfl

section
variable (env : ForeignEnv) (k : Nat)

theorem dyn_blanket (c : CTy) : applies jx (G env (k + 3)) [] (dynCTy c) (blanketDef .std140) = some none := by
  kernel_rfl

theorem dyn_rest (c : CTy) : filterMapM (applies jx (G env (k + 3)) [] (dynCTy c)) ((asDefs .std140).drop 2) = some [] := by
  kernel_rfl

theorem dyn_as430 (c : CTy) : (G env (k + 4)).candidates [mod .std430, asTrait .std430] [] (dynCTy c) = some [] := by
  kernel_rfl

theorem dyn_applies (c : CTy) : applies jx (G env (k + 1)) [] (dynCTy c) dynamicDef =
    ((G env (k + 1)).implements ["std140", "AsStd140"] c).map fun b => if b then some (dynFound c) else none := by
  have h : applies jx (G env (k + 1)) [] (dynCTy c) dynamicDef =
      ((allM (fun t => (G env (k + 1)).implements t c) [["std140", "AsStd140"]]).bind fun b =>
        if b then allM (fun _ => (none : Option Bool)) ([] : List Unit) else some false).map fun b =>
          if b then some (dynFound c) else none := by
    kernel_rfl
  rw [h]
  simp only [allM]
  cases (G env (k + 1)).implements ["std140", "AsStd140"] c with
  | none => rfl
  | some b => cases b <;> rfl

theorem dyn_as (c : CTy) {fs : List Found} (h : (G env (k + 2)).candidates ["std140", "AsStd140"] [] c = some fs) :
    (G env (k + 4)).candidates [mod .std140, asTrait .std140] [] (dynCTy c) =
      some (if fs.isEmpty then [] else [dynFound c]) := by
  have e : (G env (k + 4)).candidates [mod .std140, asTrait .std140] [] (dynCTy c) =
      filterMapM (applies jx (G env (k + 3)) [] (dynCTy c)) ([blanketDef .std140] ++ ([dynamicDef] ++ (asDefs .std140).drop 2)) := rfl
  rw [e, filterMapM_append, filterMapM_append, dyn_rest]
  simp only [filterMapM]
  rw [dyn_blanket, dyn_applies, implements_of_candidates h rfl]
  cases fs <;> rfl

theorem dyn_fields (c : CTy) : fieldsOf jx (outside env) (G env (k + 1)) (dynCTy c) = some [("0", c)] := by
  kernel_rfl

theorem dynOut_fields (c : CTy) : fieldsOf jx (outside env) (G env (k + 1)) (dynOut c) = some [("0", c)] := by
  kernel_rfl

end

/-- On the value of a newtype. -/
def onNewtype (a : RVal → Option RVal) (v : RVal) : Option RVal :=
  match v with
  | .newtype x => (a x).map .newtype
  | _ => none

theorem onNewtype_eq (a : RVal → Option RVal) (v : RVal) :
    onNewtype a v = ((getField v "0").bind a).map .newtype := by
  cases v <;> rfl

theorem dynamic_conv {env : ForeignEnv} {n : Nat} {c O : CTy} {a b : RVal → Option RVal}
    (hconv : ∀ m ≥ n, Conv env .std140 c O a b m) :
    ∀ m ≥ n + 5, Conv env .std140 (dynCTy c) (dynOut O) (onNewtype a) (onNewtype b) m := by
  intro m hm
  obtain ⟨k, rfl⟩ : ∃ k, m = k + 5 := ⟨m - 5, by omega⟩
  have hcand : ∀ j ≥ n, ∃ fs : List Found, fs.isEmpty = false ∧
      (G env j).candidates ["std140", "AsStd140"] [] c = some fs := by
    intro j hj
    obtain ⟨f, hf, -⟩ := hconv j hj
    unfold Sem.find at hf
    cases hc : (G env j).candidates [mod .std140, asTrait .std140] [] c with
    | none => rw [hc] at hf; exact absurd hf (by simp)
    | some fs =>
      cases fs with
      | nil => rw [hc] at hf; exact absurd hf (by simp)
      | cons x xs => exact ⟨x :: xs, rfl, hc⟩
  have hfind : (G env (k + 5)).find [mod .std140, asTrait .std140] [] (dynCTy c) = some (dynFound c) := by
    obtain ⟨fs, h1, h2⟩ := hcand (k + 3) (by omega)
    apply find_of_candidates
    rw [dyn_as env (k + 1) c h2, h1]
    rfl
  have hproj : ∀ j ≥ n, (G env (j + 1)).norm (dynFound c).scope (.proj (ty "T") (ty "AsStd140") ["Output"]) = some O ∨
      j = 0 := by
    intro j hj
    cases j with
    | zero => exact .inr rfl
    | succ j =>
      left
      obtain ⟨-, -, h, -⟩ := hconv (j + 1) hj
      have hT : (G env (j + 1)).norm (dynFound c).scope (ty "T") = some c := by kernel_rfl
      have hA : resolveName jx.names (dynFound c).scope.module ["AsStd140"] = some ["std140", "AsStd140"] := by
        kernel_rfl
      rw [norm_succ]
      simp only [normRule, hT, hA, Option.bind_some]
      exact h
  have hout : ∀ j ≥ n + 1, (G env (j + 2)).norm (dynFound c).scope
      (.path ["DynamicUniformStd140"] [.proj (ty "T") (ty "AsStd140") ["Output"]]) = some (dynOut O) := by
    intro j hj
    have hp := (hproj j (by omega)).resolve_right (by omega)
    rw [norm_succ]
    show ((some ["std140", "DynamicUniformStd140"]).bind fun q =>
      (([.proj (ty "T") (ty "AsStd140") ["Output"]] : List RustCode.Ty).mapM
        ((G env (j + 1)).norm (dynFound c).scope)).map (CTy.named q)) = _
    simp only [List.mapM_cons, List.mapM_nil, hp]
    rfl
  refine ⟨_, hfind, ?_, ?_, ?_⟩
  · unfold Sem.project
    rw [hfind, Option.bind_some]
    exact hout (k + 3) (by omega)
  · intro v
    obtain ⟨fc, hfc, -, hcall, -⟩ := hconv (k + 2) (by omega)
    have e : assocFn (dynFound c).items (asName .std140) = some (asFn .std140
        (.block [] (.call (.var "DynamicUniformStd140") [.method (.field (.var "self") "0") "as_std140" []]))) := by
      kernel_rfl
    have hs : (G env (k + 5)).norm (dynFound c).scope selfOutput = some (dynOut O) := by
      rw [norm_succ]
      exact hout (k + 2) (by omega)
    have hres : resolveName jx.names (dynFound c).scope.module ["DynamicUniformStd140"] =
        some ["std140", "DynamicUniformStd140"] := by kernel_rfl
    have hm : ∀ w, (G env (k + 3)).eval (dynFound c).scope [("self", dynCTy c, v)] w
        (.method (.field (.var "self") "0") "as_std140" []) = ((getField v "0").bind a).map fun y => (O, y) := by
      intro w
      rw [eval_succ]
      simp only [evalRule]
      rw [eval_field (c := dynCTy c) (v := v) (by rfl) (dyn_fields env k c) (by rfl)]
      have ho := owner_as .std140 (dynFound c).scope
      simp only [asName, mod, asTrait] at ho
      cases getField v "0" with
      | none => rfl
      | some x =>
        simp only [Option.map_some, Option.bind_some, show ("as_std140" : String) ≠ "into" by decide, if_false, ho]
        erw [hfc]
        exact hcall x
    unfold Sem.call
    rw [e]
    simp only [Option.bind_some, asFn, List.length_nil, hs]
    rw [if_pos (by simp), eval_succ]
    simp only [evalRule, evalStmts, Option.bind_some]
    rw [eval_succ]
    simp only [evalRule, Option.bind_some, dynOut, hres, or_true, if_true]
    erw [dynOut_fields env (k + 2) O]
    simp only [Option.bind_some]
    erw [hm]
    rw [onNewtype_eq]
    simp [Function.comp_def, dynOut]
  · intro v
    obtain ⟨fc, hfc, -, -, hcall⟩ := hconv (k + 2) (by omega)
    have e : assocFn (dynFound c).items (fromName .std140) = some (fromFn .std140 "value"
        (.block [] (.call (.var "DynamicUniform")
          [.call (.path (.proj (ty "T") (ty "AsStd140") ["from_std140"])) [.field (.var "value") "0"]]))) := by
      kernel_rfl
    have hs : (G env (k + 5)).norm (dynFound c).scope (ty "Self") = some (dynCTy c) := by
      rw [norm_succ]
      rfl
    have hres : resolveName jx.names (dynFound c).scope.module ["DynamicUniform"] =
        some ["std140", "DynamicUniform"] := by kernel_rfl
    have hA : resolveName jx.names (dynFound c).scope.module ["AsStd140"] = some ["std140", "AsStd140"] := by
      kernel_rfl
    have hT : (G env (k + 2)).norm (dynFound c).scope (ty "T") = some c := by kernel_rfl
    have hm : ∀ w, (G env (k + 3)).eval (dynFound c).scope [("value", dynOut O, v)] w
        (.call (.path (.proj (ty "T") (ty "AsStd140") ["from_std140"])) [.field (.var "value") "0"]) =
          ((getField v "0").bind b).map fun y => (c, y) := by
      intro w
      rw [eval_succ]
      simp only [evalRule]
      rw [eval_field (c := dynOut O) (v := v) (by rfl) (dynOut_fields env k O) (by rfl)]
      split
      · next h => injection h with h1 h2; exact absurd h1 (by decide)
      · simp only [hT, hA, Option.bind_some]
        erw [hfc]
        simp only [Option.bind_some]
        cases getField v "0" with
        | none => rfl
        | some x => exact hcall x
    unfold Sem.call
    rw [e]
    simp only [Option.bind_some, fromFn, List.length_nil, List.length_cons, hs]
    rw [if_pos (by simp), eval_succ]
    simp only [evalRule, evalStmts, Option.bind_some]
    rw [eval_succ]
    simp only [evalRule, Option.bind_some, dynCTy, hres, or_true, if_true]
    erw [dyn_fields env (k + 2) c]
    simp only [Option.bind_some]
    erw [hm]
    rw [onNewtype_eq]
    simp [Function.comp_def, dynCTy]

end Crevice.Tables
