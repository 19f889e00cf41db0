import Verif.Proof.TextDynamic
/-
What the text of the crate says about its types: `DynamicUniformStd140`.
-/
namespace Crevice.Tables
open RustCode RustTypes TypeNames

theorem candidates_of_find {g : Sem} {t : List String} {args : List CTy} {c : CTy} {f : Found}
    (h : g.find t args c = some f) : g.candidates t args c = some [f] := by
  unfold Sem.find at h
  cases hc : g.candidates t args c with
  | none => rw [hc] at h; exact absurd h (by simp)
  | some fs =>
    rw [hc] at h
    match fs, h with
    | [x], h => cases h; rfl

/-- An implementation for `DynamicUniformStd140<c>`. -/
def dynOutFound (c : CTy) (t : String) (items : List Assoc) : Found :=
  { scope := { module := "std140", vars := [("Self", dynOut c), ("T", c)], assoc := [], bounds := [(ty "T", [ty t])] }
    items := items }

section
variable (env : ForeignEnv) (k : Nat) (c : CTy)

theorem dynOut_std_applies : applies jx (G env (k + 1)) [] (dynOut c) dynamicStdDef =
    ((G env (k + 1)).implements ["std140", "Std140"] c).map fun b =>
      if b then some (dynOutFound c "Std140" dynamicStdDef.items) else none := by
  have h : applies jx (G env (k + 1)) [] (dynOut c) dynamicStdDef =
      ((allM (fun t => (G env (k + 1)).implements t c) [["std140", "Std140"]]).bind fun b =>
        if b then allM (fun _ => (none : Option Bool)) ([] : List Unit) else some false).map fun b =>
          if b then some (dynOutFound c "Std140" dynamicStdDef.items) else none := by
    kernel_rfl
  rw [h]
  simp only [allM]
  cases (G env (k + 1)).implements ["std140", "Std140"] c with
  | none => rfl
  | some b => cases b <;> rfl

theorem dynOut_std_rest :
    filterMapM (applies jx (G env (k + 1)) [] (dynOut c)) ((stdDefs .std140).drop 1) = some [] := by
  kernel_rfl

theorem dynOut_std430 : (G env (k + 1)).candidates ["std430", "Std430"] [] (dynOut c) = some [] := by
  kernel_rfl

theorem dynOut_std {f : Found} (h : (G env k).find ["std140", "Std140"] [] c = some f) :
    (G env (k + 2)).candidates ["std140", "Std140"] [] (dynOut c) =
      some [dynOutFound c "Std140" dynamicStdDef.items] := by
  have e : (G env (k + 2)).candidates ["std140", "Std140"] [] (dynOut c) =
      filterMapM (applies jx (G env (k + 1)) [] (dynOut c)) ([dynamicStdDef] ++ (stdDefs .std140).drop 1) := rfl
  rw [e, filterMapM_append, dynOut_std_rest]
  simp only [filterMapM]
  rw [dynOut_std_applies, implements_of_candidates (candidates_of_find h) rfl]
  rfl

theorem dynOut_pod_applies (t : String) (ht : t = "Zeroable" ∨ t = "Pod") :
    applies jx (G env (k + 1)) [] (dynOut c) (dynamicPodDef t) =
    ((G env (k + 1)).implements [t] c).map fun b => if b then some (dynOutFound c t []) else none := by
  have h : applies jx (G env (k + 1)) [] (dynOut c) (dynamicPodDef t) =
      ((allM (fun t => (G env (k + 1)).implements t c) [[t]]).bind fun b =>
        if b then allM (fun _ => (none : Option Bool)) ([] : List Unit) else some false).map fun b =>
          if b then some (dynOutFound c t []) else none := by
    rcases ht with rfl | rfl <;> kernel_rfl
  rw [h]
  simp only [allM]
  cases (G env (k + 1)).implements [t] c with
  | none => rfl
  | some b => cases b <;> rfl

theorem dynOut_pod_rest (t : String) (ht : t = "Zeroable" ∨ t = "Pod") :
    filterMapM (applies jx (G env (k + 1)) [] (dynOut c)) ((podDefs t).drop 1) = some [] := by
  rcases ht with rfl | rfl <;> kernel_rfl

theorem dynOut_pod (t : String) (ht : t = "Zeroable" ∨ t = "Pod")
    (h : (G env (k + 1)).implements [t] c = some true) : (G env (k + 3)).implements [t] (dynOut c) = some true := by
  have hd : (G env (k + 2)).candidates [t] [] (dynOut c) = some [dynOutFound c t []] := by
    have e : (G env (k + 2)).candidates [t] [] (dynOut c) =
        filterMapM (applies jx (G env (k + 1)) [] (dynOut c)) ([dynamicPodDef t] ++ (podDefs t).drop 1) := by
      rcases ht with rfl | rfl <;> rfl
    rw [e, filterMapM_append, dynOut_pod_rest _ _ _ _ ht]
    simp only [filterMapM]
    rw [dynOut_pod_applies _ _ _ _ ht, h]
    rfl
  rw [implements_succ]
  unfold implementsRule
  rw [hd]
  rfl

theorem dynOut_copy (t : String) (ht : t = "Copy" ∨ t = "Clone")
    (h : (G env (k + 1)).implements [t] c = some true) : (G env (k + 2)).implements [t] (dynOut c) = some true := by
  have e : (G env (k + 2)).implements [t] (dynOut c) = allM (fun t' => (G env (k + 1)).implements t' c) [[t]] := by
    rcases ht with rfl | rfl <;> kernel_rfl
  rw [e]
  simp only [allM, h]
  rfl

theorem dynOut_debug : (G env (k + 2)).implements ["Debug"] (dynOut c) = some false := by
  kernel_rfl

theorem dynOut_layout {r : RTy} (h : (G env (k + 1)).layout c = some r) :
    (G env (k + 2)).layout (dynOut c) = some (.newtype r) := by
  have e : (G env (k + 2)).layout (dynOut c) =
      (([("0", c)].mapM fun f : String × CTy => ((G env (k + 1)).layout f.2).map fun r => (f.1, r)).bind fun rs =>
        match rs with
        | [(f, r)] => if f = "0" then some (.newtype r) else none
        | _ => none) := by kernel_rfl
  rw [e]
  simp only [List.mapM_cons, List.mapM_nil, h]
  rfl

theorem dynOut_align {f : Found} {al : Nat} (hf : (G env (k + 3)).find ["std140", "Std140"] [] c = some f)
    (hal : (assocConst f.items "ALIGNMENT").bind ((G env (k + 3)).const f.scope []) = some (.nat al)) :
    (G env (k + 5)).const (dynOutFound c "Std140" dynamicStdDef.items).scope []
      (.call (.var "max") [.num 256 "", .path (.path ["T", "ALIGNMENT"] [])]) = some (.nat (constMax 256 al)) := by
  have hT : (G env (k + 4)).const (dynOutFound c "Std140" dynamicStdDef.items).scope []
      (.path (.path ["T", "ALIGNMENT"] [])) = some (.nat al) := by
    have e : (G env (k + 4)).const (dynOutFound c "Std140" dynamicStdDef.items).scope []
        (.path (.path ["T", "ALIGNMENT"] [])) = ((G env (k + 3)).find ["std140", "Std140"] [] c).bind fun f =>
          (assocConst f.items "ALIGNMENT").bind fun e => (G env (k + 3)).const f.scope [] e := by kernel_rfl
    rw [e, hf]
    exact hal
  have hmax : ∀ al, (G env (k + 4)).const ⟨"internal", [], [], []⟩ [("a", .nat 256), ("b", .nat al)]
      (Parsed.internal2_max.body.getD (.var "")) = if 256 > al then some (.nat 256) else some (.nat al) := by
    intro al
    kernel_rfl
  have e : (G env (k + 5)).const (dynOutFound c "Std140" dynamicStdDef.items).scope []
      (.call (.var "max") [.num 256 "", .path (.path ["T", "ALIGNMENT"] [])]) =
      (([.num 256 "", .path (.path ["T", "ALIGNMENT"] [])] : List Expr).mapM
        ((G env (k + 4)).const (dynOutFound c "Std140" dynamicStdDef.items).scope [])).bind fun vs =>
          (G env (k + 4)).const ⟨"internal", [], [], []⟩ (["a", "b"].zip vs) (Parsed.internal2_max.body.getD (.var "")) := by
    rw [const_succ]
    kernel_rfl
  have hn : (G env (k + 4)).const (dynOutFound c "Std140" dynamicStdDef.items).scope [] (.num 256 "") =
      some (.nat 256) := rfl
  rw [e]
  simp only [List.mapM_cons, List.mapM_nil, hT, hn]
  refine (hmax al).trans ?_
  unfold constMax
  split <;> rfl

theorem dynOut_as (h : ∃ f, (G env k).find ["std140", "Std140"] [] c = some f) :
    (G env (k + 4)).candidates [mod .std140, asTrait .std140] [] (dynOut c) = some [blanketFound .std140 (dynOut c)] := by
  obtain ⟨f, h⟩ := h
  have e : (G env (k + 4)).candidates [mod .std140, asTrait .std140] [] (dynOut c) =
      filterMapM (applies jx (G env (k + 3)) [] (dynOut c)) ([blanketDef .std140] ++ (asDefs .std140).drop 1) := rfl
  have hr : filterMapM (applies jx (G env (k + 3)) [] (dynOut c)) ((asDefs .std140).drop 1) = some [] := by kernel_rfl
  have hb : applies jx (G env (k + 3)) [] (dynOut c) (blanketDef .std140) =
      ((allM (fun t => (G env (k + 3)).implements t (dynOut c)) [["std140", "Std140"]]).bind fun b =>
        if b then allM (fun _ => (none : Option Bool)) ([] : List Unit) else some false).map fun b =>
          if b then some (blanketFound .std140 (dynOut c)) else none := by
    kernel_rfl
  rw [e, filterMapM_append, hr]
  simp only [filterMapM]
  rw [hb]
  simp only [allM, implements_of_candidates (dynOut_std _ _ _ h) rfl]
  rfl

theorem dynOut_as430 : (G env (k + 4)).candidates [mod .std430, asTrait .std430] [] (dynOut c) = some [] := by
  kernel_rfl

end

end Crevice.Tables
