import Verif.Proof.ClientCalls
/-
`DynamicUniform` of the types of a crate.
-/
namespace Crevice.ClientProof
open RustCode RustTypes TypeNames ClientText Tables
open Tokens (Ev)

variable {k : Client} {tg : Target} {env : ForeignEnv} {l : Layout}

/-! ### Implementations for the types of crevice -/

theorem lib_none {t q : List String} {cs : List CTy} (hq : q.head? ≠ some "") (g : Sem) :
    ∀ i ∈ k.ds.flatMap (implsFor t) ++ k.gs.flatMap (glslFor t), applies (kx k) g [] (.named q cs) i = some none := by
  intro i hi
  have hn : ∀ x q' cs', CTy.named q cs = .named q' cs' → q' ≠ ["", x] := by
    intro x q' cs' h h'
    injection h with h
    rw [h, h'] at hq
    exact hq rfl
  rcases List.mem_append.1 hi with hi | hi
  case inr =>
    obtain ⟨c, hc, hi⟩ := List.mem_flatMap.1 hi
    obtain ⟨h1, h2, h3⟩ := glslFor_self hi
    refine applies_none ?_
    rw [h1, h2, h3]
    exact own_no_match (src_mem (k.glslKnown c hc)) (hn _)
  obtain ⟨e, he, hi⟩ := List.mem_flatMap.1 hi
  obtain ⟨h1, h2, h3⟩ := implsFor_self hi
  refine applies_none ?_
  rw [h1, h2]
  rcases h3 with h3 | h3
  · rw [h3]
    exact client_no_match he (.inl rfl) (hn _)
  · rw [h3]
    exact client_no_match he (.inr rfl) (hn _)

theorem lib_cands {q : List String} {cs : List CTy} (hq : q.head? ≠ some "") (n : Nat) (t : List String) :
    (K k tg env (n + 1)).candidates t [] (.named q cs) =
      filterMapM (applies (kx k) (K k tg env n) [] (.named q cs)) (jx.impls t) := by
  rw [cands_all, filterMapM_append, filterMapM_nones (lib_none hq _)]
  cases filterMapM (applies (kx k) (K k tg env n) [] (.named q cs)) (jx.impls t) with
  | none => rfl
  | some fs => simp

/-! ### `DynamicUniform` -/

section
variable (k tg env) (n : Nat) (c : CTy)

theorem kdyn_std : (K k tg env (n + 1)).candidates ["std140", "Std140"] [] (dynCTy c) = some [] := by
  unfold dynCTy
  rw [lib_cands (by decide)]
  show filterMapM (applies (kx k) (K k tg env n) [] (dynCTy c)) (stdDefs .std140) = _
  kernel_rfl

theorem kdyn_rest :
    filterMapM (applies (kx k) (K k tg env (n + 3)) [] (dynCTy c)) ((asDefs .std140).drop 2) = some [] := by
  kernel_rfl

theorem kdyn_applies : applies (kx k) (K k tg env (n + 1)) [] (dynCTy c) dynamicDef =
    ((K k tg env (n + 1)).implements ["std140", "AsStd140"] c).map fun b => if b then some (dynFound c) else none := by
  have h : applies (kx k) (K k tg env (n + 1)) [] (dynCTy c) dynamicDef =
      ((allM (fun t => (K k tg env (n + 1)).implements t c) [["std140", "AsStd140"]]).bind fun b =>
        if b then allM (fun _ => (none : Option Bool)) ([] : List Unit) else some false).map fun b =>
          if b then some (dynFound c) else none := by
    kernel_rfl
  rw [h]
  simp only [allM]
  cases (K k tg env (n + 1)).implements ["std140", "AsStd140"] c with
  | none => rfl
  | some b => cases b <;> rfl

theorem kdyn_as {fs : List Found} (h : (K k tg env (n + 2)).candidates ["std140", "AsStd140"] [] c = some fs) :
    (K k tg env (n + 4)).candidates [mod .std140, asTrait .std140] [] (dynCTy c) =
      some (if fs.isEmpty then [] else [dynFound c]) := by
  have e : (K k tg env (n + 4)).candidates [mod .std140, asTrait .std140] [] (dynCTy c) =
      filterMapM (applies (kx k) (K k tg env (n + 3)) [] (dynCTy c))
        ([blanketDef .std140] ++ ([dynamicDef] ++ (asDefs .std140).drop 2)) := lib_cands (by decide) _ _
  rw [e, filterMapM_append, filterMapM_append, kdyn_rest]
  simp only [filterMapM]
  rw [blanket_applies, show (K k tg env (n + 1 + 2)).implements [mod .std140, stdTrait .std140] (dynCTy c) = some false from
    lib_implements (kdyn_std k tg env (n + 1) c) rfl, kdyn_applies, lib_implements h rfl]
  cases fs <;> rfl

theorem kdyn_fields : fieldsOf (kx k) (clientOutside tg env) (K k tg env (n + 1)) (dynCTy c) = some [("0", c)] := by
  kernel_rfl

theorem kdynOut_fields : fieldsOf (kx k) (clientOutside tg env) (K k tg env (n + 1)) (dynOut c) = some [("0", c)] := by
  kernel_rfl

theorem kdynOut_std_applies : applies (kx k) (K k tg env (n + 1)) [] (dynOut c) dynamicStdDef =
    ((K k tg env (n + 1)).implements ["std140", "Std140"] c).map fun b =>
      if b then some (dynOutFound c "Std140" dynamicStdDef.items) else none := by
  have h : applies (kx k) (K k tg env (n + 1)) [] (dynOut c) dynamicStdDef =
      ((allM (fun t => (K k tg env (n + 1)).implements t c) [["std140", "Std140"]]).bind fun b =>
        if b then allM (fun _ => (none : Option Bool)) ([] : List Unit) else some false).map fun b =>
          if b then some (dynOutFound c "Std140" dynamicStdDef.items) else none := by
    kernel_rfl
  rw [h]
  simp only [allM]
  cases (K k tg env (n + 1)).implements ["std140", "Std140"] c with
  | none => rfl
  | some b => cases b <;> rfl

theorem kdynOut_std {f : Found} (h : (K k tg env n).find ["std140", "Std140"] [] c = some f) :
    (K k tg env (n + 2)).candidates ["std140", "Std140"] [] (dynOut c) =
      some [dynOutFound c "Std140" dynamicStdDef.items] := by
  have e : (K k tg env (n + 2)).candidates ["std140", "Std140"] [] (dynOut c) =
      filterMapM (applies (kx k) (K k tg env (n + 1)) [] (dynOut c)) ([dynamicStdDef] ++ (stdDefs .std140).drop 1) :=
    lib_cands (by decide) _ _
  have hr : filterMapM (applies (kx k) (K k tg env (n + 1)) [] (dynOut c)) ((stdDefs .std140).drop 1) = some [] := by
    kernel_rfl
  rw [e, filterMapM_append, hr]
  simp only [filterMapM]
  rw [kdynOut_std_applies, lib_implements (candidates_of_find h) rfl]
  rfl

theorem kdynOut_pod (t : String) (ht : t = "Zeroable" ∨ t = "Pod")
    (h : (K k tg env (n + 1)).implements [t] c = some true) : (K k tg env (n + 3)).implements [t] (dynOut c) = some true := by
  have ha : applies (kx k) (K k tg env (n + 1)) [] (dynOut c) (dynamicPodDef t) =
      ((allM (fun t => (K k tg env (n + 1)).implements t c) [[t]]).bind fun b =>
        if b then allM (fun _ => (none : Option Bool)) ([] : List Unit) else some false).map fun b =>
          if b then some (dynOutFound c t []) else none := by
    rcases ht with rfl | rfl <;> kernel_rfl
  have hr : filterMapM (applies (kx k) (K k tg env (n + 1)) [] (dynOut c)) ((podDefs t).drop 1) = some [] := by
    rcases ht with rfl | rfl <;> kernel_rfl
  have hd : (K k tg env (n + 2)).candidates [t] [] (dynOut c) = some [dynOutFound c t []] := by
    have e : (K k tg env (n + 2)).candidates [t] [] (dynOut c) =
        filterMapM (applies (kx k) (K k tg env (n + 1)) [] (dynOut c)) ([dynamicPodDef t] ++ (podDefs t).drop 1) := by
      rcases ht with rfl | rfl <;> exact lib_cands (by decide) _ _
    rw [e, filterMapM_append, hr]
    simp only [filterMapM]
    rw [ha]
    simp only [allM, h]
    rfl
  rw [implements_next]
  unfold implementsRule
  rw [hd]
  rfl

theorem kdynOut_derived (t : String) (ht : t = "Copy" ∨ t = "Clone" ∨ t = "Debug") :
    (K k tg env (n + 1)).candidates [t] [] (dynOut c) = some [] := by
  rcases ht with rfl | rfl | rfl
  · exact lib_cands (by decide) _ _
  · exact lib_cands (by decide) _ _
  · refine (lib_cands (by decide) _ _).trans ?_
    show filterMapM (applies (kx k) (K k tg env n) [] (dynOut c)) [plainDef "bool" (ty "Bool") [.fn Parsed.bool7_fmt]] = _
    kernel_rfl

theorem kdynOut_copy (t : String) (ht : t = "Copy" ∨ t = "Clone")
    (h : (K k tg env (n + 1)).implements [t] c = some true) : (K k tg env (n + 2)).implements [t] (dynOut c) = some true := by
  have hd : t = "Copy" ∨ t = "Clone" ∨ t = "Debug" := by rcases ht with h | h <;> simp [h]
  rw [implements_next]
  unfold implementsRule
  rw [kdynOut_derived k tg env n c t hd]
  have e : (fun x : Option Bool => x) (match t, ((kx k).structs.lookup ["std140", "DynamicUniformStd140"]) with
    | _, some d => if d.derives.contains t then allM (fun t' => (K k tg env (n + 1)).implements t' c) [[t]] else some false
    | _, none => none) = some true := by
    rcases ht with rfl | rfl
    · refine Eq.trans (b := allM (fun t' => (K k tg env (n + 1)).implements t' c) [["Copy"]]) (by kernel_rfl) ?_
      simp only [allM, h]
      rfl
    · refine Eq.trans (b := allM (fun t' => (K k tg env (n + 1)).implements t' c) [["Clone"]]) (by kernel_rfl) ?_
      simp only [allM, h]
      rfl
  refine Eq.trans ?_ e
  rcases ht with rfl | rfl <;> kernel_rfl

theorem kdynOut_debug : (K k tg env (n + 2)).implements ["Debug"] (dynOut c) = some false := by
  rw [implements_next]
  unfold implementsRule
  rw [kdynOut_derived k tg env n c "Debug" (by simp)]
  kernel_rfl

theorem kdynOut_layout {r : RTy} (h : (K k tg env (n + 1)).layout c = some r) :
    (K k tg env (n + 2)).layout (dynOut c) = some (.newtype r) := by
  have e : (K k tg env (n + 2)).layout (dynOut c) =
      (([("0", c)].mapM fun f : String × CTy => ((K k tg env (n + 1)).layout f.2).map fun r => (f.1, r)).bind fun rs =>
        match rs with
        | [(f, r)] => if f = "0" then some (.newtype r) else none
        | _ => none) := by kernel_rfl
  rw [e]
  simp only [List.mapM_cons, List.mapM_nil, h]
  rfl

theorem kdynOut_align {f : Found} {al : Nat} (hf : (K k tg env (n + 3)).find ["std140", "Std140"] [] c = some f)
    (hal : (assocConst f.items "ALIGNMENT").bind ((K k tg env (n + 3)).const f.scope []) = some (.nat al)) :
    (K k tg env (n + 5)).const (dynOutFound c "Std140" dynamicStdDef.items).scope []
      (.call (.var "max") [.num 256 "", .path (.path ["T", "ALIGNMENT"] [])]) = some (.nat (constMax 256 al)) := by
  have hT : (K k tg env (n + 4)).const (dynOutFound c "Std140" dynamicStdDef.items).scope []
      (.path (.path ["T", "ALIGNMENT"] [])) = some (.nat al) := by
    have e : (K k tg env (n + 4)).const (dynOutFound c "Std140" dynamicStdDef.items).scope []
        (.path (.path ["T", "ALIGNMENT"] [])) = ((K k tg env (n + 3)).find ["std140", "Std140"] [] c).bind fun f =>
          (assocConst f.items "ALIGNMENT").bind fun e => (K k tg env (n + 3)).const f.scope [] e := by kernel_rfl
    rw [e, hf]
    exact hal
  have hmax : ∀ al, (K k tg env (n + 4)).const ⟨"internal", [], [], []⟩ [("a", .nat 256), ("b", .nat al)]
      (Parsed.internal2_max.body.getD (.var "")) = if 256 > al then some (.nat 256) else some (.nat al) := by
    intro al
    kernel_rfl
  have e : (K k tg env (n + 5)).const (dynOutFound c "Std140" dynamicStdDef.items).scope []
      (.call (.var "max") [.num 256 "", .path (.path ["T", "ALIGNMENT"] [])]) =
      (([.num 256 "", .path (.path ["T", "ALIGNMENT"] [])] : List Expr).mapM
        ((K k tg env (n + 4)).const (dynOutFound c "Std140" dynamicStdDef.items).scope [])).bind fun vs =>
          (K k tg env (n + 4)).const ⟨"internal", [], [], []⟩ (["a", "b"].zip vs) (Parsed.internal2_max.body.getD (.var "")) := by
    rw [const_next]
    kernel_rfl
  have hn : (K k tg env (n + 4)).const (dynOutFound c "Std140" dynamicStdDef.items).scope [] (.num 256 "") =
      some (.nat 256) := rfl
  rw [e]
  simp only [List.mapM_cons, List.mapM_nil, hT, hn]
  refine (hmax al).trans ?_
  unfold constMax
  split <;> rfl

theorem kdynOut_as (h : ∃ f, (K k tg env n).find ["std140", "Std140"] [] c = some f) :
    (K k tg env (n + 4)).candidates [mod .std140, asTrait .std140] [] (dynOut c) = some [blanketFound .std140 (dynOut c)] := by
  obtain ⟨f, h⟩ := h
  have e : (K k tg env (n + 4)).candidates [mod .std140, asTrait .std140] [] (dynOut c) =
      filterMapM (applies (kx k) (K k tg env (n + 3)) [] (dynOut c)) ([blanketDef .std140] ++ (asDefs .std140).drop 1) :=
    lib_cands (by decide) _ _
  have hr : filterMapM (applies (kx k) (K k tg env (n + 3)) [] (dynOut c)) ((asDefs .std140).drop 1) = some [] := by
    kernel_rfl
  rw [e, filterMapM_append, hr]
  simp only [filterMapM]
  rw [blanket_applies, show (K k tg env (n + 1 + 2)).implements [mod .std140, stdTrait .std140] (dynOut c) = some true from
    lib_implements (kdynOut_std k tg env n c h) rfl]
  rfl

end

/-! ### Both fit -/

theorem eval_newtype {n : Nat} {s : Scope} {ls : Locals} {w : Option CTy} {x f : String} {c d : CTy} {v : RVal}
    {fs : List (String × CTy)} (hx : ls.lookup x = some (c, v))
    (hfs : fieldsOf (kx k) (clientOutside tg env) (K k tg env (n + 1)) c = some fs) (hf : fs.lookup f = some d) :
    (K k tg env (n + 2)).eval s ls w (.field (.var x) f) = (getField v f).map fun y => (d, y) := by
  rw [eval_next]
  simp only [evalRule]
  rw [eval_next]
  simp only [evalRule, hx, Option.bind_some, hfs, hf]

section
variable {N : Nat} {c O : CTy} {i : Impl} (h : ∀ m ≥ N, FitAt (K k tg env m) .std140 c O i)
include h

theorem kdyn_find : ∀ j ≥ N, (K k tg env (j + 4)).find [mod .std140, asTrait .std140] [] (dynCTy c) = some (dynFound c) := by
  intro j hj
  obtain ⟨f, hf, -⟩ := (h (j + 2) (by omega)).conv
  exact find_of_candidates (kdyn_as k tg env j c (candidates_of_find hf))

theorem kdyn_out : ∀ j ≥ N + 1, (K k tg env (j + 2)).norm (dynFound c).scope
    (.path ["DynamicUniformStd140"] [.proj (ty "T") (ty "AsStd140") ["Output"]]) = some (dynOut O) := by
  intro j hj
  obtain ⟨j, rfl⟩ : ∃ i, j = i + 1 := ⟨j - 1, by omega⟩
  have hT : (K k tg env (j + 1)).norm (dynFound c).scope (ty "T") = some c := by kernel_rfl
  have hA : resolveName (kx k).names (dynFound c).scope.module ["AsStd140"] = some ["std140", "AsStd140"] := by
    kernel_rfl
  have hp : (K k tg env (j + 1 + 1)).norm (dynFound c).scope (.proj (ty "T") (ty "AsStd140") ["Output"]) = some O := by
    rw [norm_next]
    simp only [normRule, hT, hA, Option.bind_some]
    exact (h (j + 1) (by omega)).project
  have hD : resolveName (kx k).names (dynFound c).scope.module ["DynamicUniformStd140"] =
      some ["std140", "DynamicUniformStd140"] := by kernel_rfl
  rw [norm_next, normRule_path, if_neg (by decide), normNamed_free (by intro x hx; injection hx with hx; subst hx; rfl), hD]
  simp only [Option.bind_some, List.mapM_cons, List.mapM_nil, hp]
  rfl

theorem kdyn_call_as : ∀ j ≥ N + 1, ∀ v, (K k tg env (j + 5)).call (dynFound c) (asName .std140) (some (dynCTy c, v)) [] =
    ((dynamicImpl i).asStd v).map fun w => (dynOut O, w) := by
  intro n hn v
  obtain ⟨fc, hfc, hcall, -⟩ := (h (n + 2) (by omega)).conv
  have e : assocFn (dynFound c).items (asName .std140) = some (asFn .std140
      (.block [] (.call (.var "DynamicUniformStd140") [.method (.field (.var "self") "0") "as_std140" []]))) := by
    kernel_rfl
  have hs : (K k tg env (n + 5)).norm (dynFound c).scope selfOutput = some (dynOut O) := by
    rw [norm_next]
    exact kdyn_out h (n + 2) (by omega)
  have hres : resolveName (kx k).names (dynFound c).scope.module ["DynamicUniformStd140"] =
      some ["std140", "DynamicUniformStd140"] := by kernel_rfl
  have hm : ∀ w, (K k tg env (n + 3)).eval (dynFound c).scope [("self", dynCTy c, v)] w
      (.method (.field (.var "self") "0") "as_std140" []) = ((getField v "0").bind i.asStd).map fun y => (O, y) := by
    intro w
    rw [eval_next]
    simp only [evalRule]
    rw [eval_newtype (c := dynCTy c) (v := v) (by rfl) (kdyn_fields k tg env n c) (by rfl)]
    have ho := owner_client k .std140 (dynFound c).scope
    simp only [asName, mod, asTrait] at ho
    cases getField v "0" with
    | none => rfl
    | some x =>
      simp only [Option.map_some, Option.bind_some, show ("as_std140" : String) ≠ "into" by decide, if_false, ho]
      erw [hfc]
      exact hcall x
  unfold Sem.call
  rw [e]
  simp only [Option.bind_some, asFn, List.length_nil, hs]
  rw [if_pos (by simp), eval_next]
  simp only [evalRule, evalStmts, Option.bind_some]
  rw [eval_next]
  simp only [evalRule, Option.bind_some, dynOut, hres, or_true, if_true]
  erw [kdynOut_fields k tg env (n + 2) O]
  simp only [Option.bind_some]
  erw [hm]
  rw [show (dynamicImpl i).asStd v = onNewtype i.asStd v from by cases v <;> rfl, onNewtype_eq]
  simp [Function.comp_def, dynOut]

theorem kdyn_call_from : ∀ j ≥ N + 1, ∀ v, (K k tg env (j + 5)).call (dynFound c) (fromName .std140) none [(dynOut O, v)] =
    ((dynamicImpl i).fromStd v).map fun w => (dynCTy c, w) := by
  intro n hn v
  obtain ⟨fc, hfc, -, hcall⟩ := (h (n + 2) (by omega)).conv
  have e : assocFn (dynFound c).items (fromName .std140) = some (fromFn .std140 "value"
      (.block [] (.call (.var "DynamicUniform")
        [.call (.path (.proj (ty "T") (ty "AsStd140") ["from_std140"])) [.field (.var "value") "0"]]))) := by
    kernel_rfl
  have hs : (K k tg env (n + 5)).norm (dynFound c).scope (ty "Self") = some (dynCTy c) := by
    rw [norm_next]
    rfl
  have hres : resolveName (kx k).names (dynFound c).scope.module ["DynamicUniform"] =
      some ["std140", "DynamicUniform"] := by kernel_rfl
  have hA : resolveName (kx k).names (dynFound c).scope.module ["AsStd140"] = some ["std140", "AsStd140"] := by
    kernel_rfl
  have hT : (K k tg env (n + 2)).norm (dynFound c).scope (ty "T") = some c := by kernel_rfl
  have hm : ∀ w, (K k tg env (n + 3)).eval (dynFound c).scope [("value", dynOut O, v)] w
      (.call (.path (.proj (ty "T") (ty "AsStd140") ["from_std140"])) [.field (.var "value") "0"]) =
        ((getField v "0").bind i.fromStd).map fun y => (c, y) := by
    intro w
    rw [eval_next]
    simp only [evalRule]
    rw [eval_newtype (c := dynOut O) (v := v) (by rfl) (kdynOut_fields k tg env n O) (by rfl)]
    split
    · next h => injection h with h1 h2; exact absurd h1 (by decide)
    · simp only [hT, hA, Option.bind_some]
      erw [hfc]
      simp only [Option.bind_some]
      cases getField v "0" with
      | none => rfl
      | some x => exact hcall x
  unfold Sem.call
  rw [e]
  simp only [Option.bind_some, fromFn, List.length_nil, List.length_cons, hs]
  rw [if_pos (by simp), eval_next]
  simp only [evalRule, evalStmts, Option.bind_some]
  rw [eval_next]
  simp only [evalRule, Option.bind_some, dynCTy, hres, or_true, if_true]
  erw [kdyn_fields k tg env (n + 2) c]
  simp only [Option.bind_some]
  erw [hm]
  rw [show (dynamicImpl i).fromStd v = onNewtype i.fromStd v from by cases v <;> rfl, onNewtype_eq]
  simp [Function.comp_def, dynCTy]

theorem kdyn_fit : ∀ m ≥ N + 6, FitAt (K k tg env m) .std140 (dynCTy c) (dynOut O) (dynamicImpl i) := by
  intro m hm
  obtain ⟨n, rfl⟩ : ∃ n, m = n + 5 := ⟨m - 5, by omega⟩
  have hfind := kdyn_find h (n + 1) (by omega)
  refine ⟨⟨_, hfind, kdyn_call_as h n (by omega), kdyn_call_from h n (by omega)⟩, ?_, ?_, ?_, ?_, ?_, ?_, ?_, ?_, ?_⟩
  · unfold Sem.project
    rw [hfind, Option.bind_some]
    exact kdyn_out h (n + 3) (by omega)
  · exact kdynOut_layout k tg env (n + 3) O (h _ (by omega)).layout
  · obtain ⟨f, hf, hal⟩ := (h (n + 3) (by omega)).std
    exact ⟨_, find_of_candidates (kdynOut_std k tg env (n + 3) O hf), kdynOut_align k tg env n O hf hal⟩
  · exact kdynOut_debug k tg env (n + 3) O
  · exact kdynOut_pod k tg env (n + 2) O _ (.inl rfl) (h _ (by omega)).zeroable
  · exact kdynOut_pod k tg env (n + 2) O _ (.inr rfl) (h _ (by omega)).pod
  · exact kdynOut_copy k tg env (n + 3) O _ (.inl rfl) (h _ (by omega)).copy
  · exact kdynOut_copy k tg env (n + 3) O _ (.inr rfl) (h _ (by omega)).clone
  · obtain ⟨f, hf, -⟩ := (h (n + 1) (by omega)).std
    exact kdynOut_as k tg env (n + 1) O ⟨f, hf⟩

end

/-- `DynamicUniform<t>`. -/
theorem dynamic_fits {t : RustCode.Ty} {c O : CTy} {i : Impl} (h : Ev fun n => Fits k tg env .std140 t c O i n) :
    Ev fun n => Fits k tg env .std140 (.path ["crate", "std140", "DynamicUniform"] [t]) (dynCTy c) (dynOut O) (dynamicImpl i) n := by
  obtain ⟨N, h⟩ := h
  refine ⟨N + 6, fun m hm => ⟨fun s hs => ?_, kdyn_fit (fun m hm => (h m hm).fit) m hm⟩⟩
  obtain ⟨n, rfl⟩ : ∃ n, m = n + 1 := ⟨m - 1, by omega⟩
  have hD : resolveName (kx k).names "" ["crate", "std140", "DynamicUniform"] = some ["std140", "DynamicUniform"] := by
    kernel_rfl
  rw [norm_next, normRule_path, if_neg (by decide), normNamed_free (by intro x hx; cases hx), hs.module, hD]
  simp only [Option.bind_some, List.mapM_cons, List.mapM_nil, (h n (by omega)).norm s hs]
  rfl

/-! ### `Output` -/

theorem blanket_fit {n : Nat} {c O : CTy} {i : Impl} (h : FitAt (K k tg env (n + 4)) l c O i) :
    FitAt (K k tg env (n + 4)) l O O (blanketImpl i.out i.alignment i.outDebug) := by
  have hn : ∀ c, (K k tg env (n + 4)).norm (blanketFound l c).scope (ty "Self") = some c := by
    intro c
    cases l <;> kernel_rfl
  have ha : ∀ c v, (K k tg env (n + 4)).call (blanketFound l c) (asName l) (some (c, v)) [] = some (c, v) := by
    intro c v
    cases l <;> kernel_rfl
  have hb : ∀ c v, (K k tg env (n + 4)).call (blanketFound l c) (fromName l) none [(c, v)] = some (c, v) := by
    intro c v
    cases l <;> kernel_rfl
  have hf := find_of_candidates h.blanket
  refine ⟨⟨_, hf, fun v => by rw [ha]; rfl, fun v => by rw [hb]; rfl⟩, ?_, h.layout, h.std, h.debug, h.zeroable, h.pod,
    h.copy, h.clone, h.blanket⟩
  unfold Sem.project
  rw [hf]
  exact hn O

/-- `<t as AsStdN>::Output`. -/
theorem output_fits {t : RustCode.Ty} {c O : CTy} {i : Impl} (h : Ev fun n => Fits k tg env l t c O i n) :
    Ev fun n => Fits k tg env l (outTy l t) O O (blanketImpl i.out i.alignment i.outDebug) n := by
  have hn := out_norm (k := k) ⟨"", t, c, O, i, h⟩
  refine ((hn.and h).and (ev_ge 4)).mono fun n h => ?_
  obtain ⟨n, rfl⟩ : ∃ m, n = m + 4 := ⟨n - 4, by omega⟩
  exact ⟨h.1.1, blanket_fit h.1.2.fit⟩

end Crevice.ClientProof
