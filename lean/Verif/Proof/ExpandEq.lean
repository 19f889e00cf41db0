import Verif.Proof.SyntaxEmit
import Verif.Proof.Names
/-
The items that the tokens of the derive macro stand for, and their meaning (`Model/Expand.lean`).
-/
namespace Crevice.Tokens
open RustSyntax Expand

theorem outputOf_ver (l : Layout) (i : Impl) : outputOf l (verTy l i) = some i := by
  simp [outputOf, verTy]

mutual
theorem evalConst_rust (tg : Target) (l : Layout) (call : String → Option Nat) (vars : List (String × Nat)) :
    ∀ e : CExpr Impl, (∀ f ∈ e.calls, vars.lookup f = none) →
      evalConst tg l call vars (rust l e) = (e.evalWith tg call).map .num
  | .lit n, _ => by simp [rust, evalConst, CExpr.evalWith]
  | .sizeOf i, _ => by
    rw [rust, sizeExpr, evalConst, if_pos rfl, verTy, evalTy.eq_3]
    · rw [← verTy, outputOf_ver]; rfl
    all_goals simp
  | .alignmentOf i, _ => by
    rw [rust, alExpr, evalConst, if_pos ⟨rfl, rfl⟩, outputOf_ver]; rfl
  | .call f, h => by
    have h1 : vars.lookup f = none := h f (by simp [CExpr.calls])
    rw [rust, callExpr, evalConst]
    simp [hidden, h1, evalConsts, applyFn, CExpr.evalWith]
  | .add a b, h => by
    have h1 := evalConst_rust tg l call vars a fun f hf => h f (by simp [CExpr.calls, hf])
    have h2 := evalConst_rust tg l call vars b fun f hf => h f (by simp [CExpr.calls, hf])
    rw [rust, evalConst, h1, h2, CExpr.evalWith]
    cases a.evalWith tg call <;> cases b.evalWith tg call <;> simp [CVal.toNum]
  | .alignOffset a b, h => by
    have h1 := evalConst_rust tg l call vars a fun f hf => h f (by simp [CExpr.calls, hf])
    have h2 := evalConst_rust tg l call vars b fun f hf => h f (by simp [CExpr.calls, hf])
    rw [rust, evalConst]
    simp only [hidden, evalConsts, h1, h2, CExpr.evalWith]
    cases a.evalWith tg call <;> cases b.evalWith tg call <;> simp [applyFn]
  | .maxArr es, h => by
    have h1 := evalConsts_rusts tg l call vars es fun f hf => h f (by simpa [CExpr.calls] using hf)
    rw [rust, evalConst]
    simp only [hidden, evalConsts, evalConst, h1, CExpr.evalWith]
    cases CExpr.evalArgs tg call es with
    | none => simp
    | some ns =>
      have : (ns.map CVal.num).mapM CVal.toNum = some ns := by
        induction ns with
        | nil => rfl
        | cons n r ih => simp [List.mapM_cons, ih, CVal.toNum]
      simp [this, applyFn]
theorem evalConsts_rusts (tg : Target) (l : Layout) (call : String → Option Nat) (vars : List (String × Nat)) :
    ∀ es : List (CExpr Impl), (∀ f ∈ callsArgs es, vars.lookup f = none) →
      evalConsts tg l call vars (rusts l es) = (CExpr.evalArgs tg call es).map (List.map .num)
  | [], _ => rfl
  | e :: es, h => by
    have h1 := evalConst_rust tg l call vars e fun f hf => h f (by simp [callsArgs, hf])
    have h2 := evalConsts_rusts tg l call vars es fun f hf => h f (by simp [callsArgs, hf])
    rw [rusts, evalConsts, h1, h2, CExpr.evalArgs]
    cases e.evalWith tg call <;> cases CExpr.evalArgs tg call es <;> simp
end

theorem functions_append (a b : List (Item Impl)) : functions (a ++ b) = functions a ++ functions b := by
  simp [functions]

/-- A body as the macro writes it: two values that do not call functions with the names of the local
variables. -/
def PadShape (e : CExpr Impl) : Prop :=
  ∃ off al, e = .alignOffset off al ∧ ∀ f ∈ e.calls, f ≠ "starting_offset" ∧ f ≠ "alignment"

theorem evalBody_pad (tg : Target) (l : Layout) (call : String → Option Nat) (name : String)
    {e : CExpr Impl} (h : PadShape e) :
    ∃ f, padFnItem l (name, e) = .fn f ∧ f.name = name ∧ evalBody tg l call f = e.evalWith tg call := by
  obtain ⟨off, al, rfl, h⟩ := h
  refine ⟨_, rfl, rfl, ?_⟩
  have h1 := evalConst_rust tg l call [] off fun f _ => rfl
  have h2 : ∀ n, evalConst tg l call [("starting_offset", n)] (rust l al) =
      (al.evalWith tg call).map .num := fun n =>
    evalConst_rust tg l call [("starting_offset", n)] al fun f hf => by
      have := (h f (by simp [CExpr.calls, hf])).1
      have hb : (f == "starting_offset") = false := by simpa using this
      simp [List.lookup, hb]
  simp only [evalBody, padFnAst, isPath, evalLets, h1, CExpr.evalWith]
  cases off.evalWith tg call with
  | none => simp
  | some x =>
    cases hal : al.evalWith tg call with
    | none => simp [h2, hal, CVal.toNum]
    | some y => simp [h2, hal, CVal.toNum, evalConst, evalConsts, hidden, applyFn, List.lookup]

theorem lookup_functions (l : Layout) (f : String) (fns : List (String × CExpr Impl))
    (h : ∀ e ∈ fns, PadShape e.2) :
    (fns.lookup f = none ∧ (functions (fns.map (padFnItem l))).lookup f = none) ∨
    ∃ e fn, fns.lookup f = some e ∧ PadShape e ∧
      (functions (fns.map (padFnItem l))).lookup f = some fn ∧ padFnItem l (f, e) = .fn fn := by
  induction fns with
  | nil => exact .inl ⟨rfl, rfl⟩
  | cons e r ih =>
    obtain ⟨n, e⟩ := e
    obtain ⟨off, al, rfl, h1⟩ := h (n, e) (by simp)
    have hf : functions (((n, CExpr.alignOffset off al) :: r).map (padFnItem l)) =
        (n, padFnAst l n off al) :: functions (r.map (padFnItem l)) := rfl
    rw [hf]
    by_cases hn : f = n
    · subst hn
      exact .inr ⟨_, padFnAst l f off al, by simp [List.lookup], ⟨off, al, rfl, h1⟩, by simp [List.lookup], rfl⟩
    · have hb : (f == n) = false := by simpa using hn
      simp only [List.lookup, hb]
      exact ih fun x hx => h x (by simp [hx])

theorem callFn_pad (tg : Target) (l : Layout) {fns : List (String × CExpr Impl)}
    (h : ∀ e ∈ fns, PadShape e.2) (d : Nat) (f : String) :
    callFn tg l (functions (fns.map (padFnItem l))) d f = evalFn tg fns d f := by
  induction d generalizing f with
  | zero => rfl
  | succ d ih =>
    have ih' : callFn tg l (functions (fns.map (padFnItem l))) d = evalFn tg fns d := funext ih
    rw [callFn, evalFn, ih']
    rcases lookup_functions l f fns h with ⟨h1, h2⟩ | ⟨e, fn, h1, hs, h2, h3⟩
    · rw [h1, h2]; rfl
    · rw [h1, h2]
      obtain ⟨fn', k1, -, k2⟩ := evalBody_pad tg l (evalFn tg fns d) f hs
      rw [h3] at k1
      injection k1 with k1
      subst k1
      exact k2


/-! ### The struct -/

theorem fields_pad (tg : Target) (l : Layout) (call : String → Option Nat) (fs : List (String × GenTy Impl)) :
    ((fs.map (fieldAst l)).mapM fun f => (evalTy tg l call [] f.ty).map fun t => (f.name, t)) =
      fs.mapM fun f =>
        match f.2 with
        | .layoutOf i => some (f.1, i.out)
        | .padBytes padFn => (call padFn).map fun n => (f.1, .array (.scalar .u8) n) := by
  rw [mapM_map]
  refine mapM_congr fun f _ => ?_
  obtain ⟨n, t⟩ := f
  cases t with
  | layoutOf i =>
    simp only [fieldAst, fieldTy]
    rw [verTy, evalTy.eq_3]
    · rw [← verTy, outputOf_ver]; rfl
    all_goals simp
  | padBytes f =>
    have := evalConst_rust tg l call [] (.call f) fun _ _ => rfl
    rw [rust] at this
    simp only [fieldAst, fieldTy, evalTy, this, CExpr.evalWith]
    cases call f <;> simp [isName, CVal.toNum]

theorem debug_pad (l : Layout) (g : Generated Impl) :
    (∀ f ∈ g.fields.map (fieldAst l), hasDebug l f.ty = true) ↔ g.debugOk = true := by
  simp only [Generated.debugOk, List.all_eq_true, List.mem_map, forall_exists_index, and_imp,
    forall_apply_eq_imp_iff₂]
  refine forall_congr' fun f => forall_congr' fun _ => ?_
  obtain ⟨n, t⟩ := f
  cases t with
  | layoutOf i =>
    simp only [fieldAst, fieldTy]
    rw [verTy, hasDebug.eq_3]
    · rw [← verTy, outputOf_ver]; rfl
    all_goals simp
  | padBytes f => simp [fieldAst, fieldTy, hasDebug, isName]

theorem findImpl_pads (l : Layout) (fns : List (String × CExpr Impl)) (r : List (Item Impl)) (u tr name n) :
    findImpl (fns.map (padFnItem l) ++ r) u tr name n = findImpl r u tr name n := by
  induction fns with
  | nil => rfl
  | cons f fns ih =>
    rw [List.map_cons, List.cons_append, ← ih, findImpl, List.findSome?_cons]
    have : ∃ fn, padFnItem l f = .fn fn := by
      unfold padFnItem
      split <;> exact ⟨_, rfl⟩
    obtain ⟨fn, h⟩ := this
    rw [h]
    rfl

theorem findStruct_pads (l : Layout) (fns : List (String × CExpr Impl)) (r : List (Item Impl)) (name) :
    findStruct (fns.map (padFnItem l) ++ r) name = findStruct r name := by
  induction fns with
  | nil => rfl
  | cons f fns ih =>
    rw [List.map_cons, List.cons_append, ← ih, findStruct, List.findSome?_cons]
    have : ∃ fn, padFnItem l f = .fn fn := by
      unfold padFnItem
      split <;> exact ⟨_, rfl⟩
    obtain ⟨fn, h⟩ := this
    rw [h]
    rfl

theorem functions_names (l : Layout) (fns : List (String × CExpr Impl)) :
    (functions (fns.map (padFnItem l))).map Prod.fst = fns.map Prod.fst := by
  induction fns with
  | nil => rfl
  | cons f fns ih =>
    have : ∃ fn, padFnItem l f = .fn fn ∧ fn.name = f.1 := by
      unfold padFnItem
      split <;> exact ⟨_, rfl, rfl⟩
    obtain ⟨fn, h, hn⟩ := this
    have hc : functions ((f :: fns).map (padFnItem l)) = (fn.name, fn) :: functions (fns.map (padFnItem l)) := by
      rw [List.map_cons, functions, List.filterMap_cons, h]
      rfl
    rw [hc, List.map_cons, ih, hn]
    rfl

theorem mapM_names {A B C : Type} {f : A → Option B} {p : A → C} {q : B → C}
    (hf : ∀ a b, f a = some b → q b = p a) {l : List A} {r : List B} (h : l.mapM f = some r) :
    r.map q = l.map p := by
  induction l generalizing r with
  | nil => simp at h; subst h; rfl
  | cons a l ih =>
    rw [mapM_option_cons] at h
    cases ha : f a with
    | none => simp [ha] at h
    | some b =>
      cases hl : l.mapM f with
      | none => simp [ha, hl] at h
      | some bs =>
        simp [ha, hl] at h
        subst h
        simp [hf a b ha, ih hl]

theorem rustFields_names {tg : Target} {g : Generated Impl} {fs} (h : g.rustFields tg = some fs) :
    fs.map Prod.fst = g.fields.map Prod.fst := by
  refine mapM_names (fun a b hab => ?_) h
  obtain ⟨n, t⟩ := a
  cases t with
  | layoutOf i => simp at hab; subst hab; rfl
  | padBytes f =>
    simp at hab
    obtain ⟨m, -, hm⟩ := hab
    subst hm
    rfl

theorem names_sublist (l : Layout) (name : String) (fields : List (String × Impl)) (k : Nat) :
    List.Sublist (fields.map Prod.fst) ((((fields.zipIdx k).map fun x => [(x.1.1, GenTy.layoutOf x.1.2),
        (padFieldName x.2, GenTy.padBytes (padFnName l name x.2))]).flatten).map Prod.fst) := by
  induction fields generalizing k with
  | nil => simp
  | cons f r ih =>
    simp only [List.map_cons, List.zipIdx_cons, List.flatten_cons, List.cons_append, List.nil_append]
    exact .cons_cons _ (.cons _ (ih _))

theorem nodup_of_nodup_map {A B : Type} {f : A → B} {l : List A} (h : (l.map f).Nodup) : l.Nodup := by
  induction l with
  | nil => simp
  | cons a r ih =>
    rw [List.map_cons, List.nodup_cons] at h
    rw [List.nodup_cons]
    exact ⟨fun hm => h.1 (List.mem_map.2 ⟨a, hm, rfl⟩), ih h.2⟩

/-! ### The whole -/

theorem runAs_pad (l : Layout) (name : String) (ps : List String) (fields : List (String × Impl))
    (hn : (fields.map Prod.fst).Nodup) (fs : List (String × RTy)) (f : Fn Impl)
    (hp : f.params = [.refSelf]) (hl : f.lets = [])
    (hv : f.value = .struct ⟨false, ["Self", "Output"]⟩ (fields.map fun f => (f.1, asExpr l f.1))
      (some (.call (.path ⟨true, (bytemuckTrait "Zeroable").segments ++ ["zeroed"]⟩) []))) (self : RVal) :
    runAs l ⟨name, ps, fields⟩ fs f self =
      (evalInits Impl.asStd (fields.map fun f => { dst := f.1, src := f.1, ty := f.2 }) self).bind fun inits =>
        structUpdate (fs.map Prod.fst) inits (zeroed (.struct fs)) := by
  unfold runAs
  rw [hp, hl, hv]
  simp only [evalInits, mapM_map, if_pos, and_self]
  congr 1
  refine mapM_congr fun x hx => ?_
  have hk : fields.lookup x.1 = some x.2 := lookup_eq_some_of_mem hn hx
  simp only [asExpr, evalAs, isName, hk, decide_true, and_self, if_true, Option.bind_some]
  cases self.field x.1 <;> rfl

theorem runFrom_pad (l : Layout) (name : String) (ps : List String) (fields : List (String × Impl))
    (hn : (fields.map Prod.fst).Nodup) (f : Fn Impl) {t}
    (hp : f.params = [.typed "input" t]) (hl : f.lets = [])
    (hv : f.value = .struct ⟨false, ["Self"]⟩ (fields.map fun f => (f.1, fromExpr l f.1)) none) (input : RVal) :
    runFrom l ⟨name, ps, fields⟩ f input =
      (evalInits Impl.fromStd (fields.map fun f => { dst := f.1, src := f.1, ty := f.2 }) input).bind fun inits =>
        structNew (fields.map Prod.fst) inits := by
  unfold runFrom
  rw [hp, hl, hv]
  simp only [evalInits, mapM_map, isName, decide_true, and_self, if_true]
  congr 1
  refine mapM_congr fun x hx => ?_
  have hk : fields.lookup x.1 = some x.2 := lookup_eq_some_of_mem hn hx
  simp only [fromExpr, evalFrom, isName, hk, decide_true, and_self, if_true, Option.bind_some]
  cases input.field x.1 <;> rfl

theorem padFnName_ne {l : Layout} {n : String} {i : Nat} {s : String} (h : s.toList.head? ≠ some '_') :
    padFnName l n i ≠ s := by
  rintro rfl
  apply h
  simp [padFnName]

theorem padFns_shape {l : Layout} {name : String} {gs : List String} {fields : List (String × Impl)}
    {g : Generated Impl} (hg : emitLayout l ⟨name, gs, .structNamed fields⟩ = .ok g) :
    ∀ e ∈ g.padFns, PadShape e.2 := by
  obtain ⟨fs, hfs, -, hpf, -⟩ := emitLayout_inv hg
  injection hfs with hfs
  subst hfs
  rw [hpf]
  intro e he
  obtain ⟨i, hi, rfl⟩ := List.mem_map.1 he
  have hi := List.mem_range.1 hi
  simp only [hi, dif_pos]
  refine ⟨_, _, rfl, ?_⟩
  intro f hf
  rw [calls_padBody (l := l) (name := name) hi] at hf
  obtain ⟨j, -, rfl⟩ := List.mem_map.1 hf
  exact ⟨padFnName_ne (by decide), padFnName_ne (by decide)⟩

theorem compile_ast (tg : Target) {l : Layout} (v : Vis) {name : String} {gs : List String}
    {fields : List (String × Impl)} {g : Generated Impl}
    (hg : emitLayout l ⟨name, gs, .structNamed fields⟩ = .ok g) :
    compile tg l ⟨name, gs, fields⟩ (ast l v name gs fields g) = g.toImpl tg (fields.map Prod.fst) := by
  have hshape := padFns_shape hg
  obtain ⟨g', h1, h2, h3, h4, h5, h6, h7, h8, h9⟩ := emitLayout_ok l name fields gs
  rw [hg] at h1
  injection h1 with h1
  subst h1
  have hfn : functions (ast l v name gs fields g) = functions (g.padFns.map (padFnItem l)) := by
    rw [ast, functions_append]
    simp [functions, structAst, asBytesAst, asTraitAst]
  have hnd : ((functions (g.padFns.map (padFnItem l))).map Prod.fst).Nodup := by
    rw [functions_names]
    exact (List.nodup_cons.1 (itemNames_nodup hg)).2
  have hlen : (functions (g.padFns.map (padFnItem l))).length = g.padFns.length := by
    have := congrArg List.length (functions_names l g.padFns)
    simpa using this
  have hcall : callFn tg l (functions (g.padFns.map (padFnItem l))) g.padFns.length = g.call tg :=
    funext fun f => callFn_pad tg l hshape _ f
  have i1 : findImpl (ast l v name gs fields g) false (asStdTrait l) name gs.length =
        some [.type "Output" (.path ⟨false, [g.structName]⟩ []), .fn (asFnAst l fields), .fn (fromFnAst l fields)] := by
    rw [ast, findImpl_pads]
    simp [findImpl, structAst, asBytesAst, asTraitAst, isName]
  have i2 : findStruct (ast l v name gs fields g) g.structName =
      some ([[.ident "derive", .punct .lparen, .ident "Debug", .punct .comma,
      .ident "Clone", .punct .comma, .ident "Copy", .punct .rparen],
     [.ident "repr", .punct .lparen, .ident "C", .punct .rparen],
     [.ident "doc", .punct .lparen, .ident "hidden", .punct .rparen],
     [.ident "allow", .punct .lparen, .ident "warnings", .punct .rparen]], g.structParams,
     g.fields.map (fieldAst l)) := by
    rw [ast, findStruct_pads]
    simp [findStruct, structAst]
  have i3 : findImpl (ast l v name gs fields g) true (bytemuckTrait "Zeroable") g.structName gs.length =
      some [] := by
    rw [ast, findImpl_pads]
    simp [findImpl, structAst, asBytesAst, isName]
  have i4 : findImpl (ast l v name gs fields g) true (bytemuckTrait "Pod") g.structName gs.length =
      some [] := by
    rw [ast, findImpl_pads]
    simp [findImpl, structAst, asBytesAst, isName, bytemuckTrait]
  have i5 : findImpl (ast l v name gs fields g) true (stdTrait l) g.structName gs.length =
      some [.const "ALIGNMENT" (.path ⟨false, ["usize"]⟩ []) (rust l g.alignment)] := by
    rw [ast, findImpl_pads]
    cases l <;> simp [findImpl, structAst, asBytesAst, isName, bytemuckTrait, stdTrait, Layout.modName,
      Layout.traitName]
  have j1 : assocConst [.const "ALIGNMENT" (.path ⟨false, ["usize"]⟩ []) (rust l g.alignment)] "ALIGNMENT"
      (isPath · ["usize"]) =
      some (rust l g.alignment) := by
    simp [assocConst, isPath]
  have j2 : assocFn [.type "Output" (.path ⟨false, [g.structName]⟩ []), .fn (asFnAst l fields),
      .fn (fromFnAst l fields)] (asStdMethod l) = some (asFnAst l fields) := by
    simp [assocFn, asFnAst]
  have j3 : assocFn [.type "Output" (.path ⟨false, [g.structName]⟩ []), .fn (asFnAst l fields),
      .fn (fromFnAst l fields)] (fromStdMethod l) = some (fromFnAst l fields) := by
    have hne : asStdMethod l ≠ fromStdMethod l := by cases l <;> decide
    simp [assocFn, asFnAst, fromFnAst, hne]
  have hfields : ((g.fields.map (fieldAst l)).mapM fun f =>
      (evalTy tg l (g.call tg) [] f.ty).map fun t => (f.name, t)) = g.rustFields tg :=
    fields_pad tg l (g.call tg) g.fields
  have hal := evalConst_rust tg l (g.call tg) [] g.alignment fun _ _ => rfl
  have hdbg := debug_pad l g
  unfold compile Generated.toImpl
  simp only [hfn, hnd, not_true_eq_false, if_false, i1, Option.bind_some, assocType, List.findSome?_cons,
    if_true, i2, h8, i3, i4, i5, j1, j2, j3, hlen, hcall, hfields, hal]
  cases hr : g.rustFields tg with
  | none => rfl
  | some fs =>
    simp only [Option.bind_some]
    cases g.alignment.evalWith tg (g.call tg) with
    | none => rfl
    | some al =>
      simp only [Option.map_some, Option.bind_some, CVal.toNum, hdbg, h9]
      have e1 : asSignature (asFnAst l fields) = true := by simp [asSignature, asFnAst, isPath]
      have e2 : fromSignature (fromFnAst l fields) = true := by simp [fromSignature, fromFnAst, isPath]
      simp only [e1, e2]
      by_cases hc : (fs.map fun f => unraw f.1).Nodup ∧ g.debugOk = true ∧ ([] : List String).length = gs.length
      · rw [if_pos hc, if_pos (by simp [hc, isReprC, derives])]
        have hnames : (fields.map Prod.fst).Nodup := by
          have h : (fs.map Prod.fst).Nodup := by
            have := hc.1
            rw [show (fs.map fun f => unraw f.1) = (fs.map Prod.fst).map unraw by simp] at this
            exact nodup_of_nodup_map this
          rw [rustFields_names hr, h4] at h
          exact h.sublist (names_sublist l name fields 0)
        congr 1
        rw [Impl.mk.injEq]
        refine ⟨rfl, rfl, ?_, ?_, ?_⟩
        · rw [h6]
          exact funext fun self => runAs_pad l name gs fields hnames fs _ rfl rfl rfl self
        · rw [h7]
          exact funext fun input => runFrom_pad l name gs fields hnames _ rfl rfl rfl input
        · simp [derives]
      · rw [if_neg hc, if_neg]
        rintro ⟨-, -, -, k1, -, -, k2, k3⟩
        exact hc ⟨k2, k3 (by simp [derives]), k1⟩

end Crevice.Tokens
