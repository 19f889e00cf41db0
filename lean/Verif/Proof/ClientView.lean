import Verif.Proof.FeatureResolve
import Verif.Proof.ClientIndex
/-
What a crate that uses crevice does not change: everything that can be said without its own names.
-/
namespace Crevice.ClientProof
open RustCode RustTypes TypeNames ClientText Tables

/-- No empty name. -/
def full (p : List String) : Bool := p.all fun x => x != ""

theorem full_iff {p : List String} : full p = true ↔ ∀ x ∈ p, x ≠ "" := by
  simp [full]

/-- No empty name in the path of a trait. -/
def viaFull : RustCode.Ty → Bool
  | .path p _ => full p
  | _ => true

mutual
/-- No empty names in a type. -/
def tyFull : RustCode.Ty → Bool
  | .path p args => full p && tysFull args
  | .proj t via _ => tyFull t && viaFull via
  | .array t e => tyFull t && exprFull e
  | _ => true
/-- No empty names in types. -/
def tysFull : List RustCode.Ty → Bool
  | [] => true
  | t :: ts => tyFull t && tysFull ts
/-- No empty names in an expression. -/
def exprFull : Expr → Bool
  | .var x => x != ""
  | .deref e => exprFull e
  | .field e _ => exprFull e
  | .cast e t => exprFull e && tyFull t
  | .bin _ a b => exprFull a && exprFull b
  | .method e _ args => exprFull e && exprsFull args
  | .path p => tyFull p
  | .call f args => exprFull f && exprsFull args
  | .array es => exprsFull es
  | .struct p _ es => tyFull p && exprsFull es
  | .structBase p _ es b => tyFull p && exprsFull es && exprFull b
  | .block ss e => stmtsFull ss && exprFull e
  | .cond c t e => exprFull c && exprFull t && exprFull e
  | _ => true
/-- No empty names in expressions. -/
def exprsFull : List Expr → Bool
  | [] => true
  | e :: es => exprFull e && exprsFull es
/-- No empty names in a statement. -/
def stmtFull : Stmt → Bool
  | .bind _ _ t e => tyFull t && exprFull e
  | _ => true
/-- No empty names in statements. -/
def stmtsFull : List Stmt → Bool
  | [] => true
  | s :: ss => stmtFull s && stmtsFull ss
end

/-- What may be mentioned. -/
def viewC (k : Client) : View :=
  { path := fun m p => (∀ x ∈ p, x ≠ "") ∧ (m = "" → ∀ x, p = [x] → x ∉ k.names)
    via := fun m p => ((∀ x ∈ p, x ≠ "") ∧ (m = "" → ∀ x, p = [x] → x ∉ k.names)) ∧
      ∀ q, resolveName theNames m p = some q → q ∈ coreTraits
    named := fun p => ∀ x ∈ p, x ≠ ""
    trait := fun t => t ∈ coreTraits
    item := fun a => a ∈ coreAssoc
    sized := False }

variable {k : Client} {f : Features} {m : String}

theorem path_up (hm : m ≠ "") {p : List String} (h : full p = true) : (viewC k).path m p :=
  ⟨full_iff.1 h, fun e => absurd e hm⟩

theorem via_up (hm : m ≠ "") {p : List String} (h : full p = true) (hv : (view f).via m p) : (viewC k).via m p :=
  ⟨path_up hm h, hv.2⟩

theorem full_dropLast {p : List String} (h : full p = true) : full p.dropLast = true :=
  full_iff.2 fun x hx => full_iff.1 h x (List.dropLast_subset p hx)

theorem viaOk_up (hm : m ≠ "") {t : RustCode.Ty} (h : viaFull t = true) (hv : ViaOk (view f) m t) : ViaOk (viewC k) m t := by
  cases t <;> first | trivial | exact via_up hm h hv

theorem called_up (hm : m ≠ "") {e : Expr} (h : exprFull e = true) (hv : CalledOk (view f) m e) : CalledOk (viewC k) m e := by
  cases e with
  | path p =>
    cases p with
    | path p args =>
      simp only [exprFull, tyFull, Bool.and_eq_true] at h
      exact via_up hm (full_dropLast h.1) hv
    | _ => trivial
  | _ => trivial

mutual
theorem ty_up (hm : m ≠ "") : ∀ t : RustCode.Ty, tyFull t = true → TyOk (view f) m t → TyOk (viewC k) m t
  | .path p args, h, ht => by
    simp only [tyFull, Bool.and_eq_true] at h
    unfold TyOk at *
    exact ⟨path_up hm h.1, tys_up hm args h.2 ht.2⟩
  | .proj t via ns, h, ht => by
    simp only [tyFull, Bool.and_eq_true] at h
    unfold TyOk at *
    exact ⟨ty_up hm t h.1 ht.1, viaOk_up hm h.2 ht.2⟩
  | .array t e, h, ht => by
    simp only [tyFull, Bool.and_eq_true] at h
    unfold TyOk at *
    exact ⟨ty_up hm t h.1 ht.1, expr_up hm e h.2 ht.2⟩
  | .ref _ _, _, _ => by unfold TyOk; trivial
  | .slice _, _, _ => by unfold TyOk; trivial
  | .unit, _, _ => by unfold TyOk; trivial
theorem tys_up (hm : m ≠ "") : ∀ ts : List RustCode.Ty, tysFull ts = true → TysOk (view f) m ts → TysOk (viewC k) m ts
  | [], _, _ => by unfold TysOk; trivial
  | t :: ts, h, ht => by
    simp only [tysFull, Bool.and_eq_true] at h
    unfold TysOk at *
    exact ⟨ty_up hm t h.1 ht.1, tys_up hm ts h.2 ht.2⟩
theorem patht_up (hm : m ≠ "") : ∀ t : RustCode.Ty, tyFull t = true → PathOk (view f) m t → PathOk (viewC k) m t
  | .path p args, h, ht => by
    simp only [tyFull, Bool.and_eq_true] at h
    unfold PathOk at *
    exact ⟨path_up hm (full_dropLast h.1), ht.2⟩
  | .proj t via ns, h, ht => by
    simp only [tyFull, Bool.and_eq_true] at h
    unfold PathOk at *
    exact ⟨ty_up hm t h.1 ht.1, viaOk_up hm h.2 ht.2.1, ht.2.2⟩
  | .array _ _, _, _ => by unfold PathOk; trivial
  | .ref _ _, _, _ => by unfold PathOk; trivial
  | .slice _, _, _ => by unfold PathOk; trivial
  | .unit, _, _ => by unfold PathOk; trivial
theorem callee_up (hm : m ≠ "") : ∀ e : Expr, exprFull e = true → CalleeOk (view f) m e → CalleeOk (viewC k) m e
  | .var x, h, he => by
    simp only [exprFull] at h
    unfold CalleeOk at *
    exact path_up hm (by simpa [full] using h)
  | .path p, h, he => by
    cases p with
    | path p args =>
      simp only [exprFull, tyFull, Bool.and_eq_true] at h
      unfold CalleeOk at *
      exact ⟨path_up hm h.1, fun e => (he.2 e).1.elim⟩
    | proj t via ns =>
      simp only [exprFull] at h
      unfold CalleeOk at *
      exact patht_up hm (.proj t via ns) h he
    | _ => unfold CalleeOk PathOk; trivial
  | .num _ _, _, _ => by unfold CalleeOk; trivial
  | .str _, _, _ => by unfold CalleeOk; trivial
  | .chr _, _, _ => by unfold CalleeOk; trivial
  | .call _ _, _, _ => by unfold CalleeOk; trivial
  | .method _ _ _, _, _ => by unfold CalleeOk; trivial
  | .turbofish _ _ _ _, _, _ => by unfold CalleeOk; trivial
  | .field _ _, _, _ => by unfold CalleeOk; trivial
  | .index _ _, _, _ => by unfold CalleeOk; trivial
  | .attempt _, _, _ => by unfold CalleeOk; trivial
  | .ref _ _, _, _ => by unfold CalleeOk; trivial
  | .deref _, _, _ => by unfold CalleeOk; trivial
  | .bin _ _ _, _, _ => by unfold CalleeOk; trivial
  | .cast _ _, _, _ => by unfold CalleeOk; trivial
  | .range _ _, _, _ => by unfold CalleeOk; trivial
  | .rangeIncl _ _, _, _ => by unfold CalleeOk; trivial
  | .assign _ _, _, _ => by unfold CalleeOk; trivial
  | .addAssign _ _, _, _ => by unfold CalleeOk; trivial
  | .array _, _, _ => by unfold CalleeOk; trivial
  | .struct _ _ _, _, _ => by unfold CalleeOk; trivial
  | .structBase _ _ _ _, _, _ => by unfold CalleeOk; trivial
  | .block _ _, _, _ => by unfold CalleeOk; trivial
  | .cond _ _ _, _, _ => by unfold CalleeOk; trivial
  | .condLet _ _ _ _, _, _ => by unfold CalleeOk; trivial
  | .loop _ _, _, _ => by unfold CalleeOk; trivial
  | .each _ _ _, _, _ => by unfold CalleeOk; trivial
  | .arms _ _ _, _, _ => by unfold CalleeOk; trivial
  | .closure _ _, _, _ => by unfold CalleeOk; trivial
  | .mac _ _, _, _ => by unfold CalleeOk; trivial
  | .unit, _, _ => by unfold CalleeOk; trivial
theorem expr_up (hm : m ≠ "") : ∀ e : Expr, exprFull e = true → ExprOk (view f) m e → ExprOk (viewC k) m e
  | .path p, h, he => by
    simp only [exprFull] at h
    unfold ExprOk at *
    exact patht_up hm p h he
  | .call g args, h, he => by
    simp only [exprFull, Bool.and_eq_true] at h
    unfold ExprOk at *
    exact ⟨callee_up hm g h.1 he.1, fun e => called_up hm h.1 (he.2.1 e), exprs_up hm args h.2 he.2.2⟩
  | .method e _ args, h, he => by
    simp only [exprFull, Bool.and_eq_true] at h
    unfold ExprOk at *
    exact ⟨expr_up hm e h.1 he.1, he.2.1, exprs_up hm args h.2 he.2.2⟩
  | .field e _, h, he => by
    simp only [exprFull] at h
    unfold ExprOk at *
    exact expr_up hm e h he
  | .deref e, h, he => by
    simp only [exprFull] at h
    unfold ExprOk at *
    exact expr_up hm e h he
  | .bin _ a b, h, he => by
    simp only [exprFull, Bool.and_eq_true] at h
    unfold ExprOk at *
    exact ⟨expr_up hm a h.1 he.1, expr_up hm b h.2 he.2⟩
  | .cast e t, h, he => by
    simp only [exprFull, Bool.and_eq_true] at h
    unfold ExprOk at *
    exact ⟨expr_up hm e h.1 he.1, ty_up hm t h.2 he.2⟩
  | .array es, h, he => by
    simp only [exprFull] at h
    unfold ExprOk at *
    exact exprs_up hm es h he
  | .struct p _ es, h, he => by
    simp only [exprFull, Bool.and_eq_true] at h
    unfold ExprOk at *
    exact ⟨ty_up hm p h.1 he.1, exprs_up hm es h.2 he.2⟩
  | .structBase p _ es b, h, he => by
    simp only [exprFull, Bool.and_eq_true] at h
    unfold ExprOk at *
    exact ⟨ty_up hm p h.1.1 he.1, exprs_up hm es h.1.2 he.2.1, expr_up hm b h.2 he.2.2⟩
  | .block ss e, h, he => by
    simp only [exprFull, Bool.and_eq_true] at h
    unfold ExprOk at *
    exact ⟨stmts_up hm ss h.1 he.1, expr_up hm e h.2 he.2⟩
  | .cond c t e, h, he => by
    simp only [exprFull, Bool.and_eq_true] at h
    unfold ExprOk at *
    exact ⟨expr_up hm c h.1.1 he.1, expr_up hm t h.1.2 he.2.1, expr_up hm e h.2 he.2.2⟩
  | .var _, _, _ => by unfold ExprOk; trivial
  | .num _ _, _, _ => by unfold ExprOk; trivial
  | .str _, _, _ => by unfold ExprOk; trivial
  | .chr _, _, _ => by unfold ExprOk; trivial
  | .turbofish _ _ _ _, _, _ => by unfold ExprOk; trivial
  | .index _ _, _, _ => by unfold ExprOk; trivial
  | .attempt _, _, _ => by unfold ExprOk; trivial
  | .ref _ _, _, _ => by unfold ExprOk; trivial
  | .range _ _, _, _ => by unfold ExprOk; trivial
  | .rangeIncl _ _, _, _ => by unfold ExprOk; trivial
  | .assign _ _, _, _ => by unfold ExprOk; trivial
  | .addAssign _ _, _, _ => by unfold ExprOk; trivial
  | .condLet _ _ _ _, _, _ => by unfold ExprOk; trivial
  | .loop _ _, _, _ => by unfold ExprOk; trivial
  | .each _ _ _, _, _ => by unfold ExprOk; trivial
  | .arms _ _ _, _, _ => by unfold ExprOk; trivial
  | .closure _ _, _, _ => by unfold ExprOk; trivial
  | .mac _ _, _, _ => by unfold ExprOk; trivial
  | .unit, _, _ => by unfold ExprOk; trivial
theorem exprs_up (hm : m ≠ "") : ∀ es : List Expr, exprsFull es = true → ExprsOk (view f) m es → ExprsOk (viewC k) m es
  | [], _, _ => by unfold ExprsOk; trivial
  | e :: es, h, he => by
    simp only [exprsFull, Bool.and_eq_true] at h
    unfold ExprsOk at *
    exact ⟨expr_up hm e h.1 he.1, exprs_up hm es h.2 he.2⟩
theorem stmt_up (hm : m ≠ "") : ∀ s : Stmt, stmtFull s = true → StmtOk (view f) m s → StmtOk (viewC k) m s
  | .bind _ _ t e, h, he => by
    simp only [stmtFull, Bool.and_eq_true] at h
    unfold StmtOk at *
    exact ⟨ty_up hm t h.1 he.1, expr_up hm e h.2 he.2⟩
  | .bindTuple _ _, _, _ => by unfold StmtOk; trivial
  | .expr _, _, _ => by unfold StmtOk; trivial
theorem stmts_up (hm : m ≠ "") : ∀ ss : List Stmt, stmtsFull ss = true → StmtsOk (view f) m ss → StmtsOk (viewC k) m ss
  | [], _, _ => by unfold StmtsOk; trivial
  | s :: ss, h, he => by
    simp only [stmtsFull, Bool.and_eq_true] at h
    unfold StmtsOk at *
    exact ⟨stmt_up hm s h.1 he.1, stmts_up hm ss h.2 he.2⟩
end

/-- No empty names in an associated item. -/
def assocFull : Assoc → Bool
  | .fn f => tyFull f.ret && (f.body.map exprFull).getD true
  | .const _ _ e => (e.map exprFull).getD true
  | .type _ t => (t.map tyFull).getD true

/-- No empty names in an implementation. -/
def implFull (i : ImplDef) : Bool :=
  i.module != "" && tyFull i.self && tysFull i.traitArgs && i.bounds.all (fun b => tyFull b.1 && b.2.all viaFull) &&
    i.items.all assocFull

theorem impl_up {i : ImplDef} (h : implFull i = true) (hi : ImplOk (view f) i) : ImplOk (viewC k) i := by
  simp only [implFull, Bool.and_eq_true, bne_iff_ne, ne_eq, List.all_eq_true] at h
  obtain ⟨⟨⟨⟨hm, h1⟩, h2⟩, h3⟩, h4⟩ := h
  refine ⟨ty_up hm _ h1 hi.self, tys_up hm _ h2 hi.args, fun b hb => ?_, fun a ha => ?_⟩
  · obtain ⟨e1, e2⟩ := hi.bounds b hb
    exact ⟨ty_up hm _ (h3 b hb).1 e1, fun t ht => viaOk_up hm ((h3 b hb).2 t ht) (e2 t ht)⟩
  · have e1 := hi.items a ha
    have e2 := h4 a ha
    cases a with
    | fn f =>
      simp only [assocFull, Bool.and_eq_true] at e2
      refine ⟨ty_up hm _ e2.1 e1.1, fun b hb => ?_⟩
      have e3 := e2.2
      rw [hb] at e3
      exact expr_up hm _ e3 (e1.2 b hb)
    | const n t e =>
      intro b hb
      subst hb
      exact expr_up hm _ e2 (e1 b rfl)
    | type n t =>
      intro b hb
      subst hb
      exact ty_up hm _ e2 (e1 b rfl)

theorem impls_full {t : List String} (ht : t ∈ coreTraits) : (jx.impls t).all implFull = true := by
  have as : ∀ l, (asDefs l).all implFull = true := by intro l; cases l <;> decide +kernel
  have std : ∀ l, (stdDefs l).all implFull = true := by intro l; cases l <;> decide +kernel
  have glsl : glslDefs.all implFull = true := by decide +kernel
  simp only [coreTraits, List.mem_cons, List.not_mem_nil, or_false] at ht
  rcases ht with rfl | rfl | rfl | rfl | rfl | rfl | rfl | rfl | rfl | rfl | rfl
  · exact as .std140
  · exact as .std430
  · exact std .std140
  · exact std .std430
  · show (podDefs "Zeroable").all implFull = true; decide +kernel
  · show (podDefs "Pod").all implFull = true; decide +kernel
  · rfl
  · rfl
  · show [plainDef "bool" (ty "Bool") [.fn Parsed.bool7_fmt]].all implFull = true; decide +kernel
  · exact glsl
  · show fromDefs.all implFull = true; decide +kernel

end Crevice.ClientProof
