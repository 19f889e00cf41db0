import Verif.Proof.Conserve
/-
What two views allow, a third one allows.
-/
namespace RustTypes
open RustCode Crevice

/-- What may be mentioned in a module by `v1` and by `v2` may be mentioned by `v3`. -/
structure Joint (v1 v2 v3 : View) (m : String) : Prop where
  path : ∀ p, v1.path m p → v2.path m p → v3.path m p
  via : ∀ p, v1.via m p → v2.via m p → v3.via m p
  item : ∀ a, v1.item a → v3.item a
  sized : v1.sized → v3.sized

variable {v1 v2 v3 : View} {m : String}

theorem via_joint (J : Joint v1 v2 v3 m) {t : RustCode.Ty} (h1 : ViaOk v1 m t) (h2 : ViaOk v2 m t) : ViaOk v3 m t := by
  cases t <;> first | trivial | exact J.via _ h1 h2

theorem called_joint (J : Joint v1 v2 v3 m) {e : Expr} (h1 : CalledOk v1 m e) (h2 : CalledOk v2 m e) : CalledOk v3 m e := by
  cases e with
  | path p =>
    cases p with
    | path p args => exact J.via _ h1 h2
    | _ => trivial
  | _ => trivial

mutual
theorem ty_joint (J : Joint v1 v2 v3 m) : ∀ t : RustCode.Ty, TyOk v1 m t → TyOk v2 m t → TyOk v3 m t
  | .path p args, h1, h2 => by
    unfold TyOk at *
    exact ⟨J.path p h1.1 h2.1, tys_joint J args h1.2 h2.2⟩
  | .proj t via ns, h1, h2 => by
    unfold TyOk at *
    exact ⟨ty_joint J t h1.1 h2.1, via_joint J h1.2 h2.2⟩
  | .array t e, h1, h2 => by
    unfold TyOk at *
    exact ⟨ty_joint J t h1.1 h2.1, expr_joint J e h1.2 h2.2⟩
  | .ref _ _, _, _ => by unfold TyOk; trivial
  | .slice _, _, _ => by unfold TyOk; trivial
  | .unit, _, _ => by unfold TyOk; trivial
theorem tys_joint (J : Joint v1 v2 v3 m) : ∀ ts : List RustCode.Ty, TysOk v1 m ts → TysOk v2 m ts → TysOk v3 m ts
  | [], _, _ => by unfold TysOk; trivial
  | t :: ts, h1, h2 => by
    unfold TysOk at *
    exact ⟨ty_joint J t h1.1 h2.1, tys_joint J ts h1.2 h2.2⟩
theorem patht_joint (J : Joint v1 v2 v3 m) : ∀ t : RustCode.Ty, PathOk v1 m t → PathOk v2 m t → PathOk v3 m t
  | .path p args, h1, h2 => by
    unfold PathOk at *
    exact ⟨J.path _ h1.1 h2.1, fun x hx => J.item x (h1.2 x hx)⟩
  | .proj t via ns, h1, h2 => by
    unfold PathOk at *
    exact ⟨ty_joint J t h1.1 h2.1, via_joint J h1.2.1 h2.2.1, fun x hx => J.item x (h1.2.2 x hx)⟩
  | .array _ _, _, _ => by unfold PathOk; trivial
  | .ref _ _, _, _ => by unfold PathOk; trivial
  | .slice _, _, _ => by unfold PathOk; trivial
  | .unit, _, _ => by unfold PathOk; trivial
theorem callee_joint (J : Joint v1 v2 v3 m) : ∀ e : Expr, CalleeOk v1 m e → CalleeOk v2 m e → CalleeOk v3 m e
  | .var x, h1, h2 => by
    unfold CalleeOk at *
    exact J.path _ h1 h2
  | .path (.path p args), h1, h2 => by
    unfold CalleeOk at *
    exact ⟨J.path p h1.1 h2.1, fun e => ⟨J.sized (h1.2 e).1, tys_joint J args (h1.2 e).2 (h2.2 e).2⟩⟩
  | .path (.proj t via ns), h1, h2 => by
    unfold CalleeOk at *
    exact patht_joint J (.proj t via ns) h1 h2
  | .path (.array _ _), _, _ => by unfold CalleeOk PathOk; trivial
  | .path (.ref _ _), _, _ => by unfold CalleeOk PathOk; trivial
  | .path (.slice _), _, _ => by unfold CalleeOk PathOk; trivial
  | .path .unit, _, _ => by unfold CalleeOk PathOk; trivial
  | .num _ _, _, _ => by unfold CalleeOk; trivial
  | .str _, _, _ => by unfold CalleeOk; trivial
  | .chr _, _, _ => by unfold CalleeOk; trivial
  | .call _ _, _, _ => by unfold CalleeOk; trivial
  | .method _ _ _, _, _ => by unfold CalleeOk; trivial
  | .turbofish _ _ _ _, _, _ => by unfold CalleeOk; trivial
  | .field _ _, _, _ => by unfold CalleeOk; trivial
  | .index _ _, _, _ => by unfold CalleeOk; trivial
  | .attempt _, _, _ => by unfold CalleeOk; trivial
  | .ref _ _, _, _ => by unfold CalleeOk; trivial
  | .deref _, _, _ => by unfold CalleeOk; trivial
  | .bin _ _ _, _, _ => by unfold CalleeOk; trivial
  | .cast _ _, _, _ => by unfold CalleeOk; trivial
  | .range _ _, _, _ => by unfold CalleeOk; trivial
  | .rangeIncl _ _, _, _ => by unfold CalleeOk; trivial
  | .assign _ _, _, _ => by unfold CalleeOk; trivial
  | .addAssign _ _, _, _ => by unfold CalleeOk; trivial
  | .array _, _, _ => by unfold CalleeOk; trivial
  | .struct _ _ _, _, _ => by unfold CalleeOk; trivial
  | .structBase _ _ _ _, _, _ => by unfold CalleeOk; trivial
  | .block _ _, _, _ => by unfold CalleeOk; trivial
  | .cond _ _ _, _, _ => by unfold CalleeOk; trivial
  | .condLet _ _ _ _, _, _ => by unfold CalleeOk; trivial
  | .loop _ _, _, _ => by unfold CalleeOk; trivial
  | .each _ _ _, _, _ => by unfold CalleeOk; trivial
  | .arms _ _ _, _, _ => by unfold CalleeOk; trivial
  | .closure _ _, _, _ => by unfold CalleeOk; trivial
  | .mac _ _, _, _ => by unfold CalleeOk; trivial
  | .unit, _, _ => by unfold CalleeOk; trivial
theorem expr_joint (J : Joint v1 v2 v3 m) : ∀ e : Expr, ExprOk v1 m e → ExprOk v2 m e → ExprOk v3 m e
  | .path p, h1, h2 => by
    unfold ExprOk at *
    exact patht_joint J p h1 h2
  | .call g args, h1, h2 => by
    unfold ExprOk at *
    exact ⟨callee_joint J g h1.1 h2.1, fun e => called_joint J (h1.2.1 e) (h2.2.1 e), exprs_joint J args h1.2.2 h2.2.2⟩
  | .method e _ args, h1, h2 => by
    unfold ExprOk at *
    exact ⟨expr_joint J e h1.1 h2.1, h1.2.1.imp id (J.item _), exprs_joint J args h1.2.2 h2.2.2⟩
  | .field e _, h1, h2 => by
    unfold ExprOk at *
    exact expr_joint J e h1 h2
  | .deref e, h1, h2 => by
    unfold ExprOk at *
    exact expr_joint J e h1 h2
  | .bin _ a b, h1, h2 => by
    unfold ExprOk at *
    exact ⟨expr_joint J a h1.1 h2.1, expr_joint J b h1.2 h2.2⟩
  | .cast e t, h1, h2 => by
    unfold ExprOk at *
    exact ⟨expr_joint J e h1.1 h2.1, ty_joint J t h1.2 h2.2⟩
  | .array es, h1, h2 => by
    unfold ExprOk at *
    exact exprs_joint J es h1 h2
  | .struct p _ es, h1, h2 => by
    unfold ExprOk at *
    exact ⟨ty_joint J p h1.1 h2.1, exprs_joint J es h1.2 h2.2⟩
  | .structBase p _ es b, h1, h2 => by
    unfold ExprOk at *
    exact ⟨ty_joint J p h1.1 h2.1, exprs_joint J es h1.2.1 h2.2.1, expr_joint J b h1.2.2 h2.2.2⟩
  | .block ss e, h1, h2 => by
    unfold ExprOk at *
    exact ⟨stmts_joint J ss h1.1 h2.1, expr_joint J e h1.2 h2.2⟩
  | .cond c t e, h1, h2 => by
    unfold ExprOk at *
    exact ⟨expr_joint J c h1.1 h2.1, expr_joint J t h1.2.1 h2.2.1, expr_joint J e h1.2.2 h2.2.2⟩
  | .var _, _, _ => by unfold ExprOk; trivial
  | .num _ _, _, _ => by unfold ExprOk; trivial
  | .str _, _, _ => by unfold ExprOk; trivial
  | .chr _, _, _ => by unfold ExprOk; trivial
  | .turbofish _ _ _ _, _, _ => by unfold ExprOk; trivial
  | .index _ _, _, _ => by unfold ExprOk; trivial
  | .attempt _, _, _ => by unfold ExprOk; trivial
  | .ref _ _, _, _ => by unfold ExprOk; trivial
  | .range _ _, _, _ => by unfold ExprOk; trivial
  | .rangeIncl _ _, _, _ => by unfold ExprOk; trivial
  | .assign _ _, _, _ => by unfold ExprOk; trivial
  | .addAssign _ _, _, _ => by unfold ExprOk; trivial
  | .condLet _ _ _ _, _, _ => by unfold ExprOk; trivial
  | .loop _ _, _, _ => by unfold ExprOk; trivial
  | .each _ _ _, _, _ => by unfold ExprOk; trivial
  | .arms _ _ _, _, _ => by unfold ExprOk; trivial
  | .closure _ _, _, _ => by unfold ExprOk; trivial
  | .mac _ _, _, _ => by unfold ExprOk; trivial
  | .unit, _, _ => by unfold ExprOk; trivial
theorem exprs_joint (J : Joint v1 v2 v3 m) : ∀ es : List Expr, ExprsOk v1 m es → ExprsOk v2 m es → ExprsOk v3 m es
  | [], _, _ => by unfold ExprsOk; trivial
  | e :: es, h1, h2 => by
    unfold ExprsOk at *
    exact ⟨expr_joint J e h1.1 h2.1, exprs_joint J es h1.2 h2.2⟩
theorem stmt_joint (J : Joint v1 v2 v3 m) : ∀ s : Stmt, StmtOk v1 m s → StmtOk v2 m s → StmtOk v3 m s
  | .bind _ _ t e, h1, h2 => by
    unfold StmtOk at *
    exact ⟨ty_joint J t h1.1 h2.1, expr_joint J e h1.2 h2.2⟩
  | .bindTuple _ _, _, _ => by unfold StmtOk; trivial
  | .expr _, _, _ => by unfold StmtOk; trivial
theorem stmts_joint (J : Joint v1 v2 v3 m) : ∀ ss : List Stmt, StmtsOk v1 m ss → StmtsOk v2 m ss → StmtsOk v3 m ss
  | [], _, _ => by unfold StmtsOk; trivial
  | s :: ss, h1, h2 => by
    unfold StmtsOk at *
    exact ⟨stmt_joint J s h1.1 h2.1, stmts_joint J ss h1.2 h2.2⟩
end

theorem assoc_joint (J : Joint v1 v2 v3 m) {a : Assoc} (h1 : AssocOk v1 m a) (h2 : AssocOk v2 m a) : AssocOk v3 m a := by
  cases a with
  | fn f => exact ⟨ty_joint J _ h1.1 h2.1, fun b hb => expr_joint J _ (h1.2 b hb) (h2.2 b hb)⟩
  | const n t e => exact fun b hb => expr_joint J _ (h1 b hb) (h2 b hb)
  | type n t => exact fun b hb => ty_joint J _ (h1 b hb) (h2 b hb)

theorem impl_joint {i : ImplDef} (J : Joint v1 v2 v3 i.module) (h1 : ImplOk v1 i) (h2 : ImplOk v2 i) : ImplOk v3 i :=
  ⟨ty_joint J _ h1.self h2.self, tys_joint J _ h1.args h2.args,
    fun b hb => ⟨ty_joint J _ (h1.bounds b hb).1 (h2.bounds b hb).1,
      fun t ht => via_joint J ((h1.bounds b hb).2 t ht) ((h2.bounds b hb).2 t ht)⟩,
    fun a ha => assoc_joint J (h1.items a ha) (h2.items a ha)⟩

end RustTypes
