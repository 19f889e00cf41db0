import Verif.Proof.RunAttr
import Verif.Spec.TextClient
/-
Symbolic execution of the interpreter of `Spec/RustRun.lean`: its equations, applied to a state.
-/
namespace RustCode
open Crevice

@[rust] theorem wordRes_some {S : Setting} (x : BitVec S.bits) : wordRes (some x) = .val (.word x) := rfl
@[rust] theorem wordRes_none {S : Setting} : wordRes (S := S) none = .panic := rfl

@[rust] theorem arith_sub {S : Setting} (a b : BitVec S.bits) : arith S.checked .sub a b = usub (mode S) a b := by
  unfold arith usub mode; cases h : S.checked <;> simp
  split <;> split <;> first | rfl | omega

@[rust] theorem arith_add {S : Setting} (a b : BitVec S.bits) : arith S.checked .add a b = uadd (mode S) a b := by
  unfold arith uadd mode; cases h : S.checked <;> simp
  split <;> split <;> first | rfl | omega

@[rust] theorem arith_rem {S : Setting} (a b : BitVec S.bits) : arith S.checked .rem a b = urem a b := by
  unfold arith urem; rfl

@[rust] theorem bind_apply {S : Setting} {α β : Type} (p : M S α) (f : α → M S β) (s : State S) :
    (p.bind f) s = match p s with
      | (.val a, s) => f a s
      | (.ret v, s) => (.ret v, s)
      | (.panic, s) => (.panic, s)
      | (.timeout, s) => (.timeout, s)
      | (.stuck, s) => (.stuck, s) := rfl

@[rust] theorem pure_apply {S : Setting} {α : Type} (a : α) (s : State S) : M.pure a s = (.val a, s) := rfl

@[rust] theorem panic_apply {S : Setting} {α : Type} (s : State S) : (M.panic : M S α) s = (.panic, s) := rfl

@[rust] theorem ret_apply {S : Setting} {α : Type} (v : Val S) (s : State S) : (M.ret v : M S α) s = (.ret v, s) := rfl

@[rust] theorem stuck_apply {S : Setting} {α : Type} (s : State S) : (M.stuck : M S α) s = (.stuck, s) := rfl

@[rust] theorem ofOption_some {S : Setting} {α : Type} (a : α) : M.ofOption (S := S) (some a) = M.pure a := rfl

@[rust] theorem ends_returns {S : Setting} {α : Type} (a : α) : M.ends (S := S) (.returns a) = M.pure a := rfl

@[rust] theorem ends_panics {S : Setting} {α : Type} : M.ends (S := S) (α := α) .panics = M.panic := rfl

@[rust] theorem inScope_apply {S : Setting} {α : Type} (p : M S α) (s : State S) :
    inScope p s = ((p s).1, { (p s).2 with env := (p s).2.env.drop ((p s).2.env.length - s.env.length) }) := rfl

@[rust] theorem getVar_apply {S : Setting} (x : String) (s : State S) : getVar x s =
    match s.env.lookup x with
    | some v => (.val v, s)
    | none => (.stuck, s) := rfl

@[rust] theorem setVar_apply {S : Setting} (x : String) (v : Val S) (s : State S) : setVar x v s =
    match s.env.set x v with
    | some env => (.val (), { s with env := env })
    | none => (.stuck, s) := rfl

@[rust] theorem declareAll_apply {S : Setting} (vs : Env S) (s : State S) :
    declareAll vs s = (.val (), { s with env := vs ++ s.env }) := rfl

@[rust] theorem ifVal_apply {S : Setting} {α : Type} (b : Bool) (p q : M S α) (s : State S) :
    ifVal (.bool b) p q s = if b then p s else q s := by cases b <;> rfl

@[rust] theorem intOp_apply {S : Setting} {w : Nat} (mk : BitVec w → Val S) (o : BinOp) (a b : BitVec w)
    (s : State S) : intOp mk o a b s =
      match compare? o a b with
      | some c => (.val (.bool c), s)
      | none =>
        match arith S.checked o a b with
        | some x => (.val (mk x), s)
        | none => (.panic, s) := by
  unfold intOp
  cases compare? o a b <;> cases arith S.checked o a b <;> rfl

@[rust] theorem ifMatches_wild {S : Setting} (v : Val S) (q r : M S (Val S)) :
    ifMatches .wild v q r = inScope ((declareAll []).bind fun _ => q) := rfl

@[rust] theorem ifMatches_var {S : Setting} (x : String) (v : Val S) (q r : M S (Val S)) :
    ifMatches (.var x) v q r = inScope ((declareAll [(x, v)]).bind fun _ => q) := rfl

@[rust] theorem ifMatches_some {S : Setting} (x : String) (v : Val S) (q r : M S (Val S)) :
    ifMatches (.ctor "Some" x) (.enum "Some" [v]) q r = inScope ((declareAll [(x, v)]).bind fun _ => q) := rfl

@[rust] theorem ifMatches_none {S : Setting} (x : String) (q r : M S (Val S)) :
    ifMatches (.ctor "Some" x) (.enum "None" []) q r = r := rfl

/-- A step into a function. -/
theorem runFn_body {S : Setting} {p : Program} {n : Nat} {f : Fn} {tys : Tys S} {s : State S} {b : Expr}
    (h : f.body = some b) : ∃ cx : Ctx S, cx.prog = p ∧ cx.tys = tys ∧ cx.fuel = n ∧ cx.run = runFn p n ∧
      runFn p (n + 1) f tys s = eval cx b s :=
  ⟨⟨p, tys, n, runFn p n⟩, rfl, rfl, rfl, rfl, by rw [runFn, h]⟩

theorem evalStmts_append {S : Setting} (cx : Ctx S) (ss tt : List Stmt) (s : State S) :
    evalStmts cx (ss ++ tt) s = ((evalStmts cx ss).bind fun _ => evalStmts cx tt) s := by
  induction ss generalizing s with
  | nil => simp [evalStmts, bind_apply, pure_apply]
  | cons x ss ih =>
    simp only [List.cons_append, evalStmts, bind_apply]
    rcases evalStmt cx x s with ⟨r, s'⟩
    cases r with
    | val a => simp only [ih, bind_apply]
    | _ => rfl

/-- A block whose first statements end normally. -/
theorem block_tail {S : Setting} {cx : Ctx S} {ss tt : List Stmt} {e : Expr} {s s1 s2 : State S} {r : Res S (Val S)}
    (h1 : evalStmts cx ss s = (.val (), s1)) (h2 : ((evalStmts cx tt).bind fun _ => eval cx e) s1 = (r, s2)) :
    eval cx (.block (ss ++ tt) e) s = (r, { s2 with env := s2.env.drop (s2.env.length - s.env.length) }) := by
  simp only [eval, inScope_apply, bind_apply, evalStmts_append, h1] at h2 ⊢
  rw [h2]

section Coerce
variable {S : Setting} (t : Ty)
@[rust] theorem coerce_word (x : BitVec S.bits) : (Val.word x).coerce t = .word x := rfl
@[rust] theorem coerce_u32 (x : BitVec 32) : (Val.u32 x : Val S).coerce t = .u32 x := rfl
@[rust] theorem coerce_bool (x : Bool) : (Val.bool x : Val S).coerce t = .bool x := rfl
@[rust] theorem coerce_str (x : String) : (Val.str x : Val S).coerce t = .str x := rfl
@[rust] theorem coerce_bytes (x : List Byte) : (Val.bytes x : Val S).coerce t = .bytes x := rfl
@[rust] theorem coerce_unit : (Val.unit : Val S).coerce t = .unit := rfl
@[rust] theorem coerce_null : (Val.null : Val S).coerce t = .null := rfl
@[rust] theorem coerce_sink (k : S.Sink) : (Val.sink k).coerce t = .sink k := rfl
@[rust] theorem coerce_clientIter : (Val.clientIter : Val S).coerce t = .clientIter := rfl
@[rust] theorem coerce_iter (vs : List (Val S)) : (Val.iter vs).coerce t = .iter vs := rfl
@[rust] theorem coerce_seq (vs : List (Val S)) : (Val.seq vs).coerce t = .seq vs := rfl
@[rust] theorem coerce_struct (n : String) (fs : List (String × Val S)) : (Val.struct n fs).coerce t = .struct n fs := rfl
@[rust] theorem coerce_enum (n : String) (vs : List (Val S)) : (Val.enum n vs).coerce t = .enum n vs := rfl
@[rust] theorem coerce_arg (a : Arg S.Conv S.Std) : (Val.arg a : Val S).coerce t = .arg a := rfl
@[rust] theorem coerce_lit_unit (n : Nat) : (Val.lit n : Val S).coerce .unit = .word (BitVec.ofNat _ n) := rfl
@[rust] theorem coerce_lit_usize (n : Nat) :
    (Val.lit n : Val S).coerce (.path ["usize"] []) = .word (BitVec.ofNat _ n) := rfl
end Coerce

attribute [rust] eval evalList evalStmt evalStmts params outs copyBack binOpVal compare? List.lookup Env.set
  getField getPlace setPlace

end RustCode
