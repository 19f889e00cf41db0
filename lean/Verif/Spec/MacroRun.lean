import Verif.Spec.RustCode
import Verif.Spec.RustSyntax
/-
Specification: what a procedural macro in the fragment of `Spec/RustCode.lean` does, with the parts of `syn`, `quote`
and `proc_macro2` that it uses (their documentation; The Rust Reference, "Statements and expressions",
"Procedural macros"). Written without reference to crevice.

A macro is a function from a value (`syn::DeriveInput`) to tokens. It has no state outside of local variables, so that
functions and closures are called with values and return values; a closure has a copy of the variables
around it. A `Vec`, a slice and an iterator are all the list of their items; this makes `map` run at once and
not item by item when it is iterated, which nobody can observe because the closures have no effects. Numbers are
`usize`, and lists are taken to be shorter than `usize::MAX`.

`parse_quote!` and `parse_macro_input!` are taken to succeed, and a parsed path to turn back into the same tokens.
-/
namespace RustMacro
open RustCode (Expr Stmt Pat Ty Item Fn BinOp)

/-! ### Values -/

/-- Tokens that a macro produces. -/
abbrev Out (α : Type) := RustSyntax.Tok α

/-- Values. `α` are the types (`syn::Type`) that occur in the input. -/
inductive Val (α : Type)
  | unit
  | bool (b : Bool)
  /-- `usize` -/
  | int (n : Nat)
  | str (s : String)
  /-- `Ident`, with a raw prefix `r#` if it has one -/
  | ident (s : String)
  /-- `TokenStream`, `Path`, `Literal`, `Visibility` and others, by their tokens -/
  | toks (ts : List (Out α))
  | ty (t : α)
  /-- `Vec`, slice, `Punctuated`, iterator -/
  | list (vs : List (Val α))
  | tuple (vs : List (Val α))
  /-- `A::B(v)`, `Some(v)`, `None` -/
  | enum (c : List String) (vs : List (Val α))
  | struct (fields : List (String × Val α))
  /-- `Generics`: the names of the parameters, which have no bounds -/
  | generics (gs : List String)
  | closure (params : List Pat) (body : Expr) (env : List (String × Val α))

/-- Local variables, innermost first. -/
abbrev Env (α : Type) := List (String × Val α)

/-- How a computation ends: with a value or a panic (with the message of `panic!`); `timeout` when the bound on the depth
of calls is too small, `stuck` for programs outside of the fragment. -/
inductive Res (β : Type)
  | val (b : β)
  | panic (message : Option String)
  | timeout
  | stuck

/-- Computations. -/
abbrev M (α β : Type) := Env α → Res β × Env α

/-- Sequence. -/
def M.bind {α β γ : Type} (p : M α β) (f : β → M α γ) : M α γ := fun env =>
  match p env with
  | (.val b, env) => f b env
  | (.panic m, env) => (.panic m, env)
  | (.timeout, env) => (.timeout, env)
  | (.stuck, env) => (.stuck, env)

/-- A value. -/
def M.pure {α β : Type} (b : β) : M α β := fun env => (.val b, env)

/-- An outcome. -/
def M.res {α β : Type} (r : Res β) : M α β := fun env => (r, env)

/-- A value, or outside of the fragment. -/
def M.ofOption {α β : Type} : Option β → M α β
  | some b => M.pure b
  | none => M.res .stuck

/-- Declare variables. -/
def declare {α : Type} (vs : Env α) : M α Unit := fun env => (.val (), vs ++ env)

/-- Variables declared inside go out of scope. -/
def inScope {α β : Type} (p : M α β) : M α β := fun env =>
  match p env with
  | (r, env') => (r, env'.drop (env'.length - env.length))

/-- The value of a variable. -/
def getVar {α : Type} (x : String) : M α (Val α) := fun env =>
  match env.lookup x with
  | some v => (.val v, env)
  | none => (.stuck, env)

/-- Change the innermost variable of that name. -/
def Env.set {α : Type} : Env α → String → Val α → Option (Env α)
  | [], _, _ => none
  | (y, u) :: r, x, v => if y = x then some ((y, v) :: r) else (Env.set r x v).map fun r => (y, u) :: r

/-- Assign to a variable. -/
def setVar {α : Type} (x : String) (v : Val α) : M α Unit := fun env =>
  match Env.set env x v with
  | some env => (.val (), env)
  | none => (.stuck, env)

/-- The variables that a pattern binds; `none` if it does not match. -/
def binds {α : Type} : Pat → Val α → Option (Env α)
  | .wild, _ => some []
  | .var x, v => some [(x, v)]
  | .ctor c x, .enum [d] [v] => if c = d then some [(x, v)] else none
  | .tuple xs, .tuple vs => if xs.length = vs.length then some (xs.zip vs) else none
  | .variant c x, .enum d vs =>
    if c = d then if x = "_" ∨ x = "" then some [] else if vs.length = 1 then some ([x].zip vs) else none
    else none
  | _, _ => none

/-- The variables that parameters bind. -/
def bindsAll {α : Type} : List Pat → List (Val α) → Option (Env α)
  | [], [] => some []
  | p :: ps, v :: vs =>
    match binds p v, bindsAll ps vs with
    | some e, some r => some (e ++ r)
    | _, _ => none
  | _, _ => none

/-! ### Tokens -/

/-- Keywords. -/
def keyword : RustCode.Kw → Option RustSyntax.Kw
  | .kAs => some .kAs
  | .kConst => some .kConst
  | .kCrate => some .kCrate
  | .kFn => some .kFn
  | .kFor => some .kFor
  | .kImpl => some .kImpl
  | .kLet => some .kLet
  | .kMut => some .kMut
  | .kPub => some .kPub
  | .kSelf => some .kSelf
  | .kSelfTy => some .kSelfTy
  | .kStruct => some .kStruct
  | .kType => some .kType
  | .kUnsafe => some .kUnsafe
  | _ => none

/-- Operators, separators and delimiters. -/
def punct : RustCode.Op → Option RustSyntax.Punct
  | .lt => some .lt
  | .gt => some .gt
  | .colon2 => some .colon2
  | .colon => some .colon
  | .comma => some .comma
  | .semi => some .semi
  | .plus => some .plus
  | .dot => some .dot
  | .dot2 => some .dot2
  | .arrow => some .arrow
  | .eq => some .eq
  | .amp => some .amp
  | .hash => some .hash
  | .minus => some .minus
  | .star => some .star
  | .bang => some .bang
  | .lparen => some .lparen
  | .rparen => some .rparen
  | .lbracket => some .lbracket
  | .rbracket => some .rbracket
  | .lbrace => some .lbrace
  | .rbrace => some .rbrace
  | _ => none

/-- A token of a template that stands for itself. -/
def literal {α : Type} : RustCode.Tok → Option (Out α)
  | .id s => some (.ident s)
  | .kw k => (keyword k).map .kw
  | .op o => (punct o).map .punct
  | .num n s => some (.int n s)
  | .str s => some (.str s)
  | .lifetime s => some (.lifetime s)
  | _ => none

/-- `ToTokens`. -/
def toTokens {α : Type} : Val α → Option (List (Out α))
  | .ident s => some [.ident s]
  | .toks ts => some ts
  | .ty t => some [.ty t]
  | .int n => some [.int n "usize"]
  | .str s => some [.str s]
  | _ => none

/-- Both parts. -/
def append? {β : Type} : Option (List β) → Option (List β) → Option (List β)
  | some a, some b => some (a ++ b)
  | _, _ => none

/-- The tokens of a variable. -/
def hole {α : Type} (env : Env α) (x : String) : Option (List (Out α)) := (env.lookup x).bind toTokens

/-- A template without repetitions: `#x` stands for the tokens of the variable `x`. -/
def fill {α : Type} (env : Env α) : List RustCode.Tok → Option (List (Out α))
  | [] => some []
  | .op .hash :: .id x :: r => append? (hole env x) (fill env r)
  | t :: r => append? ((literal t).map fun t => [t]) (fill env r)

/-- The variables of a template without repetitions. -/
def holes : List RustCode.Tok → List String
  | [] => []
  | .op .hash :: .id x :: r => x :: holes r
  | _ :: r => holes r

/-- `#( body )*`: once for each item of the list that occurs in it; other variables stay the same. Templates with
several lists are not covered. -/
def repeated {α : Type} (env : Env α) (body : List RustCode.Tok) : Option (List (Out α)) :=
  match (holes body).filterMap fun x =>
      match env.lookup x with
      | some (.list vs) => some (x, vs)
      | _ => none with
  | [(x, vs)] => (vs.mapM fun v => fill ((x, v) :: env) body).map List.flatten
  | _ => none

/-- `quote! { .. }`. The second argument is what has been seen of a repetition, last token first, and how many
parentheses are open in it. -/
def quote {α : Type} (env : Env α) : Option (Nat × List RustCode.Tok) → List RustCode.Tok → Option (List (Out α))
  | none, [] => some []
  | some _, [] => none
  | none, .op .hash :: .op .lparen :: r => quote env (some (0, [])) r
  | none, .op .hash :: .id x :: r => append? (hole env x) (quote env none r)
  | none, t :: r => append? ((literal t).map fun t => [t]) (quote env none r)
  | some (0, body), .op .rparen :: .op .star :: r => append? (repeated env body.reverse) (quote env none r)
  | some (d, body), .op .lparen :: r => quote env (some (d + 1, .op .lparen :: body)) r
  | some (d, body), .op .rparen :: r => quote env (some (d - 1, .op .rparen :: body)) r
  | some (d, body), t :: r => quote env (some (d, t :: body)) r

/-- An identifier without its raw prefix. -/
def withoutRaw (s : String) : String :=
  if s.toList.take 2 = ['r', '#'] then String.ofList (s.toList.drop 2) else s

/-- What a value contributes to a name that `format_ident!` builds. -/
def fragment {α : Type} : Val α → Option String
  | .ident s => some (withoutRaw s)
  | .str s => some s
  | .int n => some (toString n)
  | _ => none

/-- The text between the places `{}` of a format string. -/
def between : List Char → List (List Char)
  | [] => [[]]
  | '{' :: '}' :: r => [] :: between r
  | c :: r =>
    match between r with
    | p :: ps => (c :: p) :: ps
    | [] => [[c]]

/-- The text with arguments in these places. -/
def format : List (List Char) → List String → Option String
  | [p], [] => some (String.ofList p)
  | p :: ps, s :: ss => (format ps ss).map fun r => String.ofList p ++ s ++ r
  | _, _ => none

/-- `, x, y`. -/
def formatArgs {α : Type} (env : Env α) : List RustCode.Tok → Option (List String)
  | [] => some []
  | .op .comma :: .id x :: r =>
    match (env.lookup x).bind fragment, formatArgs env r with
    | some s, some ss => some (s :: ss)
    | _, _ => none
  | _ => none

/-- The tokens of a list of token streams. -/
def concatTokens {α : Type} : List (Val α) → Option (List (Out α))
  | [] => some []
  | .toks ts :: vs => (concatTokens vs).map fun r => ts ++ r
  | _ => none

/-- `collect` for the given type: token streams are put together. -/
def collected {α : Type} : Ty → Val α → Option (Val α)
  | .path ["TokenStream"] [], .list vs => (concatTokens vs).map .toks
  | _, v => some v

/-- `<A, B>`, nothing for no parameters. -/
def paramTokens {α : Type} : List String → List (Out α)
  | [] => []
  | gs => .punct .lt :: (gs.map RustSyntax.Tok.ident).intersperse (.punct .comma) ++ [.punct .gt]

/-! ### Programs -/

/-- The modules of a macro with their items, and the features it is compiled with. -/
structure Program where
  modules : List (String × List Item)
  features : List String

/-- A function of a module. -/
def findFn (p : Program) (m f : String) : Option Fn :=
  (p.modules.lookup m).bind fun items => items.findSome? fun i =>
    match i with
    | .fn g => if g.name = f then some g else none
    | _ => none

/-- The program and how it calls closures. -/
structure Ctx (α : Type) where
  prog : Program
  run : List Pat → Expr → Env α → List (Val α) → Res (Val α)

/-- Call a closure. -/
def apply {α : Type} (cx : Ctx α) : Val α → List (Val α) → Res (Val α)
  | .closure ps b env, vs => cx.run ps b env vs
  | _, _ => .stuck

/-- Call a closure for every item. -/
def mapList {α : Type} (f : Val α → Res (Val α)) : List (Val α) → Res (List (Val α))
  | [] => .val []
  | v :: vs =>
    match f v with
    | .val u =>
      match mapList f vs with
      | .val us => .val (u :: us)
      | .panic m => .panic m
      | .timeout => .timeout
      | .stuck => .stuck
    | .panic m => .panic m
    | .timeout => .timeout
    | .stuck => .stuck

/-- `Option::map` and `Iterator::map`. -/
def mapVal {α : Type} (f : Val α → Res (Val α)) : Val α → M α (Val α)
  | .list vs => (M.res (mapList f vs)).bind fun us => M.pure (.list us)
  | .enum ["Some"] [v] => (M.res (f v)).bind fun u => M.pure (.enum ["Some"] [u])
  | .enum ["None"] [] => M.pure (.enum ["None"] [])
  | _ => M.res .stuck

/-- An item, if there is one. -/
def getVal {α : Type} : Val α → Nat → Option (Val α)
  | .list vs, i =>
    match vs[i]? with
    | some v => some (.enum ["Some"] [v])
    | none => some (.enum ["None"] [])
  | _, _ => none

/-- `a[i]`. -/
def indexVal {α : Type} : Val α → Val α → M α (Val α)
  | .list vs, .int i =>
    match vs[i]? with
    | some v => M.pure v
    | none => M.res (.panic none)
  | _, _ => M.res .stuck

/-- Methods of the libraries. `e` is the receiver, `v` its value. -/
def method {α : Type} (cx : Ctx α) (e : Expr) (v : Val α) (name : String) (vs : List (Val α)) : M α (Val α) :=
  match name, v, vs with
  | "iter", .list us, [] => M.pure (.list us)
  | "into_iter", .list us, [] => M.pure (.list us)
  | "collect", .list us, [] => M.pure (.list us)
  | "enumerate", .list us, [] => M.pure (.list (us.zipIdx.map fun x => .tuple [.int x.2, x.1]))
  | "len", .list us, [] => M.pure (.int us.length)
  | "get", v, [.int i] => M.ofOption (getVal v i)
  | "map", v, [f] => mapVal (fun u => apply cx f [u]) v
  | "push", .list us, [u] =>
    match e with
    | .var x => (setVar x (.list (us ++ [u]))).bind fun _ => M.pure .unit
    | _ => M.res .stuck
  | "as_ref", v, [] => M.pure v
  | "unwrap", .enum ["Some"] [u], [] => M.pure u
  | "unwrap", .enum ["None"] [], [] => M.res (.panic none)
  | "unwrap_or", .enum ["Some"] [u], [_] => M.pure u
  | "unwrap_or", .enum ["None"] [], [u] => M.pure u
  | "to_string", .ident s, [] => M.pure (.str s)
  | "split_for_impl", .generics gs, [] =>
    M.pure (.tuple [.toks (paramTokens gs), .toks (paramTokens gs), .toks []])
  | _, _, _ => M.res .stuck

/-- Call what a path stands for. -/
def call {α : Type} (cx : Ctx α) (f : Expr) (vs : List (Val α)) : M α (Val α) :=
  match f, vs with
  | .var x, vs => (getVar x).bind fun v => M.res (apply cx v vs)
  | .path (.path ["Ident", "new"] []), [.str s, .unit] => M.pure (.ident s)
  | .path (.path ["Span", "call_site"] []), [] => M.pure .unit
  | .path (.path ["Literal", "string"] []), [.str s] => M.pure (.toks [.str s])
  | .path (.path ["CompilerTokenStream", "from"] []), [.toks ts] => M.pure (.toks ts)
  | .path (.path [m, f] []), vs =>
    match findFn cx.prog m f with
    | some ⟨_, _, .static, params, _, some body⟩ => M.res (cx.run (params.map fun x => .var x.1) body [] vs)
    | _ => M.res .stuck
  | _, _ => M.res .stuck

/-- Macros that are called when the macro runs. -/
def macroVal {α : Type} (cx : Ctx α) (name : String) (body : List RustCode.Tok) : M α (Val α) := fun env =>
  match name, body with
  | "quote", ts => M.ofOption ((quote env none ts).map .toks) env
  | "parse_quote", ts => M.ofOption ((quote env none ts).map .toks) env
  | "format_ident", .str s :: ts =>
    M.ofOption (((formatArgs env ts).bind (format (between s.toList))).map .ident) env
  | "panic", [.str s] => (.panic (some s), env)
  | "cfg", [.id "feature", .op .eq, .str f] => (.val (.bool (cx.prog.features.contains f)), env)
  | "parse_macro_input", [.id x, .kw .kAs, .id _] => getVar x env
  | _, _ => (.stuck, env)

/-- A field. -/
def getField {α : Type} (f : String) : Val α → M α (Val α)
  | .struct fs => M.ofOption (fs.lookup f)
  | _ => M.res .stuck

/-- Operators. -/
def binOp {α : Type} : BinOp → Val α → Val α → M α (Val α)
  | .add, .int a, .int b => M.pure (.int (a + b))
  | .lt, .int a, .int b => M.pure (.bool (decide (a < b)))
  | _, _, _ => M.res .stuck

/-- A choice by a value. -/
def ifVal {α β : Type} (v : Val α) (p q : M α β) : M α β :=
  match v with
  | .bool b => if b then p else q
  | _ => M.res .stuck

/-- `a..b`. -/
def rangeVal {α : Type} : Val α → Val α → M α (Val α)
  | .int a, .int b => M.pure (.list ((List.range' a (b - a)).map .int))
  | _, _ => M.res .stuck

/-- `a..=b`. -/
def rangeInclVal {α : Type} : Val α → Val α → M α (Val α)
  | .int a, .int b => M.pure (.list ((List.range' a (b + 1 - a)).map .int))
  | _, _ => M.res .stuck

/-- `for` over the given items. -/
def forList {α : Type} (body : Val α → M α (Val α)) : List (Val α) → M α (Val α)
  | [] => M.pure .unit
  | v :: vs => (body v).bind fun _ => forList body vs

/-- `for`. -/
def forVal {α : Type} (body : Val α → M α (Val α)) : Val α → M α (Val α)
  | .list vs => forList body vs
  | _ => M.res .stuck

/-- A computation with the variables of a pattern. -/
def withPat {α : Type} (p : Pat) (v : Val α) (q : M α (Val α)) : M α (Val α) :=
  match binds p v with
  | some vs => inScope ((declare vs).bind fun _ => q)
  | none => M.res .stuck

mutual
/-- Evaluate an expression. -/
def eval {α : Type} (cx : Ctx α) : Expr → M α (Val α)
  | .num n s => if s = "" ∨ s = "usize" then M.pure (.int n) else M.res .stuck
  | .str s => M.pure (.str s)
  | .var x => getVar x
  | .call f args => (evalList cx args).bind fun vs => call cx f vs
  | .method e name args =>
    (eval cx e).bind fun v => (evalList cx args).bind fun vs => method cx e v name vs
  | .turbofish e name tys args =>
    (eval cx e).bind fun v => (evalList cx args).bind fun vs => (method cx e v name vs).bind fun u =>
      match tys with
      | [t] => M.ofOption (collected t u)
      | _ => M.res .stuck
  | .field e f => (eval cx e).bind fun v => getField f v
  | .index e i => (eval cx e).bind fun v => (eval cx i).bind fun w => indexVal v w
  | .ref _ e => eval cx e
  | .bin o a b => (eval cx a).bind fun v => (eval cx b).bind fun w => binOp o v w
  | .range a b => (eval cx a).bind fun v => (eval cx b).bind fun w => rangeVal v w
  | .rangeIncl a b => (eval cx a).bind fun v => (eval cx b).bind fun w => rangeInclVal v w
  | .array es => (evalList cx es).bind fun vs => M.pure (.list vs)
  | .block ss e => inScope ((evalStmts cx ss).bind fun _ => eval cx e)
  | .cond c t e => (eval cx c).bind fun v => ifVal v (eval cx t) (eval cx e)
  | .each p e body => (eval cx e).bind fun v => forVal (fun v => withPat p v (eval cx body)) v
  | .arms e pats bodies => (eval cx e).bind fun v => evalArms cx v pats bodies
  | .closure ps b => fun env => (.val (.closure ps b env), env)
  | .mac name body => macroVal cx name body
  | .unit => M.pure .unit
  | _ => M.res .stuck
/-- Evaluate expressions from left to right. -/
def evalList {α : Type} (cx : Ctx α) : List Expr → M α (List (Val α))
  | [] => M.pure []
  | e :: es => (eval cx e).bind fun v => (evalList cx es).bind fun vs => M.pure (v :: vs)
/-- The first arm that matches. -/
def evalArms {α : Type} (cx : Ctx α) (v : Val α) : List (List Pat) → List Expr → M α (Val α)
  | ps :: pss, e :: es =>
    match ps.findSome? fun p => binds p v with
    | some vs => inScope ((declare vs).bind fun _ => eval cx e)
    | none => evalArms cx v pss es
  | _, _ => M.res .stuck
/-- Execute a statement. -/
def evalStmt {α : Type} (cx : Ctx α) : Stmt → M α Unit
  | .bind _ x t e => (eval cx e).bind fun v => (M.ofOption (collected t v)).bind fun v => declare [(x, v)]
  | .bindTuple xs e => (eval cx e).bind fun v => (M.ofOption (binds (.tuple xs) v)).bind fun vs => declare vs
  | .expr e => (eval cx e).bind fun _ => M.pure ()
/-- Execute statements. -/
def evalStmts {α : Type} (cx : Ctx α) : List Stmt → M α Unit
  | [] => M.pure ()
  | s :: ss => (evalStmt cx s).bind fun _ => evalStmts cx ss
end

/-- Call a closure, with a bound on the depth of calls. -/
def run {α : Type} (p : Program) : Nat → List Pat → Expr → Env α → List (Val α) → Res (Val α)
  | 0, _, _, _, _ => .timeout
  | n + 1, ps, e, env, vs =>
    match bindsAll ps vs with
    | some b => (eval { prog := p, run := run p n } e (b ++ env)).1
    | none => .stuck

/-- Call a function of a module. -/
def exec {α : Type} (p : Program) (n : Nat) (m f : String) (vs : List (Val α)) : Res (Val α) :=
  (call { prog := p, run := run p n } (.path (.path [m, f] [])) vs []).1

end RustMacro
