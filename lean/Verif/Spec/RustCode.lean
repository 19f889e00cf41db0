/-
Specification: the part of the Rust grammar (The Rust Reference, "Items", "Statements", "Expressions",
"Types", "Paths") in which the functions of crevice's library are written. Written without reference to
crevice. `parse` turns the tokens of a file into its items.

(`Spec/RustSyntax.lean` is the smaller grammar of the code that the derive macros emit, on token lists that
contain spliced types.)
-/
namespace RustCode

/-! ### Tokens -/

/-- Keywords. -/
inductive Kw
  | kAs | kConst | kCrate | kElse | kFn | kFor | kIf | kImpl | kIn | kLet | kMatch | kMod | kMut | kPub | kSelf
  | kSelfTy | kStruct | kTrait | kType | kUnsafe | kUse | kWhere | kWhile
  deriving DecidableEq, Repr

/-- Operators, separators and delimiters. -/
inductive Op
  | colon2 | arrow | fatArrow | eqEq | ne | orOr | andAnd | plusEq | dot2eq | dot2 | lt | gt | colon | comma | semi
  | plus | minus | star | slash | percent | dot | eq | amp | bang | question | hash | dollar | bar
  | lparen | rparen | lbracket | rbracket | lbrace | rbrace
  deriving DecidableEq, Repr

/-- Tokens. -/
inductive Tok
  | id (s : String)
  | kw (k : Kw)
  | op (o : Op)
  /-- integer literal with its suffix -/
  | num (n : Nat) (suffix : String)
  /-- float literal, by its text -/
  | float (s : String)
  /-- string literal, by its contents -/
  | str (s : String)
  | chr (c : Char)
  /-- `'a` -/
  | lifetime (s : String)
  deriving DecidableEq, Repr

/-! ### Syntax trees -/

/-- Binary operators. -/
inductive BinOp
  | or | and | eq | ne | lt | gt | add | sub | mul | div | rem
  deriving DecidableEq, Repr

/-- Patterns. -/
inductive Pat
  | wild
  | var (x : String)
  /-- `Some(x)` -/
  | ctor (c : String) (x : String)
  /-- `(x, y)` -/
  | tuple (xs : List String)
  /-- `A::B(x)`; the name is `_` for `A::B(_)` and empty for `A::B` -/
  | variant (path : List String) (x : String)
  deriving DecidableEq, Repr

mutual
/-- Types and paths. A path in an expression has the same form. -/
inductive Ty
  /-- `a::b<T>::c`; `crate`, `self`, `Self` are segments like others -/
  | path (names : List String) (args : List Ty)
  /-- `<T as P>::a::b`, or `<T>::a` with `P` left out -/
  | proj (t : Ty) (via : Ty) (names : List String)
  | ref (mutable : Bool) (t : Ty)
  | slice (t : Ty)
  | array (t : Ty) (len : Expr)
  /-- `()`, and a type that is not written -/
  | unit
/-- Expressions. -/
inductive Expr
  | num (n : Nat) (suffix : String)
  | str (s : String)
  | chr (c : Char)
  /-- a name -/
  | var (x : String)
  /-- any other path -/
  | path (p : Ty)
  | call (f : Expr) (args : List Expr)
  | method (e : Expr) (name : String) (args : List Expr)
  /-- `e.name::<T>(..)` -/
  | turbofish (e : Expr) (name : String) (tys : List Ty) (args : List Expr)
  /-- `e.name`; `e.0` has the name "0" -/
  | field (e : Expr) (name : String)
  | index (e i : Expr)
  /-- `e?` -/
  | attempt (e : Expr)
  | ref (mutable : Bool) (e : Expr)
  | deref (e : Expr)
  | bin (o : BinOp) (a b : Expr)
  | cast (e : Expr) (t : Ty)
  | range (a b : Expr)
  /-- `a..=b` -/
  | rangeIncl (a b : Expr)
  | assign (a e : Expr)
  /-- `a += e` -/
  | addAssign (a e : Expr)
  /-- `[..]` and `vec![..]` -/
  | array (es : List Expr)
  /-- `P { f: e, .. }`; `P { f }` stands for `P { f: f }` -/
  | struct (p : Ty) (names : List String) (es : List Expr)
  /-- `P { f: e, .. ..base }` -/
  | structBase (p : Ty) (names : List String) (es : List Expr) (base : Expr)
  /-- `{ stmts; value }`; without a value it is `unit` -/
  | block (stmts : List Stmt) (value : Expr)
  /-- `if c t else e`; without `else` it is `unit` -/
  | cond (c t e : Expr)
  /-- `if let p = c t else e` -/
  | condLet (p : Pat) (c t e : Expr)
  | loop (c body : Expr)
  | each (p : Pat) (e body : Expr)
  /-- `match e { p | p => e, .. }` -/
  | arms (e : Expr) (pats : List (List Pat)) (bodies : List Expr)
  /-- `|p, p| e`; types of parameters are left out -/
  | closure (params : List Pat) (body : Expr)
  /-- `name!(..)` -/
  | mac (name : String) (body : List Tok)
  /-- `()`, and an expression that is not written -/
  | unit
/-- Statements. -/
inductive Stmt
  | bind (mutable : Bool) (x : String) (t : Ty) (e : Expr)
  /-- `let (x, y) = e` -/
  | bindTuple (xs : List String) (e : Expr)
  | expr (e : Expr)
end

/-- How a method takes its receiver. -/
inductive Receiver
  /-- a function without `self` -/
  | static
  | value
  | ref
  | mutRef
  deriving DecidableEq, Repr

/-- Generic parameters with the bounds written on them or in the `where` clause; `?Sized` is left out. -/
structure Generics where
  /-- type parameters -/
  types : List String
  /-- `const N: usize` -/
  consts : List String
  bounds : List (Ty × List Ty)

/-- `fn name<..>(self, x: T, ..) -> R where .. { .. }`. -/
structure Fn where
  name : String
  generics : Generics
  receiver : Receiver
  params : List (String × Ty)
  ret : Ty
  /-- `none` for a required method of a trait -/
  body : Option Expr

/-- Items of an `impl` or `trait`. -/
inductive Assoc
  | fn (f : Fn)
  | const (name : String) (t : Ty) (e : Option Expr)
  | type (name : String) (t : Option Ty)

/-- Items. -/
inductive Item
  | fn (f : Fn)
  /-- fields of a tuple struct are called "0", "1", .. -/
  | struct (attrs : List (List Tok)) (name : String) (generics : Generics) (fields : List (String × Ty))
  /-- an inherent `impl` has `unit` for the trait -/
  | impl (generics : Generics) (via : Ty) (self : Ty) (items : List Assoc)
  | trait (name : String) (items : List Assoc)
  /-- a macro invocation, also of `macro_rules!` -/
  | mac (name : String) (arg : List Tok)
  /-- `use` and `mod` -/
  | other

/-! ### Parsers -/

/-- A parser consumes tokens and returns a tree; `none` is a syntax error. -/
abbrev P (α : Type) := List Tok → Option (α × List Tok)

/-- Sequence. -/
def P.bind {α β : Type} (p : P α) (f : α → P β) : P β := fun ts =>
  match p ts with
  | some (a, ts) => f a ts
  | none => none

/-- Succeed without consuming. -/
def P.pure {α : Type} (a : α) : P α := fun ts => some (a, ts)

/-- Syntax error. -/
def P.fail {α : Type} : P α := fun _ => none

instance : Monad P where
  pure := P.pure
  bind := P.bind

/-- The given operator. -/
def op (o : Op) : P Unit
  | .op o' :: r => if o' = o then some ((), r) else none
  | _ => none

/-- Whether the next token is the given operator, which is then consumed. -/
def opt (o : Op) : P Bool
  | .op o' :: r => if o' = o then some (true, r) else some (false, .op o' :: r)
  | r => some (false, r)

/-- The given keyword. -/
def kw (k : Kw) : P Unit
  | .kw k' :: r => if k' = k then some ((), r) else none
  | _ => none

/-- Whether the next token is the given keyword, which is then consumed. -/
def optKw (k : Kw) : P Bool
  | .kw k' :: r => if k' = k then some (true, r) else some (false, .kw k' :: r)
  | r => some (false, r)

/-- An identifier. -/
def ident : P String
  | .id s :: r => some (s, r)
  | _ => none

/-- A segment of a path. -/
def segment : P String
  | .id s :: r => some (s, r)
  | .kw .kSelf :: r => some ("self", r)
  | .kw .kSelfTy :: r => some ("Self", r)
  | .kw .kCrate :: r => some ("crate", r)
  | _ => none

/-- `::a::b`, possibly empty. -/
def segments : P (List String)
  | .op .colon2 :: .id s :: r =>
    match segments r with
    | some (ss, r) => some (s :: ss, r)
    | none => none
  | r => some ([], r)

/-- Tokens up to the closing delimiter that matches an opening one before; nested delimiters are balanced. -/
def balanced : Nat → P (List Tok)
  | _, [] => none
  | depth, t :: r =>
    let closes := t = .op .rparen ∨ t = .op .rbracket ∨ t = .op .rbrace
    let opens := t = .op .lparen ∨ t = .op .lbracket ∨ t = .op .lbrace
    if closes ∧ depth = 0 then some ([], r)
    else
      match balanced (if opens then depth + 1 else if closes then depth - 1 else depth) r with
      | some (ts, r) => some (t :: ts, r)
      | none => none

/-- Tokens up to a semicolon outside of braces. -/
def upToSemi : Nat → P Unit
  | _, [] => none
  | 0, .op .semi :: r => some ((), r)
  | depth, .op .lbrace :: r => upToSemi (depth + 1) r
  | depth, .op .rbrace :: r => upToSemi (depth - 1) r
  | depth, _ :: r => upToSemi depth r

/-- The mutually recursive parsers. -/
structure Grammar where
  ty : P Ty
  /-- types separated by commas, up to `>` -/
  tys : P (List Ty)
  /-- `A + B`, up to anything else -/
  bounds : P (List Ty)
  /-- an expression; the flag says whether a struct literal may occur outside of brackets -/
  expr : Bool → P Expr
  /-- operators that bind at least as tightly as the level -/
  level : Nat → Bool → P Expr
  /-- further operands on the level, to the left associated -/
  more : Nat → Bool → Expr → P Expr
  /-- fields, calls, indices and `?` after an expression -/
  suffix : Expr → P Expr
  /-- expressions separated by commas, up to the delimiter -/
  exprs : Op → P (List Expr)
  /-- `f: e, .. }` with or without base -/
  inits : P (List String × List Expr × Option Expr)
  /-- statements up to the closing brace -/
  stmts : P (List Stmt × Expr)
  /-- `p | p` -/
  alts : P (List Pat)
  /-- `p => e, .. }` -/
  arms : P (List (List Pat) × List Expr)
  /-- `p: T, p|` -/
  closureParams : P (List Pat)
  attrs : P (List (List Tok))
  generics : P Generics
  wheres : P (List (Ty × List Ty))
  params : P (List (String × Ty))
  fields : P (List (String × Ty))
  tupleFields : Nat → P (List (String × Ty))
  assocs : P (List Assoc)
  items : P (List Item)

/-- Types. -/
def tyRule (g : Grammar) : P Ty
  | .op .amp :: .lifetime _ :: r => (do return .ref false (← g.ty) : P Ty) r
  | .op .amp :: .kw .kMut :: r => (do return .ref true (← g.ty) : P Ty) r
  | .op .amp :: r => (do return .ref false (← g.ty) : P Ty) r
  | .op .lparen :: .op .rparen :: r => some (.unit, r)
  | .op .lbracket :: r => (do
      let t ← g.ty
      if ← opt .semi then
        let n ← g.expr true
        op .rbracket
        return .array t n
      op .rbracket
      return .slice t : P Ty) r
  | .op .lt :: r => (do
      let t ← g.ty
      let via ← if ← optKw .kAs then g.ty else P.pure .unit
      op .gt
      return .proj t via (← segments) : P Ty) r
  | r => (do
      let s ← segment
      let ss ← segments
      if ← opt .lt then return .path (s :: ss) (← g.tys)
      return .path (s :: ss) [] : P Ty) r

/-- `T, U>`. Of an argument `Name = T` only `T` is kept, lifetimes are left out. -/
def tysRule (g : Grammar) : P (List Ty)
  | .op .gt :: r => some ([], r)
  | .id _ :: .op .eq :: r => g.tys r
  | .lifetime _ :: .op .comma :: r => g.tys r
  | .lifetime _ :: .op .gt :: r => some ([], r)
  | r => (do
      let t ← g.ty
      if ← opt .comma then return t :: (← g.tys)
      op .gt
      return [t] : P (List Ty)) r

/-- `A + ?Sized + B`. -/
def boundsRule (g : Grammar) : P (List Ty)
  | .op .question :: .id _ :: r => (do
      if ← opt .plus then g.bounds else P.pure [] : P (List Ty)) r
  | r => (do
      let t ← g.ty
      if ← opt .plus then return t :: (← g.bounds)
      return [t] : P (List Ty)) r

/-- Binary operators by level. -/
def binOp : Nat → Op → Option BinOp
  | 0, .orOr => some .or
  | 1, .andAnd => some .and
  | 2, .eqEq => some .eq
  | 2, .ne => some .ne
  | 2, .lt => some .lt
  | 2, .gt => some .gt
  | 3, .plus => some .add
  | 3, .minus => some .sub
  | 4, .star => some .mul
  | 4, .slash => some .div
  | 4, .percent => some .rem
  | _, _ => none

/-- `else ..`, or nothing. -/
def elseRule (g : Grammar) : P Expr := do
  if ← optKw .kElse then
    if ← opt .lbrace then
      let (ss, e) ← g.stmts
      return .block ss e
    g.expr true
  else return .unit

/-- `{ .. }`. -/
def blockRule (g : Grammar) : P Expr := do
  op .lbrace
  let (ss, e) ← g.stmts
  return .block ss e

/-- `x, y)`. -/
def names : P (List String)
  | .id x :: .op .rparen :: r => some ([x], r)
  | .id x :: .op .comma :: r =>
    match names r with
    | some (xs, r) => some (x :: xs, r)
    | none => none
  | _ => none

/-- Patterns. -/
def pat : P Pat
  | .id "_" :: r => some (.wild, r)
  | .op .lparen :: r => (do return .tuple (← names) : P Pat) r
  | .id c :: .op .lparen :: .id x :: .op .rparen :: r => some (.ctor c x, r)
  | .id c :: .op .colon2 :: r => (do
      let ss ← segments
      fun
        | .op .lparen :: .id x :: .op .rparen :: r => some (.variant (c :: ss) x, r)
        | r => some (.variant (c :: ss) "", r) : P Pat) (.op .colon2 :: r)
  | .id x :: r => some (.var x, r)
  | _ => none

/-- Expressions that end with a block; `none` if the text does not start with one. -/
def blockLike (g : Grammar) : List Tok → Option (P Expr)
  | .op .lbrace :: r => some fun _ => (do
      let (ss, e) ← g.stmts
      return .block ss e : P Expr) r
  | .kw .kIf :: .kw .kLet :: r => some fun _ => (do
      let p ← pat
      op .eq
      let c ← g.expr false
      let t ← blockRule g
      return .condLet p c t (← elseRule g) : P Expr) r
  | .kw .kIf :: r => some fun _ => (do
      let c ← g.expr false
      let t ← blockRule g
      return .cond c t (← elseRule g) : P Expr) r
  | .kw .kMatch :: r => some fun _ => (do
      let e ← g.expr false
      op .lbrace
      let (ps, es) ← g.arms
      return .arms e ps es : P Expr) r
  | .kw .kWhile :: r => some fun _ => (do
      let c ← g.expr false
      return .loop c (← blockRule g) : P Expr) r
  | .kw .kFor :: r => some fun _ => (do
      let p ← pat
      kw .kIn
      let e ← g.expr false
      return .each p e (← blockRule g) : P Expr) r
  | _ => none

/-- `p | p`. -/
def altsRule (g : Grammar) : P (List Pat) := do
  let p ← pat
  if ← opt .bar then return p :: (← g.alts)
  return [p]

/-- `p => e, .. }`. -/
def armsRule (g : Grammar) : P (List (List Pat) × List Expr) := do
  if ← opt .rbrace then return ([], [])
  let ps ← g.alts
  op .fatArrow
  let e ← fun r =>
    match blockLike g r with
    | some p => p r
    | none => g.expr true r
  let _ ← opt .comma
  let (pss, es) ← g.arms
  return (ps :: pss, e :: es)

/-- `p: T, p|`. -/
def closureParamsRule (g : Grammar) : P (List Pat) := do
  let p ← pat
  let _ ← if ← opt .colon then g.ty else P.pure .unit
  if ← opt .comma then return p :: (← g.closureParams)
  op .bar
  return [p]

/-- A path in an expression: generic arguments follow `::<`. -/
def exprPath (g : Grammar) : P Ty := do
  let s ← segment
  let ss ← segments
  fun
    | .op .colon2 :: .op .lt :: r => (do return .path (s :: ss) (← g.tys) : P Ty) r
    | r => some (.path (s :: ss) [], r)

/-- A path as an expression. -/
def Expr.ofPath : Ty → Expr
  | .path [x] [] => .var x
  | p => .path p

/-- Expressions without operators. -/
def primary (g : Grammar) (lit : Bool) : P Expr
  | .num n s :: r => some (.num n s, r)
  | .str s :: r => some (.str s, r)
  | .chr c :: r => some (.chr c, r)
  | .op .lparen :: .op .rparen :: r => some (.unit, r)
  | .op .lparen :: r => (do
      let e ← g.expr true
      op .rparen
      return e : P Expr) r
  | .op .lbracket :: r => (do return .array (← g.exprs .rbracket) : P Expr) r
  | .op .lt :: r => (do return .path (← g.ty) : P Expr) (.op .lt :: r)
  | .op .bar :: r => (do
      let ps ← g.closureParams
      return .closure ps (← g.expr lit) : P Expr) r
  | .id "vec" :: .op .bang :: .op .lbracket :: r => (do return .array (← g.exprs .rbracket) : P Expr) r
  | .id m :: .op .bang :: .op .lparen :: r => (do return .mac m (← balanced 0) : P Expr) r
  | .id m :: .op .bang :: .op .lbrace :: r => (do return .mac m (← balanced 0) : P Expr) r
  | r =>
    match blockLike g r with
    | some p => p r
    | none => (do
        let p ← exprPath g
        fun
          | .op .lbrace :: r =>
            if lit then (do
              let (names, es, base) ← g.inits
              return match base with
                | some b => .structBase p names es b
                | none => .struct p names es : P Expr) r
            else some (.ofPath p, .op .lbrace :: r)
          | r => some (.ofPath p, r) : P Expr) r

/-- `.f`, `.f(..)`, `(..)`, `[..]`, `?`. -/
def suffixRule (g : Grammar) (e : Expr) : P Expr
  | .op .dot :: .id n :: .op .lparen :: r => (do g.suffix (.method e n (← g.exprs .rparen)) : P Expr) r
  | .op .dot :: .id n :: .op .colon2 :: .op .lt :: r => (do
      let ts ← g.tys
      op .lparen
      g.suffix (.turbofish e n ts (← g.exprs .rparen)) : P Expr) r
  | .op .dot :: .id n :: r => g.suffix (.field e n) r
  | .op .dot :: .num n "" :: r => g.suffix (.field e (toString n)) r
  | .op .lparen :: r => (do g.suffix (.call e (← g.exprs .rparen)) : P Expr) r
  | .op .lbracket :: r => (do
      let i ← g.expr true
      op .rbracket
      g.suffix (.index e i) : P Expr) r
  | .op .question :: r => g.suffix (.attempt e) r
  | r => some (e, r)

/-- Prefix operators and, after them, `as`. -/
def unaryRule (g : Grammar) (lit : Bool) : P Expr
  | .op .amp :: .kw .kMut :: r => (do return .ref true (← g.level 6 lit) : P Expr) r
  | .op .amp :: r => (do return .ref false (← g.level 6 lit) : P Expr) r
  | .op .star :: r => (do return .deref (← g.level 6 lit) : P Expr) r
  | r => (do
      let e ← primary g lit
      g.suffix e : P Expr) r

/-- Levels 0 to 4 are binary operators, 5 is `as`, 6 prefix operators. -/
def levelRule (g : Grammar) (l : Nat) (lit : Bool) : P Expr :=
  if l < 5 then do
    let e ← g.level (l + 1) lit
    g.more l lit e
  else if l = 5 then do
    let e ← g.level 6 lit
    if ← optKw .kAs then return .cast e (← g.ty)
    return e
  else unaryRule g lit

/-- `e op e op ..`. -/
def moreRule (g : Grammar) (l : Nat) (lit : Bool) (e : Expr) : P Expr
  | .op o :: r =>
    match binOp l o with
    | some b => (do
        let e' ← g.level (l + 1) lit
        g.more l lit (.bin b e e') : P Expr) r
    | none => some (e, .op o :: r)
  | r => some (e, r)

/-- Ranges and assignments. -/
def exprRule (g : Grammar) (lit : Bool) : P Expr := do
  let e ← g.level 0 lit
  fun
    | .op .dot2eq :: r => (do return .rangeIncl e (← g.level 0 lit) : P Expr) r
    | .op .dot2 :: r => (do return .range e (← g.level 0 lit) : P Expr) r
    | .op .eq :: r => (do return .assign e (← g.expr lit) : P Expr) r
    | .op .plusEq :: r => (do return .addAssign e (← g.expr lit) : P Expr) r
    | r => some (e, r)

/-- `e, e, .. )`. -/
def exprsRule (g : Grammar) (close : Op) : P (List Expr) := do
  if ← opt close then return []
  let e ← g.expr true
  if ← opt .comma then return e :: (← g.exprs close)
  op close
  return [e]

/-- `f: e, .. }`. -/
def initsRule (g : Grammar) : P (List String × List Expr × Option Expr)
  | .op .rbrace :: r => some (([], [], none), r)
  | .op .dot2 :: r => (do
      let e ← g.expr true
      op .rbrace
      return ([], [], some e) : P (List String × List Expr × Option Expr)) r
  | .id n :: r => (do
      let e ← if ← opt .colon then g.expr true else P.pure (.var n)
      if ← opt .comma then
        let (ns, es, b) ← g.inits
        return (n :: ns, e :: es, b)
      op .rbrace
      return ([n], [e], none) : P (List String × List Expr × Option Expr)) r
  | _ => none

/-- Statements. -/
def stmtsRule (g : Grammar) : P (List Stmt × Expr)
  | .op .rbrace :: r => some (([], .unit), r)
  | .op .semi :: r => g.stmts r
  | .kw .kLet :: .op .lparen :: r => (do
      let xs ← names
      op .eq
      let e ← g.expr true
      op .semi
      let (ss, v) ← g.stmts
      return (.bindTuple xs e :: ss, v) : P (List Stmt × Expr)) r
  | .kw .kLet :: r => (do
      let m ← optKw .kMut
      let x ← ident
      let t ← if ← opt .colon then g.ty else P.pure .unit
      op .eq
      let e ← g.expr true
      op .semi
      let (ss, v) ← g.stmts
      return (.bind m x t e :: ss, v) : P (List Stmt × Expr)) r
  | r =>
    match blockLike g r with
    | some p => (do
        let e ← p
        if ← opt .rbrace then return ([], e)
        let (ss, v) ← g.stmts
        return (.expr e :: ss, v) : P (List Stmt × Expr)) r
    | none => (do
        let e ← g.expr true
        if ← opt .rbrace then return ([], e)
        op .semi
        let (ss, v) ← g.stmts
        return (.expr e :: ss, v) : P (List Stmt × Expr)) r

/-- `#[..] #[..]`. -/
def attrsRule (g : Grammar) : P (List (List Tok))
  | .op .hash :: .op .lbracket :: r => (do
      let a ← balanced 0
      return a :: (← g.attrs) : P (List (List Tok))) r
  | r => some ([], r)

/-- Visibility, which is not kept. -/
def vis : P Unit
  | .kw .kPub :: .op .lparen :: r => (do let _ ← balanced 0 : P Unit) r
  | .kw .kPub :: r => some ((), r)
  | r => some ((), r)

/-- `T: A + B, const N: usize>`. -/
def genericsRule (g : Grammar) : P Generics
  | .op .gt :: r => some (⟨[], [], []⟩, r)
  | .op .comma :: r => g.generics r
  | .kw .kConst :: .id n :: .op .colon :: r => (do
      let _ ← g.ty
      let gs ← g.generics
      return { gs with consts := n :: gs.consts } : P Generics) r
  | .id n :: r => (do
      let bs ← if ← opt .colon then g.bounds else P.pure []
      let gs ← g.generics
      return { gs with types := n :: gs.types, bounds := (.path [n] [], bs) :: gs.bounds } : P Generics) r
  | _ => none

/-- `<..>` or nothing. -/
def optGenerics (g : Grammar) : P Generics := do
  if ← opt .lt then g.generics else return ⟨[], [], []⟩

/-- Bounds after `where`, up to `{` or `;`, which is left. -/
def wheresRule (g : Grammar) : P (List (Ty × List Ty))
  | .op .lbrace :: r => some ([], .op .lbrace :: r)
  | .op .semi :: r => some ([], .op .semi :: r)
  | .op .comma :: r => g.wheres r
  | r => (do
      let t ← g.ty
      op .colon
      let bs ← g.bounds
      return (t, bs) :: (← g.wheres) : P (List (Ty × List Ty))) r

/-- `where ..` or nothing. -/
def optWhere (g : Grammar) : P (List (Ty × List Ty)) := do
  if ← optKw .kWhere then g.wheres else return []

/-- `x: T, ..)`. -/
def paramsRule (g : Grammar) : P (List (String × Ty)) := do
  if ← opt .rparen then return []
  let x ← ident
  op .colon
  let t ← g.ty
  if ← opt .comma then return (x, t) :: (← g.params)
  op .rparen
  return [(x, t)]

/-- The receiver, if any, with the comma after it. -/
def receiver : P Receiver
  | .op .amp :: .kw .kMut :: .kw .kSelf :: r => (do let _ ← opt .comma; return .mutRef : P Receiver) r
  | .op .amp :: .kw .kSelf :: r => (do let _ ← opt .comma; return .ref : P Receiver) r
  | .kw .kSelf :: r => (do let _ ← opt .comma; return .value : P Receiver) r
  | r => some (.static, r)

/-- A function, after `fn`. -/
def fnRule (g : Grammar) : P Fn := do
  let name ← ident
  let gs ← optGenerics g
  op .lparen
  let self ← receiver
  let params ← g.params
  let ret ← if ← opt .arrow then g.ty else P.pure .unit
  let ws ← optWhere g
  let gs := { gs with bounds := gs.bounds ++ ws }
  if ← opt .semi then return ⟨name, gs, self, params, ret, none⟩
  return ⟨name, gs, self, params, ret, some (← blockRule g)⟩

/-- Items of an `impl` or `trait`, up to the brace. -/
def assocsRule (g : Grammar) : P (List Assoc) := do
  if ← opt .rbrace then return []
  let _ ← g.attrs
  vis
  fun
    | .kw .kConst :: .id n :: .op .colon :: r => (do
        let t ← g.ty
        let e ← if ← opt .eq then (do return some (← g.expr true) : P (Option Expr)) else P.pure none
        op .semi
        return .const n t e :: (← g.assocs) : P (List Assoc)) r
    | .kw .kType :: .id n :: .op .colon :: r => (do
        let _ ← g.bounds
        op .semi
        return .type n none :: (← g.assocs) : P (List Assoc)) r
    | .kw .kType :: .id n :: .op .eq :: r => (do
        let t ← g.ty
        op .semi
        return .type n (some t) :: (← g.assocs) : P (List Assoc)) r
    | .kw .kConst :: .kw .kFn :: r => (do return .fn (← fnRule g) :: (← g.assocs) : P (List Assoc)) r
    | .kw .kFn :: r => (do return .fn (← fnRule g) :: (← g.assocs) : P (List Assoc)) r
    | _ => none

/-- `f: T, .. }`. -/
def fieldsRule (g : Grammar) : P (List (String × Ty)) := do
  if ← opt .rbrace then return []
  let _ ← g.attrs
  vis
  let x ← ident
  op .colon
  let t ← g.ty
  if ← opt .comma then return (x, t) :: (← g.fields)
  op .rbrace
  return [(x, t)]

/-- `T, ..)`. -/
def tupleFieldsRule (g : Grammar) (i : Nat) : P (List (String × Ty)) := do
  if ← opt .rparen then return []
  vis
  let t ← g.ty
  if ← opt .comma then return (toString i, t) :: (← g.tupleFields (i + 1))
  op .rparen
  return [(toString i, t)]

/-- `impl`, after the keyword. -/
def implRule (g : Grammar) : P Item := do
  let gs ← optGenerics g
  let t ← g.ty
  if ← optKw .kFor then
    let self ← g.ty
    let ws ← optWhere g
    op .lbrace
    return .impl { gs with bounds := gs.bounds ++ ws } t self (← g.assocs)
  let ws ← optWhere g
  op .lbrace
  return .impl { gs with bounds := gs.bounds ++ ws } .unit t (← g.assocs)

/-- `trait`, after the keyword. -/
def traitRule (g : Grammar) : P Item := do
  let n ← ident
  let _ ← if ← opt .colon then g.bounds else P.pure []
  op .lbrace
  return .trait n (← g.assocs)

/-- `struct`, after the keyword. -/
def structRule (g : Grammar) (attrs : List (List Tok)) : P Item := do
  let n ← ident
  let gs ← optGenerics g
  if ← opt .lparen then
    let fs ← g.tupleFields 0
    op .semi
    return .struct attrs n gs fs
  op .lbrace
  return .struct attrs n gs (← g.fields)

/-- One item. -/
def itemRule (g : Grammar) : P Item := do
  let attrs ← g.attrs
  vis
  fun
    | .kw .kUse :: r => (do upToSemi 0; return .other : P Item) r
    | .kw .kMod :: .id _ :: .op .semi :: r => some (.other, r)
    | .kw .kMod :: .id _ :: .op .lbrace :: r => (do let _ ← balanced 0; return .other : P Item) r
    | .kw .kConst :: .kw .kFn :: r => (do return .fn (← fnRule g) : P Item) r
    | .kw .kFn :: r => (do return .fn (← fnRule g) : P Item) r
    | .kw .kStruct :: r => structRule g attrs r
    | .kw .kUnsafe :: .kw .kImpl :: r => implRule g r
    | .kw .kImpl :: r => implRule g r
    | .kw .kUnsafe :: .kw .kTrait :: r => traitRule g r
    | .kw .kTrait :: r => traitRule g r
    | .id m :: .op .bang :: .id n :: .op .lbrace :: r => (do
        let ts ← balanced 0
        return .mac m (.id n :: ts) : P Item) r
    | .id m :: .op .bang :: .op .lbrace :: r => (do return .mac m (← balanced 0) : P Item) r
    | _ => none

/-- Items up to the end of the text. -/
def itemsRule (g : Grammar) : P (List Item)
  | [] => some ([], [])
  | r => (do
      let i ← itemRule g
      return i :: (← g.items) : P (List Item)) r

/-- The parsers, with at most `n` nested calls. -/
def grammar : Nat → Grammar
  | 0 =>
    { ty := .fail, tys := .fail, bounds := .fail, expr := fun _ => .fail, level := fun _ _ => .fail
      more := fun _ _ _ => .fail, suffix := fun _ => .fail, exprs := fun _ => .fail, inits := .fail
      stmts := .fail, alts := .fail, arms := .fail, closureParams := .fail, attrs := .fail, generics := .fail, wheres := .fail, params := .fail, fields := .fail
      tupleFields := fun _ => .fail, assocs := .fail, items := .fail }
  | n + 1 =>
    let g := grammar n
    { ty := tyRule g, tys := tysRule g, bounds := boundsRule g, expr := exprRule g, level := levelRule g
      more := moreRule g, suffix := suffixRule g, exprs := exprsRule g, inits := initsRule g
      stmts := stmtsRule g, alts := altsRule g, arms := armsRule g, closureParams := closureParamsRule g
      attrs := attrsRule g, generics := genericsRule g, wheres := wheresRule g
      params := paramsRule g, fields := fieldsRule g, tupleFields := tupleFieldsRule g
      assocs := assocsRule g, items := itemsRule g }

/-- The items of a file. The number of its tokens is a sufficient depth for the parsers. -/
def parse (ts : List Tok) : Option (List Item) :=
  ((grammar (10 * ts.length + 10)).items ts).map Prod.fst

end RustCode
