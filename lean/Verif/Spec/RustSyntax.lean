/-
Specification: the part of the Rust grammar (The Rust Reference, "Items", "Expressions", "Types",
"Paths") that the code generated by crevice's derive macros is written in. Written without
reference to crevice.

A parser is a function from tokens to a syntax tree and the remaining tokens. Parsers call each other;
`parsers n` ties the knot with a bound `n` on the depth of the calls, and a text has a reading when
some bound is enough (`Reads`).
-/
namespace RustSyntax

/-! ### Tokens -/

/-- Keywords. -/
inductive Kw
  | kAs | kConst | kCrate | kFn | kFor | kImpl | kLet | kMut | kPub | kSelf | kSelfTy | kStruct | kSuper
  | kType | kUnsafe
  deriving DecidableEq, Repr

/-- Operators, separators and delimiters. -/
inductive Punct
  | lt | gt | colon2 | colon | comma | semi | plus | dot | dot2 | arrow | eq | amp | hash | minus | star | bang
  | lparen | rparen | lbracket | rbracket | lbrace | rbrace
  deriving DecidableEq, Repr

/-- What a macro produces. `ty` is a type that was spliced in as a whole. -/
inductive Tok (α : Type)
  | ident (s : String)
  | kw (k : Kw)
  | punct (p : Punct)
  /-- integer literal with its suffix -/
  | int (n : Nat) (suffix : String)
  /-- string literal, by its contents -/
  | str (s : String)
  /-- `'a` -/
  | lifetime (s : String)
  | ty (t : α)

/-! ### Syntax trees -/

/-- `a::b` or `::a::b`. -/
structure Path where
  global : Bool
  segments : List String
  deriving DecidableEq, Repr

mutual
/-- Types. -/
inductive TyExpr (α : Type)
  | spliced (t : α)
  /-- `a::b<X, Y>`, arguments by name -/
  | path (p : Path) (args : List String)
  /-- `<T as P>::Name` -/
  | proj (t : TyExpr α) (via : Path) (name : String)
  /-- `[T; n]` -/
  | array (t : TyExpr α) (len : Expr α)
  /-- `[T]` -/
  | slice (t : TyExpr α)
  /-- `&T`, `&'a T` -/
  | ref (lifetime : Option String) (t : TyExpr α)
/-- Expressions. -/
inductive Expr (α : Type)
  | int (n : Nat) (suffix : String)
  | str (s : String)
  | path (p : Path)
  /-- `a::b::<T>` -/
  | generic (p : Path) (arg : TyExpr α)
  /-- `<T as P>::NAME` -/
  | assoc (t : TyExpr α) (via : Path) (name : String)
  | call (f : Expr α) (args : List (Expr α))
  | field (e : Expr α) (name : String)
  | method (e : Expr α) (name : String) (args : List (Expr α))
  | add (a b : Expr α)
  | array (es : List (Expr α))
  | ref (e : Expr α)
  /-- `P { f: e, .. }`, `P { f: e, ..base }` -/
  | struct (p : Path) (inits : List (String × Expr α)) (base : Option (Expr α))
end

/-- Visibility. `pub(in path)` is not covered. -/
inductive Vis
  | inherited
  /-- `pub` -/
  | everywhere
  /-- `pub(crate)` -/
  | inCrate
  /-- `pub(super)` -/
  | inSuper
  /-- `pub(self)` -/
  | inSelf
  deriving DecidableEq, Repr

/-- A parameter of a function. -/
inductive Param (α : Type)
  /-- `&self` -/
  | refSelf
  | typed (name : String) (t : TyExpr α)

/-- `#[..] vis const fn name(params) -> ret { let a = ..; ..; value }`. -/
structure Fn (α : Type) where
  attrs : List (List (Tok α))
  vis : Vis
  const : Bool
  name : String
  params : List (Param α)
  ret : TyExpr α
  lets : List (String × Expr α)
  value : Expr α

/-- `vis name: type` -/
structure Field (α : Type) where
  vis : Vis
  name : String
  ty : TyExpr α

/-- Items of an `impl`. -/
inductive Assoc (α : Type)
  | fn (f : Fn α)
  | const (name : String) (ty : TyExpr α) (value : Expr α)
  | type (name : String) (ty : TyExpr α)

/-- Items. -/
inductive Item (α : Type)
  | fn (f : Fn α)
  | struct (attrs : List (List (Tok α))) (vis : Vis) (name : String) (generics : List String)
      (fields : List (Field α))
  | impl (unsafety : Bool) (generics : List String) (via : Option Path) (self : TyExpr α)
      (items : List (Assoc α))

/-! ### Parsers -/

/-- A parser: a tree and the remaining tokens, or `none` for a syntax error. -/
abbrev Parser (α β : Type) := List (Tok α) → Option (β × List (Tok α))

/-- The mutually recursive parsers. -/
structure Parsers (α : Type) where
  ty : Parser α (TyExpr α)
  expr : Parser α (Expr α)
  /-- an expression without `+` -/
  operand : Parser α (Expr α)
  /-- fields, calls and method calls after an expression -/
  suffix : Expr α → Parser α (Expr α)
  /-- `+ e + ..` after an expression; `+` associates to the left -/
  sum : Expr α → Parser α (Expr α)
  /-- expressions separated by commas, up to a closing delimiter -/
  exprs : Punct → Parser α (List (Expr α))
  /-- `f: e, .. }` or `f: e, .. ..base }` -/
  inits : Parser α (List (String × Expr α) × Option (Expr α))
  attrs : Parser α (List (List (Tok α)))
  lets : Parser α (List (String × Expr α))
  /-- fields of a struct definition, up to the brace -/
  fields : Parser α (List (Field α))
  /-- items of an `impl`, up to the brace -/
  assocs : Parser α (List (Assoc α))
  /-- items up to the end of the text -/
  items : Parser α (List (Item α))

/-- Keywords that can be the first segment of a path. -/
def Kw.segment : Kw → Option String
  | .kSelf => some "self"
  | .kSelfTy => some "Self"
  | .kCrate => some "crate"
  | .kSuper => some "super"
  | _ => none

/-- `::a::b..`. -/
def segments {α : Type} : List (Tok α) → List String × List (Tok α)
  | .punct .colon2 :: .ident s :: r =>
    let (ss, r) := segments r
    (s :: ss, r)
  | r => ([], r)

/-- `a::b` or `::a::b`. -/
def path {α : Type} : Parser α Path
  | .punct .colon2 :: .ident s :: r =>
    let (ss, r) := segments r
    some (⟨true, s :: ss⟩, r)
  | .ident s :: r =>
    let (ss, r) := segments r
    some (⟨false, s :: ss⟩, r)
  | .kw k :: r =>
    k.segment.map fun s =>
      let (ss, r) := segments r
      (⟨false, s :: ss⟩, r)
  | _ => none

/-- `X, Y>`, after `<`. -/
def names {α : Type} : Parser α (List String)
  | .ident s :: .punct .gt :: r => some ([s], r)
  | .ident s :: .punct .comma :: r => (names r).map fun (ss, r) => (s :: ss, r)
  | .punct .gt :: r => some ([], r)
  | _ => none

/-- `<X, Y>` or nothing. -/
def generics {α : Type} : Parser α (List String)
  | .punct .lt :: r => names r
  | r => some ([], r)

/-- `T as P>::Name`, after `<`. -/
def qualified {α : Type} (p : Parsers α) : Parser α (TyExpr α × Path × String) := fun ts =>
  (p.ty ts).bind fun (t, ts) =>
    match ts with
    | .kw .kAs :: ts =>
      (path ts).bind fun (tr, ts) =>
        match ts with
        | .punct .gt :: .punct .colon2 :: .ident n :: ts => some ((t, tr, n), ts)
        | _ => none
    | _ => none

/-- Types. -/
def tyStep {α : Type} (p : Parsers α) : Parser α (TyExpr α)
  | .ty t :: r => some (.spliced t, r)
  | .punct .lt :: r => (qualified p r).map fun (q, r) => (.proj q.1 q.2.1 q.2.2, r)
  | .punct .lbracket :: r =>
    (p.ty r).bind fun (t, r) =>
      match r with
      | .punct .rbracket :: r => some (.slice t, r)
      | .punct .semi :: r =>
        (p.expr r).bind fun (e, r) =>
          match r with
          | .punct .rbracket :: r => some (.array t e, r)
          | _ => none
      | _ => none
  | .punct .amp :: .lifetime a :: r => (p.ty r).map fun (t, r) => (.ref (some a) t, r)
  | .punct .amp :: r => (p.ty r).map fun (t, r) => (.ref none t, r)
  | r =>
    (path r).bind fun (q, r) => (generics r).map fun (gs, r) => (.path q gs, r)

/-- Expressions without operators and suffixes. -/
def primary {α : Type} (p : Parsers α) : Parser α (Expr α)
  | .int n s :: r => some (.int n s, r)
  | .str s :: r => some (.str s, r)
  | .punct .lt :: r => (qualified p r).map fun (q, r) => (.assoc q.1 q.2.1 q.2.2, r)
  | .punct .lbracket :: r => (p.exprs .rbracket r).map fun (es, r) => (.array es, r)
  | .punct .amp :: r => (p.operand r).map fun (e, r) => (.ref e, r)
  | r =>
    (path r).bind fun (q, r) =>
      match r with
      | .punct .colon2 :: .punct .lt :: r =>
        (p.ty r).bind fun (t, r) =>
          match r with
          | .punct .gt :: r => some (.generic q t, r)
          | _ => none
      | .punct .lbrace :: r => (p.inits r).map fun (i, r) => (.struct q i.1 i.2, r)
      | r => some (.path q, r)

/-- `.f`, `.f(..)`, `(..)`. -/
def suffixStep {α : Type} (p : Parsers α) (e : Expr α) : Parser α (Expr α)
  | .punct .dot :: .ident n :: .punct .lparen :: r =>
    (p.exprs .rparen r).bind fun (es, r) => p.suffix (.method e n es) r
  | .punct .dot :: .ident n :: r => p.suffix (.field e n) r
  | .punct .lparen :: r => (p.exprs .rparen r).bind fun (es, r) => p.suffix (.call e es) r
  | r => some (e, r)

/-- An operand of `+`. -/
def operand {α : Type} (p : Parsers α) : Parser α (Expr α) := fun r =>
  (primary p r).bind fun (e, r) => p.suffix e r

/-- `+ e`, repeatedly. -/
def sumStep {α : Type} (p : Parsers α) (e : Expr α) : Parser α (Expr α)
  | .punct .plus :: r => (operand p r).bind fun (e', r) => p.sum (.add e e') r
  | r => some (e, r)

/-- Expressions. -/
def exprStep {α : Type} (p : Parsers α) : Parser α (Expr α) := fun r =>
  (operand p r).bind fun (e, r) => p.sum e r

/-- `e, e, .. )`. -/
def exprsStep {α : Type} (p : Parsers α) (close : Punct) : Parser α (List (Expr α))
  | .punct q :: r =>
    if q = close then some ([], r)
    else
      (p.expr (.punct q :: r)).bind fun (e, r) =>
        match r with
        | .punct .comma :: r => (p.exprs close r).map fun (es, r) => (e :: es, r)
        | .punct q :: r => if q = close then some ([e], r) else none
        | _ => none
  | r =>
    (p.expr r).bind fun (e, r) =>
      match r with
      | .punct .comma :: r => (p.exprs close r).map fun (es, r) => (e :: es, r)
      | .punct q :: r => if q = close then some ([e], r) else none
      | _ => none

/-- `f: e, .. }`. -/
def initsStep {α : Type} (p : Parsers α) :
    Parser α (List (String × Expr α) × Option (Expr α))
  | .punct .rbrace :: r => some (([], none), r)
  | .punct .dot2 :: r =>
    (p.expr r).bind fun (e, r) =>
      match r with
      | .punct .rbrace :: r => some (([], some e), r)
      | _ => none
  | .ident n :: .punct .colon :: r =>
    (p.expr r).bind fun (e, r) =>
      match r with
      | .punct .comma :: r => (p.inits r).map fun (i, r) => (((n, e) :: i.1, i.2), r)
      | .punct .rbrace :: r => some (([(n, e)], none), r)
      | _ => none
  | _ => none

/-- The tokens of an attribute after `#[`. Attributes with brackets inside are not covered. -/
def attrTokens {α : Type} : Parser α (List (Tok α))
  | .punct .rbracket :: r => some ([], r)
  | t :: r => (attrTokens r).map fun (ts, r) => (t :: ts, r)
  | [] => none

/-- `#[..] #[..]`. -/
def attrsStep {α : Type} (p : Parsers α) : Parser α (List (List (Tok α)))
  | .punct .hash :: .punct .lbracket :: r =>
    (attrTokens r).bind fun (a, r) => (p.attrs r).map fun (as', r) => (a :: as', r)
  | r => some ([], r)

/-- Visibility. -/
def vis {α : Type} : Parser α Vis
  | .kw .kPub :: .punct .lparen :: .kw .kCrate :: .punct .rparen :: r => some (.inCrate, r)
  | .kw .kPub :: .punct .lparen :: .kw .kSuper :: .punct .rparen :: r => some (.inSuper, r)
  | .kw .kPub :: .punct .lparen :: .kw .kSelf :: .punct .rparen :: r => some (.inSelf, r)
  | .kw .kPub :: r => some (.everywhere, r)
  | r => some (.inherited, r)

/-- `let a = e;`, repeatedly. -/
def letsStep {α : Type} (p : Parsers α) : Parser α (List (String × Expr α))
  | .kw .kLet :: .ident n :: .punct .eq :: r =>
    (p.expr r).bind fun (e, r) =>
      match r with
      | .punct .semi :: r => (p.lets r).map fun (ls, r) => ((n, e) :: ls, r)
      | _ => none
  | r => some ([], r)

/-- Fields of a struct definition. -/
def fieldsStep {α : Type} (p : Parsers α) : Parser α (List (Field α))
  | .punct .rbrace :: r => some ([], r)
  | r =>
    (vis r).bind fun (v, r) =>
      match r with
      | .ident n :: .punct .colon :: r =>
        (p.ty r).bind fun (t, r) =>
          match r with
          | .punct .comma :: r => (p.fields r).map fun (fs, r) => (⟨v, n, t⟩ :: fs, r)
          | .punct .rbrace :: r => some ([⟨v, n, t⟩], r)
          | _ => none
      | _ => none

/-- Parameters after the parenthesis: none, `&self`, or one with a type. -/
def params {α : Type} (p : Parsers α) : Parser α (List (Param α))
  | .punct .rparen :: r => some ([], r)
  | .punct .amp :: .kw .kSelf :: .punct .rparen :: r => some ([.refSelf], r)
  | .ident n :: .punct .colon :: r =>
    (p.ty r).bind fun (t, r) =>
      match r with
      | .punct .rparen :: r => some ([.typed n t], r)
      | _ => none
  | _ => none

/-- `name(params) -> type { .. }`. -/
def function {α : Type} (p : Parsers α) (attrs : List (List (Tok α))) (v : Vis) (const : Bool) :
    Parser α (Fn α)
  | .ident n :: .punct .lparen :: r =>
    (params p r).bind fun (ps, r) =>
      match r with
      | .punct .arrow :: r =>
        (p.ty r).bind fun (t, r) =>
          match r with
          | .punct .lbrace :: r =>
            (p.lets r).bind fun (ls, r) =>
              (p.expr r).bind fun (e, r) =>
                match r with
                | .punct .rbrace :: r => some (⟨attrs, v, const, n, ps, t, ls, e⟩, r)
                | _ => none
          | _ => none
      | _ => none
  | _ => none

/-- Items of an `impl`. -/
def assocsStep {α : Type} (p : Parsers α) : Parser α (List (Assoc α))
  | .punct .rbrace :: r => some ([], r)
  | r =>
    (p.attrs r).bind fun (as, r) =>
      (vis r).bind fun (v, r) =>
        match r with
        | .kw .kFn :: r =>
          (function p as v false r).bind fun (f, r) =>
            (p.assocs r).map fun (is, r) => (.fn f :: is, r)
        | .kw .kConst :: .ident n :: .punct .colon :: r =>
          (p.ty r).bind fun (t, r) =>
            match r with
            | .punct .eq :: r =>
              (p.expr r).bind fun (e, r) =>
                match r with
                | .punct .semi :: r => (p.assocs r).map fun (is, r) => (.const n t e :: is, r)
                | _ => none
            | _ => none
        | .kw .kType :: .ident n :: .punct .eq :: r =>
          (p.ty r).bind fun (t, r) =>
            match r with
            | .punct .semi :: r => (p.assocs r).map fun (is, r) => (.type n t :: is, r)
            | _ => none
        | _ => none

/-- `Trait for` or nothing. -/
def traitFor {α : Type} (r : List (Tok α)) : Option Path × List (Tok α) :=
  match path r with
  | some (q, .kw .kFor :: r') => (some q, r')
  | _ => (none, r)

/-- `<X> Trait for T { .. }`, after `impl`. -/
def implementation {α : Type} (p : Parsers α) (unsafety : Bool) : Parser α (Item α) := fun r =>
  (generics r).bind fun (gs, r) =>
    let (tr, r) := traitFor r
    (p.ty r).bind fun (t, r) =>
      match r with
      | .punct .lbrace :: r =>
        (p.assocs r).map fun (is, r) => (.impl unsafety gs tr t is, r)
      | _ => none

/-- One item. -/
def item {α : Type} (p : Parsers α) : Parser α (Item α) := fun r =>
  (p.attrs r).bind fun (as, r) =>
    (vis r).bind fun (v, r) =>
      match r with
      | .kw .kConst :: .kw .kFn :: r =>
        (function p as v true r).map fun (f, r) => (.fn f, r)
      | .kw .kFn :: r => (function p as v false r).map fun (f, r) => (.fn f, r)
      | .kw .kStruct :: .ident n :: r =>
        (generics r).bind fun (gs, r) =>
          match r with
          | .punct .lbrace :: r => (p.fields r).map fun (fs, r) => (.struct as v n gs fs, r)
          | _ => none
      | .kw .kImpl :: r => implementation p false r
      | .kw .kUnsafe :: .kw .kImpl :: r => implementation p true r
      | _ => none

/-- Items up to the end. -/
def itemsStep {α : Type} (p : Parsers α) : Parser α (List (Item α))
  | [] => some ([], [])
  | r => (item p r).bind fun (i, r) => (p.items r).map fun (is, r) => (i :: is, r)

/-- The parsers, with at most `n` nested calls. -/
def parsers {α : Type} : Nat → Parsers α
  | 0 =>
    { ty := fun _ => none, expr := fun _ => none, operand := fun _ => none,
      suffix := fun _ _ => none, sum := fun _ _ => none, exprs := fun _ _ => none, inits := fun _ => none,
      attrs := fun _ => none, lets := fun _ => none, fields := fun _ => none,
      assocs := fun _ => none, items := fun _ => none }
  | n + 1 =>
    let p := parsers n
    { ty := tyStep p, expr := exprStep p, operand := operand p, suffix := suffixStep p, sum := sumStep p,
      exprs := exprsStep p, inits := initsStep p, attrs := attrsStep p, lets := letsStep p,
      fields := fieldsStep p, assocs := assocsStep p, items := itemsStep p }

/-- A text that is a sequence of items. -/
def Reads {α : Type} (ts : List (Tok α)) (is : List (Item α)) : Prop :=
  ∃ n, ∀ m, n ≤ m → (parsers m).items ts = some (is, [])

end RustSyntax
