import Verif.Spec.RustSyntax
import Verif.Spec.RustCode
/-
Specification: the code that the derive macros emit, as part of the crate in which they are used. `Spec/RustSyntax.lean` is
the grammar of what the macros emit, `Spec/RustCode.lean` that of source files; the trees of the first are a part of those of
the second. Types that the user wrote are spliced in as they are.

`::crevice` is written `crate`, and what `crevice::internal` reexports from bytemuck is known by its name there; traits of
bytemuck are known by their name alone, as if they were imported.
-/
namespace ClientText
open RustSyntax (Path TyExpr)

/-- A path. -/
def codePath (p : Path) : List String :=
  if p.global then
    match p.segments with
    | a :: b :: c :: r =>
      if a = "crevice" ∧ b = "internal" ∧ c = "bytemuck" then "bytemuck" :: r
      else if a = "crevice" then "crate" :: b :: c :: r
      else a :: b :: c :: r
    | ss => ss
  else p.segments

/-- A path that stands for a trait. -/
def codeTrait (p : Path) : RustCode.Ty :=
  match codePath p with
  | [a, x] => if a = "bytemuck" then .path [x] [] else .path [a, x] []
  | q => .path q []

/-- A path that stands for a value. -/
def codeName (p : Path) : RustCode.Expr :=
  match p.global, p.segments with
  | false, [x] => .var x
  | _, _ => .path (.path (codePath p) [])

mutual
/-- A type. -/
def codeTy : TyExpr RustCode.Ty → RustCode.Ty
  | .spliced t => t
  | .path p args => .path (codePath p) (args.map fun x => .path [x] [])
  | .proj t via name => .proj (codeTy t) (codeTrait via) [name]
  | .array t e => .array (codeTy t) (codeExpr e)
  | .slice t => .slice (codeTy t)
  | .ref _ t => .ref false (codeTy t)
/-- An expression. -/
def codeExpr : RustSyntax.Expr RustCode.Ty → RustCode.Expr
  | .int n suffix => .num n suffix
  | .str s => .str s
  | .path p => codeName p
  | .generic p t => .path (.path (codePath p) [codeTy t])
  | .assoc t via name => .path (.proj (codeTy t) (codeTrait via) [name])
  | .call f args => .call (codeExpr f) (codeExprs args)
  | .field e name => .field (codeExpr e) name
  | .method e name args => .method (codeExpr e) name (codeExprs args)
  | .add a b => .bin .add (codeExpr a) (codeExpr b)
  | .array es => .array (codeExprs es)
  | .ref e => .ref false (codeExpr e)
  | .struct p inits none => .struct (.path (codePath p) []) (inits.map Prod.fst) (codeInits inits)
  | .struct p inits (some b) =>
    .structBase (.path (codePath p) []) (inits.map Prod.fst) (codeInits inits) (codeExpr b)
/-- Expressions. -/
def codeExprs : List (RustSyntax.Expr RustCode.Ty) → List RustCode.Expr
  | [] => []
  | e :: es => codeExpr e :: codeExprs es
/-- Initialisers of fields. -/
def codeInits : List (String × RustSyntax.Expr RustCode.Ty) → List RustCode.Expr
  | [] => []
  | (_, e) :: es => codeExpr e :: codeInits es
end

/-- Punctuation. -/
def codePunct : RustSyntax.Punct → RustCode.Op
  | .lt => .lt | .gt => .gt | .colon2 => .colon2 | .colon => .colon | .comma => .comma | .semi => .semi | .plus => .plus
  | .dot => .dot | .dot2 => .dot2 | .arrow => .arrow | .eq => .eq | .amp => .amp | .hash => .hash | .minus => .minus
  | .star => .star | .bang => .bang | .lparen => .lparen | .rparen => .rparen | .lbracket => .lbracket
  | .rbracket => .rbracket | .lbrace => .lbrace | .rbrace => .rbrace

/-- A token of an attribute. Keywords and types are left out: they do not occur in `repr` and `derive`. -/
def codeTok : RustSyntax.Tok RustCode.Ty → Option RustCode.Tok
  | .ident s => some (.id s)
  | .str s => some (.str s)
  | .int n s => some (.num n s)
  | .lifetime s => some (.lifetime s)
  | .punct p => some (.op (codePunct p))
  | .kw _ => none
  | .ty _ => none

/-- No generic parameters. -/
def noGenerics : RustCode.Generics := { types := [], consts := [], bounds := [] }

/-- Parameters other than `self`. -/
def codeParams (ps : List (RustSyntax.Param RustCode.Ty)) : List (String × RustCode.Ty) :=
  ps.filterMap fun p =>
    match p with
    | .refSelf => none
    | .typed n t => some (n, codeTy t)

/-- How the function takes `self`. -/
def codeReceiver : List (RustSyntax.Param RustCode.Ty) → RustCode.Receiver
  | .refSelf :: _ => .ref
  | _ => .static

/-- A function. -/
def codeFn (f : RustSyntax.Fn RustCode.Ty) : RustCode.Fn :=
  { name := f.name
    generics := noGenerics
    receiver := codeReceiver f.params
    params := codeParams f.params
    ret := codeTy f.ret
    body := some (.block (f.lets.map fun x => .bind false x.1 .unit (codeExpr x.2)) (codeExpr f.value)) }

/-- An item of an `impl`. -/
def codeAssoc : RustSyntax.Assoc RustCode.Ty → RustCode.Assoc
  | .fn f => .fn (codeFn f)
  | .const name t e => .const name (codeTy t) (some (codeExpr e))
  | .type name t => .type name (some (codeTy t))

/-- An item. -/
def codeItem : RustSyntax.Item RustCode.Ty → RustCode.Item
  | .fn f => .fn (codeFn f)
  | .struct attrs _ name gs fs =>
    .struct (attrs.map fun a => a.filterMap codeTok) name { noGenerics with types := gs } (fs.map fun f => (f.name, codeTy f.ty))
  | .impl _ gs via self items =>
    .impl { noGenerics with types := gs } ((via.map codeTrait).getD .unit) (codeTy self) (items.map codeAssoc)

end ClientText
