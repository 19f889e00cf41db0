import Verif.Spec.RustSyntax
/-
Specification: the names that items refer to and do not bind themselves (The Rust Reference, "Names", "Scopes", "Namespaces").
Written without reference to crevice.
-/
namespace RustSyntax

/-- A name and what it is used for. -/
inductive Ref
  /-- a type -/
  | type (p : Path)
  /-- a trait -/
  | trait (p : Path)
  /-- a function or another value -/
  | value (p : Path)
  /-- `<T as P>::x` -/
  | member (tr : Path) (x : String)
  /-- `impl P for T` with the given items -/
  | impl (tr : Path) (items : List String)
  /-- `#[derive(x)]` -/
  | derive (x : String)
  deriving DecidableEq

/-- A path that does not begin with one of the given names. -/
def Path.free (bound : List String) (p : Path) : Bool :=
  p.global || match p.segments with
    | x :: _ => !bound.contains x
    | [] => true

mutual
/-- The names in a type; `ts` and `vs` are the names of types and values that are bound. -/
def tyRefs {α : Type} (ts vs : List String) : TyExpr α → List Ref
  | .spliced _ => []
  | .path p args => (if p.free ts then [Ref.type p] else []) ++
      (args.filter fun x => !ts.contains x).map fun x => .type ⟨false, [x]⟩
  | .proj t via x => tyRefs ts vs t ++ [.trait via, .member via x]
  | .array t e => tyRefs ts vs t ++ exprRefs ts vs e
  | .slice t => tyRefs ts vs t
  | .ref _ t => tyRefs ts vs t
/-- The names in an expression. -/
def exprRefs {α : Type} (ts vs : List String) : Expr α → List Ref
  | .int _ _ => []
  | .str _ => []
  | .path p => if p.free vs then [.value p] else []
  | .generic p t => (if p.free vs then [Ref.value p] else []) ++ tyRefs ts vs t
  | .assoc t via x => tyRefs ts vs t ++ [.trait via, .member via x]
  | .call f args => exprRefs ts vs f ++ exprsRefs ts vs args
  | .field e _ => exprRefs ts vs e
  | .method e _ args => exprRefs ts vs e ++ exprsRefs ts vs args
  | .add a b => exprRefs ts vs a ++ exprRefs ts vs b
  | .array es => exprsRefs ts vs es
  | .ref e => exprRefs ts vs e
  | .struct p inits base => (if p.free ts then [Ref.type p] else []) ++ initRefs ts vs inits ++
      match base with
      | none => []
      | some e => exprRefs ts vs e
/-- The names in expressions. -/
def exprsRefs {α : Type} (ts vs : List String) : List (Expr α) → List Ref
  | [] => []
  | e :: es => exprRefs ts vs e ++ exprsRefs ts vs es
/-- The names in initialisers of fields. -/
def initRefs {α : Type} (ts vs : List String) : List (String × Expr α) → List Ref
  | [] => []
  | (_, e) :: es => exprRefs ts vs e ++ initRefs ts vs es
end

/-- The names that parameters bind. -/
def paramNames {α : Type} : List (Param α) → List String
  | [] => []
  | .refSelf :: ps => "self" :: paramNames ps
  | .typed x _ :: ps => x :: paramNames ps

/-- The names in the types of parameters. -/
def paramRefs {α : Type} (ts : List String) : List (Param α) → List Ref
  | [] => []
  | .refSelf :: ps => paramRefs ts ps
  | .typed _ t :: ps => tyRefs ts [] t ++ paramRefs ts ps

/-- The names in a body: each `let` binds its name in what follows. -/
def bodyRefs {α : Type} (ts : List String) : List String → List (String × Expr α) → Expr α → List Ref
  | vs, [], e => exprRefs ts vs e
  | vs, (x, a) :: ls, e => exprRefs ts vs a ++ bodyRefs ts (x :: vs) ls e

/-- The names in a function. -/
def fnRefs {α : Type} (ts : List String) (f : Fn α) : List Ref :=
  paramRefs ts f.params ++ tyRefs ts [] f.ret ++ bodyRefs ts (paramNames f.params) f.lets f.value

/-- The names in an item of an `impl`. -/
def assocRefs {α : Type} (ts : List String) : Assoc α → List Ref
  | .fn f => fnRefs ts f
  | .const _ t e => tyRefs ts [] t ++ exprRefs ts [] e
  | .type _ t => tyRefs ts [] t

/-- The name of an item of an `impl`. -/
def Assoc.name {α : Type} : Assoc α → String
  | .fn f => f.name
  | .const x _ _ => x
  | .type x _ => x

/-- The identifiers in a text. -/
def idents {α : Type} : List (Tok α) → List String
  | [] => []
  | .ident x :: r => x :: idents r
  | _ :: r => idents r

/-- The names in an attribute. -/
def attrRefs {α : Type} : List (Tok α) → List Ref
  | .ident "derive" :: r => (idents r).map .derive
  | _ => []

/-- The names in an item. -/
def itemRefs {α : Type} : Item α → List Ref
  | .fn f => fnRefs [] f
  | .struct attrs _ _ gs fields => attrs.flatMap attrRefs ++ fields.flatMap fun f => tyRefs gs [] f.ty
  | .impl _ gs via self items =>
    (match via with
      | some p => [Ref.trait p, Ref.impl p (items.map Assoc.name)]
      | none => []) ++ tyRefs gs [] self ++ items.flatMap (assocRefs ("Self" :: gs))

/-- The names in items. -/
def refs {α : Type} (is : List (Item α)) : List Ref := is.flatMap itemRefs

/-- The functions that items define. -/
def fnNames {α : Type} : List (Item α) → List String
  | [] => []
  | .fn f :: is => f.name :: fnNames is
  | _ :: is => fnNames is

/-- The structs that items define. -/
def structNames {α : Type} : List (Item α) → List String
  | [] => []
  | .struct _ _ x _ _ :: is => x :: structNames is
  | _ :: is => structNames is

end RustSyntax
