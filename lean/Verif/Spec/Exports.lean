import Verif.Spec.Cfg
import Verif.Spec.MacroRules
/-
Specification: the names that a crate makes public (The Rust Reference, "Visibility and privacy", "Use declarations",
"Modules"). Written without reference to crevice.

Covered: structs, traits, functions, modules in files of their own, `use a::b;`, `use a::{b, c};` and `use a::b::*;`, macros that
expand to items. Not covered: other forms of `use`, `pub(..)` (taken for private), enums, constants and type aliases outside of traits.
-/
namespace RustCode

/-- Items that have a name. -/
inductive ItemKind
  | struct | trait | fn
  deriving DecidableEq, Repr

/-- The tokens of the item at the beginning of a text, without attributes and visibility. -/
def itemText (ts : List Tok) : List Tok := ts.take (ts.length - (afterItem (isUse ts) 0 ts).length)

/-- The text between the braces of an item. -/
def bodyText : List Tok → List Tok
  | .op .lbrace :: r => ((balanced 0 r).map Prod.fst).getD []
  | _ :: r => bodyText r
  | [] => []

/-- The items of a trait by name, and whether the trait gives them a value or a body. The bound is on the number of tokens. -/
def membersOf : Nat → List Tok → List (String × Bool)
  | 0, _ => []
  | _, [] => []
  | n + 1, .op .hash :: .op .lbracket :: r =>
    match balanced 0 r with
    | some (_, r) => membersOf n r
    | none => []
  | n + 1, .kw .kFn :: .id x :: r =>
    (x, (itemText (.kw .kFn :: .id x :: r)).getLast? == some (.op .rbrace)) :: membersOf n (afterItem false 0 r)
  | n + 1, .kw .kConst :: .id x :: r => (x, (itemText r).contains (.op .eq)) :: membersOf n (afterItem false 0 r)
  | n + 1, .kw .kType :: .id x :: r => (x, (itemText r).contains (.op .eq)) :: membersOf n (afterItem false 0 r)
  | n + 1, r => membersOf n (afterItem false 0 r)

/-- The items of a trait. -/
def members (text : List Tok) : List (String × Bool) := membersOf (text.length + 1) (bodyText text)

/-- What a module declares. -/
inductive Decl
  /-- an item; for a trait with its items -/
  | item (pub : Bool) (kind : ItemKind) (name : String) (members : List (String × Bool))
  /-- `mod x;` -/
  | module (pub : Bool) (name : String)
  /-- `use a::b;` -/
  | use (pub : Bool) (path : List String)
  /-- `use a::b::*;` -/
  | glob (pub : Bool) (path : List String)
  /-- something that this specification does not cover, or a macro that is not known -/
  | unknown
  deriving DecidableEq, Repr

/-- The paths of `a, b, self};`, after a brace. -/
def useList : List Tok → Option (List (List String))
  | [.op .rbrace, .op .semi] => some []
  | .op .comma :: r => useList r
  | .id x :: r => (useList r).map fun q => [x] :: q
  | .kw .kSelf :: r => (useList r).map fun q => [] :: q
  | _ => none

/-- The paths of `a::b;`, `a::b::{c, d};`, or `a::b::*;` (with `true`). -/
def usePath : List Tok → Option (List (List String) × Bool)
  | [.id x, .op .semi] => some ([[x]], false)
  | [.op .star, .op .semi] => some ([[]], true)
  | .op .lbrace :: r => (useList r).map fun q => (q, false)
  | .id x :: .op .colon2 :: r => (usePath r).map fun q => (q.1.map (x :: ·), q.2)
  | .kw .kSelf :: .op .colon2 :: r => (usePath r).map fun q => (q.1.map ("self" :: ·), q.2)
  | .kw .kCrate :: .op .colon2 :: r => (usePath r).map fun q => (q.1.map ("crate" :: ·), q.2)
  | _ => none

/-- What an item declares. -/
def itemDecls (pub : Bool) (text : List Tok) : List Decl :=
  match text with
  | .kw .kMod :: .id x :: .op .semi :: _ => [.module pub x]
  | .kw .kUse :: r =>
    match usePath r with
    | some (qs, glob) => qs.map fun q => if glob then .glob pub q else .use pub q
    | none => [.unknown]
  | .kw .kStruct :: .id x :: _ => [.item pub .struct x []]
  | .kw .kTrait :: .id x :: _ => [.item pub .trait x (members text)]
  | .kw .kUnsafe :: .kw .kTrait :: .id x :: _ => [.item pub .trait x (members text)]
  | .kw .kFn :: .id x :: _ => [.item pub .fn x []]
  | .kw .kConst :: .kw .kFn :: .id x :: _ => [.item pub .fn x []]
  | _ => []

/-- What a text declares, with macros in scope from their definition on. The bound is on the number of items and
attributes. -/
def declsOf (defs : List (String × List (List MTree × List MTree))) : Nat → List Tok → List Decl
  | 0, _ => [.unknown]
  | _, [] => []
  | n + 1, .op .semi :: r => declsOf defs n r
  | n + 1, .op .hash :: .op .lbracket :: r =>
    match balanced 0 r with
    | some (_, r) => declsOf defs n r
    | none => [.unknown]
  | n + 1, .id "macro_rules" :: .op .bang :: .id m :: .op .lbrace :: r =>
    match balanced 0 r with
    | some (body, r) =>
      match rules (body.length + 1) body with
      | some rs => declsOf ((m, rs) :: defs) n r
      | none => [.unknown]
    | none => [.unknown]
  | n + 1, .id m :: .op .bang :: .op _ :: r =>
    match balanced 0 r, defs.lookup m with
    | some (arg, r), some rs =>
      match invoke rs arg with
      | some ts => declsOf defs n (ts ++ r)
      | none => [.unknown]
    | _, _ => [.unknown]
  | n + 1, .kw .kPub :: .op .lparen :: r =>
    match balanced 0 r with
    | some (_, r) => itemDecls false (itemText r) ++ declsOf defs n (afterItem (isUse r) 0 r)
    | none => [.unknown]
  | n + 1, .kw .kPub :: r => itemDecls true (itemText r) ++ declsOf defs n (afterItem (isUse r) 0 r)
  | n + 1, r => itemDecls false (itemText r) ++ declsOf defs n (afterItem (isUse r) 0 r)

/-- What a text declares. -/
def decls (ts : List Tok) : List Decl := declsOf [] (10 * ts.length + 100) ts

/-- What a name stands for. -/
inductive Thing
  | item (kind : ItemKind) (members : List (String × Bool))
  | module (path : List String)
  /-- a path that begins with the name of another crate -/
  | outside (path : List String)
  deriving DecidableEq, Repr

/-- The names that a module makes public. `files` gives what each module declares; within the crate `self::x` and `crate::x`
lead into modules that need not be public. The bound is on the length of chains of `use`. -/
def publicNames (files : List String → List Decl) : Nat → List String → List (String × Thing)
  | 0, _ => []
  | n + 1, m => (files m).flatMap fun d =>
    match d with
    | .item true kind x ms => [(x, .item kind ms)]
    | .module true x => [(x, .module (m ++ [x]))]
    | .glob true ("self" :: q) => publicNames files n (m ++ q)
    | .glob true ("crate" :: q) => publicNames files n q
    | .use true ("self" :: q) => (publicNames files n (m ++ q.dropLast)).filter fun x => some x.1 = q.getLast?
    | .use true ("crate" :: q) => (publicNames files n q.dropLast).filter fun x => some x.1 = q.getLast?
    | .use true q => (q.getLast?.map fun x => (x, Thing.outside q)).toList
    | _ => []

/-- What a path means outside of the crate: for each thing it may stand for (names can stand for a type, a function and a macro
at once), with the segments that follow an item. -/
def publicPath (files : List String → List Decl) (n : Nat) : List String → List String → List (Thing × List String)
  | m, [] => [(.module m, [])]
  | m, x :: r => ((publicNames files n m).filter fun y => y.1 = x).flatMap fun y =>
    match y.2 with
    | .module m' => publicPath files n m' r
    | .outside q => [(.outside (q ++ r), [])]
    | .item k ms => [(.item k ms, r)]

/-- The modules in files of their own. -/
def submodules : List Decl → List String
  | [] => []
  | .module _ x :: ds => x :: submodules ds
  | _ :: ds => submodules ds

/-- The modules of a crate that are compiled: a module and those below. The bound is on the depth. -/
def modulesBelow (files : List String → List Decl) : Nat → List String → List (List String)
  | 0, _ => []
  | n + 1, m => m :: (submodules (files m)).flatMap fun x => modulesBelow files n (m ++ [x])

/-- Whether a declaration is one that this specification covers and, if it is a `use` of names of the crate itself, these are
there: a module that is declared, or a name that a module makes public. -/
def declOk (files : List String → List Decl) (n : Nat) (m : List String) : Decl → Bool
  | .unknown => false
  | .glob _ ("self" :: q) => (modulesBelow files n m).contains (m ++ q)
  | .glob _ ("crate" :: q) => (modulesBelow files n []).contains q
  | .use _ ("self" :: q) => (publicNames files n (m ++ q.dropLast)).any fun x => some x.1 = q.getLast?
  | .use _ ("crate" :: q) => (publicNames files n q.dropLast).any fun x => some x.1 = q.getLast?
  | _ => true

end RustCode
