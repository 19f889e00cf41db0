import Verif.Spec.RustCode
/-
Specification: the declarations of traits, functions and structs in a text, with their types (The Rust Reference, "Traits",
"Functions", "Structs"). Written without reference to crevice. Bodies are left out; where clauses of methods and lifetimes too.
-/
namespace RustCode

/-- An item of a trait. The last component says whether an `impl` must have it. -/
inductive Member
  | const (x : String) (t : Ty) (required : Bool)
  /-- `type x: A + B;` -/
  | type (x : String) (bounds : List Ty)
  | fn (x : String) (receiver : Receiver) (params : List Ty) (ret : Ty) (required : Bool)

/-- Its name. -/
def Member.name : Member → String
  | .const x _ _ => x
  | .type x _ => x
  | .fn x _ _ _ _ => x

/-- Whether an `impl` must have it. -/
def Member.required : Member → Bool
  | .const _ _ r => r
  | .type _ _ => true
  | .fn _ _ _ _ r => r

/-- `unsafe trait T: A + B { .. }`. -/
structure TraitDecl where
  unsafety : Bool
  supers : List Ty
  members : List Member

/-- The item with the given name. -/
def TraitDecl.member (d : TraitDecl) (x : String) : Option Member := d.members.find? fun m => m.name == x

/-- `const fn f<const N: usize>(a: A, b: B) -> R`. Type parameters are not covered. -/
structure FnDecl where
  const : Bool
  consts : List String
  params : List Ty
  ret : Ty

/-- Items of a trait, up to the brace. The bound is on their number and on the depth of types and bodies. -/
def traitMembers : Nat → P (List Member)
  | 0 => .fail
  | n + 1 => do
    if ← opt .rbrace then return []
    let _ ← (grammar n).attrs
    fun
      | .kw .kConst :: .id x :: .op .colon :: r => (do
          let t ← (grammar n).ty
          let given ← if ← opt .eq then (do let _ ← (grammar n).expr true; return true : P Bool) else P.pure false
          op .semi
          return .const x t (!given) :: (← traitMembers n) : P (List Member)) r
      | .kw .kType :: .id x :: .op .colon :: r => (do
          let bs ← (grammar n).bounds
          op .semi
          return .type x bs :: (← traitMembers n) : P (List Member)) r
      | .kw .kFn :: r => (do
          let f ← fnRule (grammar n)
          return .fn f.name f.receiver (f.params.map Prod.snd) f.ret f.body.isNone :: (← traitMembers n) : P (List Member)) r
      | _ => none

/-- A trait, after its name. -/
def traitRest (n : Nat) (unsafety : Bool) : P TraitDecl := do
  let supers ← if ← opt .colon then (grammar n).bounds else P.pure []
  op .lbrace
  return ⟨unsafety, supers, ← traitMembers n⟩

/-- The trait with the given name. -/
def traitDecl (x : String) : List Tok → Option TraitDecl
  | .kw .kUnsafe :: .kw .kTrait :: .id y :: r =>
    if y = x then (traitRest (10 * r.length + 10) true r).map Prod.fst else traitDecl x r
  | .kw .kTrait :: .id y :: r =>
    if y = x then (traitRest (10 * r.length + 10) false r).map Prod.fst else traitDecl x r
  | _ :: r => traitDecl x r
  | [] => none

/-- A function, after `fn`. -/
def fnRest (n : Nat) (const : Bool) : P FnDecl := do
  let f ← fnRule (grammar n)
  if f.generics.types.isEmpty && f.receiver == .static then
    return ⟨const, f.generics.consts, f.params.map Prod.snd, f.ret⟩
  P.fail

/-- The function with the given name. -/
def fnDecl (x : String) : List Tok → Option FnDecl
  | .kw .kConst :: .kw .kFn :: .id y :: r =>
    if y = x then (fnRest (10 * r.length + 10) true (.id y :: r)).map Prod.fst else fnDecl x r
  | .kw .kFn :: .id y :: r =>
    if y = x then (fnRest (10 * r.length + 10) false (.id y :: r)).map Prod.fst else fnDecl x r
  | _ :: r => fnDecl x r
  | [] => none

/-- Fields of a struct, up to the brace, with whether they are public. -/
def structFields : Nat → P (List (Bool × String × Ty))
  | 0 => .fail
  | n + 1 => do
    if ← opt .rbrace then return []
    let _ ← (grammar n).attrs
    let pub ← optKw .kPub
    let x ← ident
    op .colon
    let t ← (grammar n).ty
    if ← opt .comma then return (pub, x, t) :: (← structFields n)
    op .rbrace
    return [(pub, x, t)]

/-- The struct with named fields, without parameters, with the given name. -/
def structDecl (x : String) : List Tok → Option (List (Bool × String × Ty))
  | .kw .kStruct :: .id y :: .op .lbrace :: r =>
    if y = x then (structFields (10 * r.length + 10) r).map Prod.fst else structDecl x r
  | _ :: r => structDecl x r
  | [] => none

end RustCode
