import Verif.Spec.RustSyntax
import Verif.Spec.Signatures
import Verif.Spec.Accept
/-
Specification: typing rules for the part of Rust that derived code is written in (The Rust Reference, "Expressions", "Paths",
"Items", "Traits", "Implementations", "Constant evaluation"). Written without reference to crevice.

The rules accept less than rustc: a construct without a rule has no type. Lifetimes are left out. Of array lengths only their
type is checked, and equal lengths are lengths written alike. Traits, and structs of other crates, are known by the last segment
of their path; `Env` says which paths lead to them.
-/
namespace RustTyping
open RustSyntax

/-- Types. -/
inductive Typ (α : Type)
  /-- a type that was spliced in; nothing is known of it but what `Env` says -/
  | given (t : α)
  /-- `u8`, `usize`, `str` -/
  | prim (x : String)
  /-- a struct of another crate (`true`) or of the program (`false`) -/
  | adt (foreign : Bool) (x : String) (args : List String)
  /-- `<T as Trait>::X` -/
  | proj (t : Typ α) (tr x : String)
  | array (t : Typ α) (len : Expr α)
  | slice (t : Typ α)
  | ref (t : Typ α)

/-- What the program can use. -/
structure Env (α : Type) where
  /-- the trait, function or struct of another crate that a path stands for -/
  traitAt : Path → Option String
  fnAt : Path → Option RustCode.FnDecl
  structAt : Path → Option String
  /-- the declarations of traits, and the fields of structs of other crates -/
  traits : String → Option RustCode.TraitDecl
  structs : String → Option (List (Bool × String × RustCode.Ty))
  /-- traits that types implement, apart from what declarations imply and the program adds -/
  impls : Typ α → String → Prop
  /-- traits in scope -/
  scope : String → Prop
  /-- the type has another method of that name, which is found before those of traits or beside them -/
  otherMethod : Typ α → String → Prop

/-- Primitive types. -/
def prims : List String := ["u8", "usize", "str"]

/-- `usize`. -/
abbrev Typ.usize {α : Type} : Typ α := .prim "usize"

/-- A type in the declaration of a trait, function or struct: `Self`, the associated types of `Self`, and the values of the
constant parameters are given. -/
def sigTy {α : Type} (env : Env α) (self : Option (Typ α)) (assoc : String → Option (Typ α)) (consts : String → Option (Expr α)) :
    RustCode.Ty → Option (Typ α)
  | .path [x] [] =>
    if x ∈ prims then some (.prim x)
    else if x = "Self" then self
    else if (env.structs x).isSome then some (.adt true x []) else none
  | .path ["Self", x] [] => assoc x
  | .ref false t => (sigTy env self assoc consts t).map .ref
  | .slice t => (sigTy env self assoc consts t).map .slice
  | .array t (.var n) => (sigTy env self assoc consts t).bind fun t => (consts n).map fun n => .array t n
  | _ => none

/-- The types of the parameters, with the receiver, and of the result of a function in a trait. -/
def sigFn {α : Type} (env : Env α) (self : Typ α) (assoc : String → Option (Typ α)) (receiver : RustCode.Receiver)
    (params : List RustCode.Ty) (ret : RustCode.Ty) : Option (List (Typ α) × Typ α) :=
  let sig := sigTy env (some self) assoc fun _ => none
  (match receiver with
    | .static => some []
    | .value => some [self]
    | .ref => some [.ref self]
    | .mutRef => none).bind fun r => (params.mapM sig).bind fun ps => (sig ret).map fun t => (r ++ ps, t)

/-- An item of a trait. -/
def member {α : Type} (env : Env α) (tr x : String) : Option RustCode.Member := (env.traits tr).bind fun d => d.member x

/-- The struct of the program with the given name: its parameters and fields. -/
def structOf {α : Type} : List (Item α) → String → Option (List String × List (Field α))
  | [], _ => none
  | .struct _ _ y gs fs :: is, x => if Crevice.plainName y = Crevice.plainName x then some (gs, fs) else structOf is x
  | _ :: is, x => structOf is x

/-- The function of the program with the given name. -/
def fnOf {α : Type} : List (Item α) → String → Option (Fn α)
  | [], _ => none
  | .fn f :: is, x => if Crevice.plainName f.name = Crevice.plainName x then some f else fnOf is x
  | _ :: is, x => fnOf is x

/-- The identifiers in a text. -/
def words {α : Type} : List (Tok α) → List String
  | [] => []
  | .ident x :: r => x :: words r
  | _ :: r => words r

/-- `#[derive(A, B)]`. -/
def derives {α : Type} : List (Tok α) → List String
  | .ident "derive" :: r => words r
  | _ => []

/-- The traits of the prelude that primitive types and arrays of them implement. -/
def simple : List String := ["Clone", "Copy", "Debug"]

/-- A type implements a trait. -/
inductive Implements {α : Type} (env : Env α) (prog : List (Item α)) : Typ α → String → Prop
  | known {t q} : env.impls t q → Implements env prog t q
  /-- `trait Q: P` -/
  | super {t q d p} : Implements env prog t q → env.traits q = some d → .path [p] [] ∈ d.supers → Implements env prog t p
  /-- `trait Q { type X: P; }` -/
  | bound {t q x bs p} : Implements env prog t q → member env q x = some (.type x bs) → .path [p] [] ∈ bs →
      Implements env prog (.proj t q x) p
  /-- `impl Q for T` -/
  | impl {u gs p q x items} : .impl u gs (some p) (.path ⟨false, [x]⟩ gs) items ∈ prog → env.traitAt p = some q →
      Implements env prog (.adt false x gs) q
  | derive {attrs v x gs fs q} : .struct attrs v x gs fs ∈ prog → q ∈ attrs.flatMap derives →
      Implements env prog (.adt false x gs) q
  | prim {x q} : x ∈ ["u8", "usize"] → q ∈ simple → Implements env prog (.prim x) q
  | array {t n q} : Implements env prog t q → q ∈ simple → Implements env prog (.array t n) q

/-- Where a type or an expression stands. -/
structure Ctx (α : Type) where
  /-- `Self` -/
  self : Option (Typ α) := none
  /-- `Self::X` -/
  assocs : List (String × Typ α) := []
  vars : List (String × Typ α) := []
  /-- only what can be evaluated at compile time -/
  const : Bool := false

/-- The fields of a struct by name. -/
def fieldNames {α : Type} (env : Env α) (prog : List (Item α)) : Typ α → Option (List String)
  | .adt false x [] => (structOf prog x).map fun s => s.2.map Field.name
  | .adt true x [] => (env.structs x).map fun fs => fs.map fun f => f.2.1
  | _ => none

/-- The path without its last segment, and that. -/
def splitPath (p : Path) : Path × String := (⟨p.global, p.segments.dropLast⟩, p.segments.getLastD "")

mutual
/-- A type expression stands for a type. -/
inductive Res {α : Type} (env : Env α) (prog : List (Item α)) : Ctx α → TyExpr α → Typ α → Prop
  | spliced {c t} : Res env prog c (.spliced t) (.given t)
  | own {c x gs fs args} : structOf prog x = some (gs, fs) → args.length = gs.length →
      Res env prog c (.path ⟨false, [x]⟩ args) (.adt false x args)
  | prim {c x} : structOf prog x = none → x ∈ prims → Res env prog c (.path ⟨false, [x]⟩ []) (.prim x)
  | foreign {c p x} : env.structAt p = some x → Res env prog c (.path p []) (.adt true x [])
  | self {c t} : c.self = some t → Res env prog c (.path ⟨false, ["Self"]⟩ []) t
  | assoc {c x t} : c.assocs.lookup x = some t → Res env prog c (.path ⟨false, ["Self", x]⟩ []) t
  | proj {c t T p q x bs} : Res env prog c t T → env.traitAt p = some q → Implements env prog T q →
      member env q x = some (.type x bs) → Res env prog c (.proj t p x) (.proj T q x)
  | array {c t T len} : Res env prog c t T → HasTy env prog { const := true } len .usize →
      Res env prog c (.array t len) (.array T len)
  | slice {c t T} : Res env prog c t T → Res env prog c (.slice t) (.slice T)
  | ref {c a t T} : Res env prog c t T → Res env prog c (.ref a t) (.ref T)
/-- An expression has a type. -/
inductive HasTy {α : Type} (env : Env α) (prog : List (Item α)) : Ctx α → Expr α → Typ α → Prop
  | int {c n} : HasTy env prog c (.int n "usize") .usize
  | str {c s} : HasTy env prog c (.str s) (.ref (.prim "str"))
  | var {c x t} : c.vars.lookup x = some t → HasTy env prog c (.path ⟨false, [x]⟩) t
  /-- `<T as P>::X` -/
  | const {c t T p q x τ r U} : Res env prog c t T → env.traitAt p = some q → Implements env prog T q →
      member env q x = some (.const x τ r) →
      sigTy env (some T) (fun y => some (.proj T q y)) (fun _ => none) τ = some U → HasTy env prog c (.assoc t p x) U
  /-- `<T as P>::f(..)` -/
  | assocFn {c t T p q x v ps τ r args Ps U} : c.const = false → Res env prog c t T → env.traitAt p = some q →
      Implements env prog T q → member env q x = some (.fn x v ps τ r) →
      sigFn env T (fun y => some (.proj T q y)) v ps τ = some (Ps, U) → HasTys env prog c args Ps →
      HasTy env prog c (.call (.assoc t p x) args) U
  /-- `P::f(..)`, for a type that follows from how the value is used -/
  | traitFn {c p q T v ps τ r args Ps U} : c.const = false → env.traitAt (splitPath p).1 = some q → Implements env prog T q →
      member env q (splitPath p).2 = some (.fn (splitPath p).2 v ps τ r) →
      sigFn env T (fun y => some (.proj T q y)) v ps τ = some (Ps, U) → HasTys env prog c args Ps →
      HasTy env prog c (.call (.path p) args) U
  /-- `::core::mem::size_of::<T>()` -/
  | sizeOf {c t T} : Res env prog c t T → HasTy env prog c (.call (.generic ⟨true, ["core", "mem", "size_of"]⟩ t) []) .usize
  /-- `f()`; functions with parameters are not covered -/
  | ownFn {c f d U} : c.vars.lookup f = none → fnOf prog f = some d → (c.const = true → d.const = true) → d.params = [] →
      Res env prog {} d.ret U → HasTy env prog c (.call (.path ⟨false, [f]⟩) []) U
  /-- `::a::f(..)` -/
  | foreignFn {c p d args Ps U} (consts : String → Expr α) : env.fnAt p = some d → (c.const = true → d.const = true) →
      (d.params.mapM (sigTy env none (fun _ => none) fun n => if n ∈ d.consts then some (consts n) else none)) = some Ps →
      sigTy env none (fun _ => none) (fun _ => none) d.ret = some U → HasTys env prog c args Ps →
      HasTy env prog c (.call (.path p) args) U
  /-- `e.x` -/
  | field {c e T x t} : HasTy env prog c e T → FieldTy env prog T x t → HasTy env prog c (.field e x) t
  /-- `e.x` through a reference -/
  | fieldRef {c e T x t} : HasTy env prog c e (.ref T) → FieldTy env prog T x t → HasTy env prog c (.field e x) t
  /-- `e.f(..)` for a function of a trait with `&self` -/
  | method {c e T q f ps τ r args Ps U} : c.const = false → HasTy env prog c e T → env.scope q →
      member env q f = some (.fn f .ref ps τ r) → Implements env prog T q → ¬ env.otherMethod T f →
      sigFn env T (fun y => some (.proj T q y)) .ref ps τ = some (.ref T :: Ps, U) → HasTys env prog c args Ps →
      HasTy env prog c (.method e f args) U
  | add {c a b} : HasTy env prog c a .usize → HasTy env prog c b .usize → HasTy env prog c (.add a b) .usize
  | array {c es t} : HasTys env prog c es (es.map fun _ => t) → HasTy env prog c (.array es) (.array t (.int es.length "usize"))
  | ref {c e t} : HasTy env prog c e t → HasTy env prog c (.ref e) (.ref t)
  /-- a reference to an array is turned into a reference to a slice -/
  | unsize {c e t n} : HasTy env prog c e (.ref (.array t n)) → HasTy env prog c e (.ref (.slice t))
  | struct {c p T ns inits} : Res env prog c (.path p []) T → fieldNames env prog T = some ns → Inits env prog c T inits →
      (inits.map fun i => Crevice.plainName i.1).Nodup → (∀ x ∈ ns, x ∈ inits.map Prod.fst) →
      HasTy env prog c (.struct p inits none) T
  /-- `T { .., ..e }` -/
  | update {c p T ns inits e} : Res env prog c (.path p []) T → fieldNames env prog T = some ns → Inits env prog c T inits →
      (inits.map fun i => Crevice.plainName i.1).Nodup → HasTy env prog c e T →
      HasTy env prog c (.struct p inits (some e)) T
/-- Expressions have the given types. -/
inductive HasTys {α : Type} (env : Env α) (prog : List (Item α)) : Ctx α → List (Expr α) → List (Typ α) → Prop
  | nil {c} : HasTys env prog c [] []
  | cons {c e t es ts} : HasTy env prog c e t → HasTys env prog c es ts → HasTys env prog c (e :: es) (t :: ts)
/-- Initialisers are for fields of the struct and have their types. -/
inductive Inits {α : Type} (env : Env α) (prog : List (Item α)) : Ctx α → Typ α → List (String × Expr α) → Prop
  | nil {c T} : Inits env prog c T []
  | cons {c T x e t is} : FieldTy env prog T x t → HasTy env prog c e t → Inits env prog c T is → Inits env prog c T ((x, e) :: is)
/-- A struct has a field of a type. Fields of structs of other crates must be public. -/
inductive FieldTy {α : Type} (env : Env α) (prog : List (Item α)) : Typ α → String → Typ α → Prop
  | own {x fs f t} : structOf prog x = some ([], fs) → f ∈ fs → Res env prog {} f.ty t →
      FieldTy env prog (.adt false x []) f.name t
  | foreign {x fs y τ t} : env.structs x = some fs → (true, y, τ) ∈ fs →
      sigTy env none (fun _ => none) (fun _ => none) τ = some t → FieldTy env prog (.adt true x []) y t
end

/-- The body of a function has a type. -/
inductive Body {α : Type} (env : Env α) (prog : List (Item α)) : Ctx α → List (String × Expr α) → Expr α → Typ α → Prop
  | value {c e t} : HasTy env prog c e t → Body env prog c [] e t
  | bind {c x a u ls e t} : HasTy env prog c a u → Body env prog { c with vars := (x, u) :: c.vars } ls e t →
      Body env prog c ((x, a) :: ls) e t

/-- Parameters have types. -/
inductive Params {α : Type} (env : Env α) (prog : List (Item α)) : Ctx α → List (Param α) → List (String × Typ α) → Prop
  | nil {c} : Params env prog c [] []
  | self {c t ps vs} : c.self = some t → Params env prog c ps vs → Params env prog c (.refSelf :: ps) (("self", .ref t) :: vs)
  | typed {c x t T ps vs} : Res env prog c t T → Params env prog c ps vs → Params env prog c (.typed x t :: ps) ((x, T) :: vs)

/-- A function is well typed, with the given types of parameters and result. -/
def FnOk {α : Type} (env : Env α) (prog : List (Item α)) (c : Ctx α) (f : Fn α) (ps : List (Typ α)) (r : Typ α) : Prop :=
  ∃ vs, Params env prog c f.params vs ∧ vs.map Prod.snd = ps ∧ Res env prog c f.ret r ∧
    Body env prog { c with vars := vs, const := f.const } f.lets f.value r

/-- The name of an item of an `impl`. -/
def assocName {α : Type} : Assoc α → String
  | .fn f => f.name
  | .const x _ _ => x
  | .type x _ => x

/-- An item of `impl Q for T` is what the trait asks for. -/
def AssocOk {α : Type} (env : Env α) (prog : List (Item α)) (c : Ctx α) (T : Typ α) (q : String) : Assoc α → Prop
  | .type x t => ∃ bs U, member env q x = some (.type x bs) ∧ Res env prog {} t U ∧ c.assocs.lookup x = some U ∧
      ∀ b ∈ bs, ∃ p, b = .path [p] [] ∧ Implements env prog U p
  | .const x t e => ∃ τ r U, member env q x = some (.const x τ r) ∧
      sigTy env (some T) (fun y => c.assocs.lookup y) (fun _ => none) τ = some U ∧ Res env prog c t U ∧
      HasTy env prog { c with const := true } e U
  | .fn f => ∃ v ps τ r Ps U, member env q f.name = some (.fn f.name v ps τ r) ∧
      sigFn env T (fun y => c.assocs.lookup y) v ps τ = some (Ps, U) ∧ f.const = false ∧ FnOk env prog c f Ps U

/-- An item is well typed. -/
def ItemOk {α : Type} (env : Env α) (prog : List (Item α)) : Item α → Prop
  | .fn f => ∃ ps r, FnOk env prog {} f ps r
  | .struct attrs _ _ _ fs => (fs.map fun f => Crevice.plainName f.name).Nodup ∧
      ∀ f ∈ fs, ∃ t, Res env prog {} f.ty t ∧ ∀ q ∈ attrs.flatMap derives, Implements env prog t q
  | .impl _ _ none self items => ∃ x args, Res env prog {} self (.adt false x args) ∧ (items.map assocName).Nodup ∧
      ∀ i ∈ items, ∃ f, i = .fn f ∧ ∃ ps r, FnOk env prog { self := some (.adt false x args) } f ps r
  | .impl unsafety _ (some p) self items => ∃ x args q d assocs, Res env prog {} self (.adt false x args) ∧
      env.traitAt p = some q ∧ env.traits q = some d ∧ unsafety = d.unsafety ∧
      (∀ b ∈ d.supers, ∃ p, b = .path [p] [] ∧ Implements env prog (.adt false x args) p) ∧
      (items.map assocName).Nodup ∧ (∀ m ∈ d.members, m.required = true → m.name ∈ items.map assocName) ∧
      ∀ i ∈ items, AssocOk env prog { self := some (.adt false x args), assocs } (.adt false x args) q i

/-- The structs that items define. -/
def structs {α : Type} : List (Item α) → List String
  | [] => []
  | .struct _ _ x _ _ :: is => x :: structs is
  | _ :: is => structs is

/-- The functions that items define. -/
def fns {α : Type} : List (Item α) → List String
  | [] => []
  | .fn f :: is => f.name :: fns is
  | _ :: is => fns is

/-- The traits that items implement, with the type. -/
def implHeads {α : Type} (env : Env α) : List (Item α) → List (Option String × TyExpr α)
  | [] => []
  | .impl _ _ (some p) self _ :: is => (env.traitAt p, self) :: implHeads env is
  | _ :: is => implHeads env is

/-- A program is well typed: its items are, and none is defined twice. -/
def WellTyped {α : Type} (env : Env α) (prog : List (Item α)) : Prop :=
  (∀ i ∈ prog, ItemOk env prog i) ∧ ((structs prog).map Crevice.plainName).Nodup ∧ ((fns prog).map Crevice.plainName).Nodup ∧
    (implHeads env prog).Nodup

end RustTyping
