import Verif.Model.Types
/-
Which conversion derived code calls. `as_stdN` of a derived struct is written with method-call syntax
(`self.#field_name.#as_trait_method()`, `crevice-derive/src/layout.rs:144-153`), `from_stdN` with a path
(`#as_trait_path::#from_trait_method(input.#field_name)`, `layout.rs:155-164`). The first is subject to
rustc's method lookup (Rust reference, "Method-call expressions"), at the place of the derive, the second
is not. `Model/Types.lean` takes both to be the methods of the field type's `AsStdN`; this file
models the lookup.
-/
namespace Crevice

/-- How a method called `as_stdN` takes `self`. -/
inductive Receiver
  | value
  | ref
  | mutRef
  deriving DecidableEq

/-- Where it is declared. -/
inductive Origin
  /-- `impl T { .. }` -/
  | inherent
  /-- crevice's `AsStdN` -/
  | crevice
  /-- some other trait -/
  | trait (name : String)
  deriving DecidableEq

/-- A visible method called `as_stdN`: inherent, or of a trait in scope. -/
structure Method where
  receiver : Receiver
  origin : Origin
  /-- it needs no arguments and returns `<T as AsStdN>::Output` for the field's type `T` -/
  typed : Bool
  /-- what it computes, as a function of the field's value -/
  body : RVal → Option RVal

/-- A type, as far as the lookup is concerned. -/
structure Level where
  copy : Bool
  methods : List Method

/-- Reasons for rustc to reject a method call. -/
inductive LookupError
  /-- E0599 -/
  | notFound
  /-- E0034 -/
  | ambiguous
  /-- E0507 or E0596: `self.field` is behind a `&self` -/
  | notOwned
  /-- E0308 or E0061 -/
  | wrongType
  deriving DecidableEq

/-- One step of the lookup: methods of one type with one kind of receiver, inherent ones first. `none`:
go on with the next step. -/
def Level.step (t : Level) (r : Receiver) : Option (Except LookupError Method) :=
  let found := t.methods.filter fun m => m.receiver = r
  match found.filter fun m => m.origin = .inherent with
  | [m] => some (.ok m)
  | _ :: _ => some (.error .ambiguous)
  | [] =>
    match found with
    | [m] => some (.ok m)
    | _ :: _ => some (.error .ambiguous)
    | [] => none

/-- The lookup, given the type of the receiver and the types it dereferences to, in this order: at
each of them the method may take it by value, by `&` or by `&mut`. Returns also the type. -/
def findMethod : List Level → Except LookupError (Level × Method)
  | [] => .error .notFound
  | t :: r =>
    match t.step .value with
    | some x => x.map fun m => (t, m)
    | none =>
      match t.step .ref with
      | some x => x.map fun m => (t, m)
      | none =>
        match t.step .mutRef with
        | some x => x.map fun m => (t, m)
        | none => findMethod r

/-- `self.#field_name.#as_trait_method()` with the expected type `<T as AsStdN>::Output`
(`layout.rs:150`): look the method up, then check that it can be called on a place behind `&self`
and what it returns. -/
def methodCall (ts : List Level) : Except LookupError (RVal → Option RVal) :=
  match findMethod ts with
  | .error e => .error e
  | .ok (t, m) =>
    if m.receiver = .mutRef ∨ (m.receiver = .value ∧ t.copy = false) then .error .notOwned
    else if m.typed then .ok m.body
    else .error .wrongType

/-- A field of a struct with `#[derive(AsStdN)]`: its name, its `AsStdN` implementation, and the type
and its dereferences with the methods called `as_stdN` visible where the derive is. -/
structure ScopedField where
  name : String
  impl : Impl
  types : List Level

/-- The field with the conversion its method call stands for; `none` if the call does not compile.
Layout and `from_stdN` do not depend on the lookup. -/
def ScopedField.called (f : ScopedField) : Option (String × Impl) :=
  match methodCall f.types with
  | .ok body =>
    some (f.name, { out := f.impl.out, alignment := f.impl.alignment, asStd := body,
                    fromStd := f.impl.fromStd, outDebug := f.impl.outDebug })
  | .error _ => none

/-- `#[derive(AsStdN)]` (`layout.rs:5-265`) with rustc's method lookup; `none` if the expansion does
not compile. -/
def deriveScoped (tg : Target) (l : Layout) (name : String) (fields : List ScopedField) : Option Impl :=
  (fields.mapM ScopedField.called).bind (deriveImpl tg l name)

end Crevice
