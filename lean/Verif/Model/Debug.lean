import Verif.Model.Types
/-
Model of the `debug-methods` feature of the derive (`crevice-derive/src/layout.rs:176-225`).
-/
namespace Crevice

/-- The local `struct Field` of `debug_metrics` (`layout.rs:202-207`). -/
structure DebugField where
  name : String
  offset : Nat
  size : Nat
  deriving DecidableEq, Repr

/-- The values that `debug_metrics` formats (`layout.rs:197-213`). -/
structure DebugMetrics where
  size : Nat
  align : Nat
  fields : List DebugField
  deriving DecidableEq, Repr

/-- The name the user gives a type in a struct definition, if the type has one: it is written into
`debug_metrics` as it stands (`layout.rs:180,186`). Types are taken to be spelled by their own name
without a path. -/
def Ty.spelled : Ty → Option String
  | .struct name _ => some name
  | .user name _ => some name
  | _ => none

/-- What `::core::mem::size_of::<#field_ty>()` is inside `debug_metrics` (`layout.rs:186`): the
size of the declared field type, not of its `Output`. The body of the function declares a `struct
Field { name: &'static str, offset: usize, size: usize }` of its own (`layout.rs:202-207`), with the
user's hygiene, so there the type name `Field` means that struct: four words. -/
def sizeInMetrics (pointerBytes : Nat) (sizeOf : Ty → Nat) (t : Ty) : Nat :=
  match t.spelled with
  | some name => if unraw name = "Field" then 4 * pointerBytes else sizeOf t
  | none => sizeOf t

/-- `Std140Foo::debug_metrics` (`layout.rs:196-214`) of the struct the derive generates. `sizeOf` is
`core::mem::size_of` of the types the user wrote. Offsets are differences of addresses inside a
zeroed value (`layout.rs:187-188`).

For a struct without fields nothing is pushed into `let mut fields = Vec::new()` (`layout.rs:208-210`),
so nothing says what the vector's elements are and rustc rejects the function ("type annotations
needed"): `none`. -/
def debugMetrics (tg : Target) (env : ForeignEnv) (l : Layout) (pointerBytes : Nat)
    (sizeOf : Ty → Nat) (name : String) (fs : List (String × Ty)) : Option DebugMetrics :=
  if fs = [] then none else
  (resolve tg env l (.struct name fs)).bind fun i =>
    (fs.mapM fun f => (i.out.offsetOf tg [f.1]).map fun o =>
      ({ name := f.1, offset := o.1, size := sizeInMetrics pointerBytes sizeOf f.2 } :
        DebugField)).map fun fields =>
        { size := i.out.size tg, align := i.alignment, fields := fields }

/-- `{:#?}` of one `Field`, inside a list (`#[derive(Debug)]`, `layout.rs:202`). Names are Rust
identifiers, so nothing in them is escaped. -/
def DebugField.pretty (f : DebugField) : String :=
  "    Field {\n        name: \"" ++ f.name ++ "\",\n        offset: " ++ toString f.offset ++
    ",\n        size: " ++ toString f.size ++ ",\n    },\n"

/-- The string that `debug_metrics` returns (`layout.rs:213`). -/
def DebugMetrics.text (d : DebugMetrics) : String :=
  "Size " ++ toString d.size ++ ", Align " ++ toString d.align ++ ", fields: " ++
    (if d.fields = [] then "[]" else "[\n" ++ String.join (d.fields.map DebugField.pretty) ++ "]")

end Crevice
