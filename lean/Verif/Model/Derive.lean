import Verif.Model.Internal
import Verif.Model.Rust
/-
Model of `crevice-derive/src/layout.rs` (`#[derive(AsStd140)]`, `#[derive(AsStd430)]`): the macro
maps a derive input to generated code, given here as a syntax tree. The macro never looks inside
a field's type, it only splices it into the output, so the model is polymorphic in the type `α`
of type tokens. `Model/Types.lean` instantiates `α` with resolved trait implementations.
-/
namespace Crevice

/-- `crevice-derive/src/lib.rs:11` and `:19`: the `trait_name` argument. -/
def Layout.traitName : Layout → String
  | .std140 => "Std140"
  | .std430 => "Std430"

/-- `crevice-derive/src/lib.rs:11` and `:19`: the `mod_name` argument. -/
def Layout.modName : Layout → String
  | .std140 => "std140"
  | .std430 => "std430"

/-- `crevice-derive/src/lib.rs:11` and `:19`: the `min_struct_alignment` argument. -/
def Layout.minStructAlignment : Layout → Nat
  | .std140 => 16
  | .std430 => 0

/-- `syn::Data`/`syn::Fields` as far as the macro distinguishes them. Attributes, visibility and
where clauses are not modelled. -/
inductive Data (α : Type)
  | structNamed (fields : List (String × α))
  | structUnnamed (fields : List α)
  | structUnit
  | enum
  | union

/-- `syn::DeriveInput`. -/
structure DeriveInput (α : Type) where
  ident : String
  /-- generic parameters (types, lifetimes, consts), by name and without bounds -/
  generics : List String := []
  data : Data α

/-- Panics of the macro (`layout.rs:33,34,36`, `glsl.rs:9,10,12`), plus the index panic that
`&fields[index]`/`&pad_fns[index]` (`layout.rs:74,85,135`) could raise. -/
inductive DeriveError
  | tupleStruct
  | unitStruct
  | notStruct
  | indexOutOfBounds
  deriving DecidableEq, Repr

/-- Const expressions the macro generates. -/
inductive CExpr (α : Type)
  /-- `0usize`, `16usize` -/
  | lit (n : Nat)
  /-- `::core::mem::size_of::<<T as AsStdN>::Output>()` (`layout.rs:40-44,78`) -/
  | sizeOf (ty : α)
  /-- `<<T as AsStdN>::Output as StdN>::ALIGNMENT` (`layout.rs:47-51`) -/
  | alignmentOf (ty : α)
  /-- `f()` (`layout.rs:87`) -/
  | call (f : String)
  /-- `a + b` -/
  | add (a b : CExpr α)
  /-- `::crevice::internal::align_offset(o, a)` (`layout.rs:122`) -/
  | alignOffset (o a : CExpr α)
  /-- `::crevice::internal::max_arr([..])` (`layout.rs:55`) -/
  | maxArr (args : List (CExpr α))

/-- Types of the fields of the generated struct (`layout.rs:138-139`). -/
inductive GenTy (α : Type)
  /-- `<T as AsStdN>::Output` -/
  | layoutOf (ty : α)
  /-- `[u8; pad_fn()]` -/
  | padBytes (padFn : String)

/-- One `#field: <conversion>(value.#field)` initialiser. -/
structure FieldInit (α : Type) where
  /-- field being initialised -/
  dst : String
  /-- field of `self`/`input` being read -/
  src : String
  /-- type whose `as_stdN`/`from_stdN` is called -/
  ty : α

/-- The items the macro generates (`layout.rs:227-264`). -/
structure Generated (α : Type) where
  /-- name of the generated struct -/
  structName : String
  /-- its generic parameters: `#ty_generics` in `struct_definition` (`layout.rs:171`) -/
  structParams : List String
  /-- the generic arguments of the generated struct in `type Output = #generated_name;`
  (`layout.rs:246`) -/
  outputArgs : List String
  /-- padding functions with their bodies -/
  padFns : List (String × CExpr α)
  /-- fields of the generated `#[repr(C)]` struct -/
  fields : List (String × GenTy α)
  /-- `const ALIGNMENT` -/
  alignment : CExpr α
  /-- initialisers of the `Self::Output { .., ..zeroed() }` expression in `as_stdN` -/
  asInit : List (FieldInit α)
  /-- initialisers of the `Self { .. }` expression in `from_stdN` -/
  fromInit : List (FieldInit α)

/-- `quote::format_ident!` prints identifier arguments without a raw prefix `r#`. -/
def unraw (s : String) : String :=
  match s.toList with
  | 'r' :: '#' :: r => String.ofList r
  | _ => s

/-- `layout.rs:53-59` `struct_alignment`. -/
def structAlignment (l : Layout) (fields : List (String × α)) : CExpr α :=
  .maxArr (.lit l.minStructAlignment :: fields.map fun f => .alignmentOf f.2)

/-- `layout.rs:26` `generated_name`. -/
def generatedName (l : Layout) (inputName : String) : String :=
  l.traitName ++ unraw inputName

/-- `layout.rs:63` name of the padding function with the given index. -/
def padFnName (l : Layout) (inputName : String) (index : Nat) : String :=
  "_" ++ unraw inputName ++ "__" ++ l.traitName ++ "Pad" ++ toString index

/-- `layout.rs:62-64` `pad_fns`. -/
def padFnNames (l : Layout) (inputName : String) (n : Nat) : List String :=
  (List.range n).map (padFnName l inputName)

/-- `layout.rs:134` name of the padding field with the given index. -/
def padFieldName (index : Nat) : String := "_pad" ++ toString index

/-- Indexing a slice, panicking when out of bounds. -/
def index (xs : List β) (i : Nat) : Except DeriveError β :=
  match xs[i]? with
  | some x => .ok x
  | none => .error .indexOutOfBounds

/-- `layout.rs:70-93` `offset_after_field`: `0usize + size(f0) + pad0() + ... + size(f_target)`. -/
def offsetAfterField (fields : List (String × α)) (padFns : List String) (target : Nat) :
    Except DeriveError (CExpr α) :=
  (List.range (target + 1)).foldlM (init := CExpr.lit 0) fun output i => do
    let field ← index fields i
    let output := CExpr.add output (.sizeOf field.2)
    if i < target then
      let padFn ← index padFns i
      return .add output (.call padFn)
    else
      return output

/-- `layout.rs:95-126` one element of `pad_fn_impls`: the function with index `i`. -/
def padFnImpl (l : Layout) (fields : List (String × α)) (padFns : List String)
    (i : Nat) (padFn : String) : Except DeriveError (String × CExpr α) := do
  let startingOffset ← offsetAfterField fields padFns i
  let nextFieldOrSelfAlignment :=
    match fields[i + 1]? with
    | some nextField => .alignmentOf nextField.2
    | none => structAlignment l fields
  return (padFn, .alignOffset startingOffset nextFieldOrSelfAlignment)

/-- `layout.rs:128-142` the two generated fields for the field with index `i`. -/
def structFieldPair (padFns : List String) (i : Nat) (field : String × α) :
    Except DeriveError (List (String × GenTy α)) := do
  let padFn ← index padFns i
  return [(field.1, .layoutOf field.2), (padFieldName i, .padBytes padFn)]

/-- `layout.rs:5-265` `emit`. -/
def emitLayout (l : Layout) (input : DeriveInput α) : Except DeriveError (Generated α) := do
  -- layout.rs:30-37
  let fields ← match input.data with
    | .structNamed fields => .ok fields
    | .structUnnamed _ => .error .tupleStruct
    | .structUnit => .error .unitStruct
    | .enum => .error .notStruct
    | .union => .error .notStruct
  -- layout.rs:62-64
  let padFns := padFnNames l input.ident fields.length
  -- layout.rs:95-126
  let padFnImpls ← padFns.zipIdx.mapM fun (padFn, i) => padFnImpl l fields padFns i padFn
  -- layout.rs:128-142
  let structFields ← fields.zipIdx.mapM fun (field, i) => structFieldPair padFns i field
  return {
    structName := generatedName l input.ident
    -- layout.rs:171
    structParams := input.generics
    -- layout.rs:246, written without `#ty_generics`
    outputArgs := []
    padFns := padFnImpls
    fields := structFields.flatten
    -- layout.rs:242
    alignment := structAlignment l fields
    -- layout.rs:144-153
    asInit := fields.map fun f => { dst := f.1, src := f.1, ty := f.2 }
    -- layout.rs:155-164
    fromInit := fields.map fun f => { dst := f.1, src := f.1, ty := f.2 } }

end Crevice
