import Verif.Model.Derive
import Verif.Spec.RustSyntax
/-
The derive macros as they are written: functions from a derive input to tokens, template by template
(`crevice-derive/src/layout.rs`, `crevice-derive/src/glsl.rs`). `Model/Derive.lean` gives the syntax tree that
these tokens stand for; `Props/C62.lean` proves that it does.

`quote!` turns a doc comment into a `#[doc = ".."]` attribute, in whose text nothing is
interpolated. `Ident::to_string` and `quote!` keep a raw prefix `r#`, `format_ident!` drops it. A
`usize` is interpolated as a literal with suffix. Where-clauses and bounds are left out.
-/
namespace Crevice.Tokens
open RustSyntax

/-- Tokens of a visibility (`#visibility`, `layout.rs:171`). -/
def visTokens {α : Type} : Vis → List (Tok α)
  | .inherited => []
  | .everywhere => [.kw .kPub]
  | .inCrate => [.kw .kPub, .punct .lparen, .kw .kCrate, .punct .rparen]
  | .inSuper => [.kw .kPub, .punct .lparen, .kw .kSuper, .punct .rparen]
  | .inSelf => [.kw .kPub, .punct .lparen, .kw .kSelf, .punct .rparen]

/-- `#impl_generics` and `#ty_generics` (`split_for_impl`, `layout.rs:24`): nothing for a type without
parameters. -/
def genericsTokens {α : Type} : List String → List (Tok α)
  | [] => []
  | gs => .punct .lt :: (gs.map Tok.ident).intersperse (.punct .comma) ++ [.punct .gt]

/-- `#mod_path` (`layout.rs:14`). -/
def modPath {α : Type} (l : Layout) : List (Tok α) :=
  [.punct .colon2, .ident "crevice", .punct .colon2, .ident l.modName]

/-- `#trait_path` (`layout.rs:15`). -/
def traitPath {α : Type} (l : Layout) : List (Tok α) :=
  modPath l ++ [.punct .colon2, .ident l.traitName]

/-- `#as_trait_path` (`layout.rs:17-18`). -/
def asTraitPath {α : Type} (l : Layout) : List (Tok α) :=
  modPath l ++ [.punct .colon2, .ident ("As" ++ l.traitName)]

/-- `#as_trait_method` (`layout.rs:19`). -/
def asTraitMethod (l : Layout) : String := "as_" ++ l.modName

/-- `#from_trait_method` (`layout.rs:20`). -/
def fromTraitMethod (l : Layout) : String := "from_" ++ l.modName

/-- `::crevice::internal::f`. -/
def internalPath {α : Type} (f : String) : List (Tok α) :=
  [.punct .colon2, .ident "crevice", .punct .colon2, .ident "internal", .punct .colon2, .ident f]

/-- `::crevice::internal::bytemuck::T`. -/
def bytemuckPath {α : Type} (t : String) : List (Tok α) :=
  internalPath "bytemuck" ++ [.punct .colon2, .ident t]

/-- `layout_version_of_ty` (`layout.rs:40-44`). -/
def layoutVersionOfTy {α : Type} (l : Layout) (ty : α) : List (Tok α) :=
  [.punct .lt, .ty ty, .kw .kAs] ++ asTraitPath l ++ [.punct .gt, .punct .colon2, .ident "Output"]

/-- `layout_alignment_of_ty` (`layout.rs:47-51`). -/
def layoutAlignmentOfTy {α : Type} (l : Layout) (ty : α) : List (Tok α) :=
  [.punct .lt, .punct .lt, .ty ty, .kw .kAs] ++ asTraitPath l ++
    [.punct .gt, .punct .colon2, .ident "Output", .kw .kAs] ++ traitPath l ++
    [.punct .gt, .punct .colon2, .ident "ALIGNMENT"]

/-- `struct_alignment` (`layout.rs:53-59`). -/
def structAlignment {α : Type} (l : Layout) (fields : List (String × α)) : List (Tok α) :=
  internalPath "max_arr" ++
    [.punct .lparen, .punct .lbracket, .int l.minStructAlignment "usize", .punct .comma] ++
    (fields.map fun field => layoutAlignmentOfTy l field.2 ++ [.punct .comma]).flatten ++
    [.punct .rbracket, .punct .rparen]

/-- `offset_after_field` (`layout.rs:70-93`); `pad_fns` are names. -/
def offsetAfterField {α : Type} (l : Layout) (fields : List (String × α)) (padFns : List String)
    (target : Nat) : Except DeriveError (List (Tok α)) :=
  (List.range (target + 1)).foldlM (init := [.int 0 "usize"]) fun output i => do
    let field ← index fields i
    let output := output ++
      [.punct .plus, .punct .colon2, .ident "core", .punct .colon2, .ident "mem", .punct .colon2,
        .ident "size_of", .punct .colon2, .punct .lt] ++ layoutVersionOfTy l field.2 ++
      [.punct .gt, .punct .lparen, .punct .rparen]
    if i < target then
      let padFn ← index padFns i
      return output ++ [.punct .plus, .ident padFn, .punct .lparen, .punct .rparen]
    else
      return output

/-- A doc comment inside `quote!`. -/
def docTokens {α : Type} (s : String) : List (Tok α) :=
  [.punct .hash, .punct .lbracket, .ident "doc", .punct .eq, .str s, .punct .rbracket]

/-- One element of `pad_fn_impls` (`layout.rs:98-124`). -/
def padFnImpl {α : Type} (l : Layout) (fields : List (String × α)) (padFns : List String)
    (index : Nat) (padFn : String) : Except DeriveError (List (Tok α)) := do
  let startingOffset ← offsetAfterField l fields padFns index
  let nextFieldOrSelfAlignment :=
    match fields[index + 1]? with
    | some nextField => layoutAlignmentOfTy l nextField.2
    | none => structAlignment l fields
  return docTokens " Tells how many bytes of padding have to be inserted after" ++
    docTokens " the field with index #index." ++
    [.punct .hash, .punct .lbracket, .ident "allow", .punct .lparen, .ident "non_snake_case",
      .punct .rparen, .punct .rbracket,
      .kw .kConst, .kw .kFn, .ident padFn, .punct .lparen, .punct .rparen, .punct .arrow, .ident "usize",
      .punct .lbrace,
      .kw .kLet, .ident "starting_offset", .punct .eq] ++ startingOffset ++ [.punct .semi,
      .kw .kLet, .ident "alignment", .punct .eq] ++ nextFieldOrSelfAlignment ++ [.punct .semi] ++
      internalPath "align_offset" ++
      [.punct .lparen, .ident "starting_offset", .punct .comma, .ident "alignment", .punct .rparen,
      .punct .rbrace]

/-- One element of `generated_struct_fields` (`layout.rs:131-141`). -/
def generatedStructField {α : Type} (l : Layout) (padFns : List String) (i : Nat)
    (field : String × α) : Except DeriveError (List (Tok α)) := do
  let padFn ← index padFns i
  return [.ident field.1, .punct .colon] ++ layoutVersionOfTy l field.2 ++ [.punct .comma] ++
    [.ident (padFieldName i), .punct .colon, .punct .lbracket, .ident "u8", .punct .semi,
      .ident padFn, .punct .lparen, .punct .rparen, .punct .rbracket, .punct .comma]

/-- One element of `generated_struct_field_init` (`layout.rs:146-152`). -/
def generatedStructFieldInit {α : Type} (l : Layout) (field : String × α) : List (Tok α) :=
  [.ident field.1, .punct .colon, .kw .kSelf, .punct .dot, .ident field.1, .punct .dot,
    .ident (asTraitMethod l), .punct .lparen, .punct .rparen, .punct .comma]

/-- One element of `input_struct_field_init` (`layout.rs:157-163`). -/
def inputStructFieldInit {α : Type} (l : Layout) (field : String × α) : List (Tok α) :=
  [.ident field.1, .punct .colon] ++ asTraitPath l ++
    [.punct .colon2, .ident (fromTraitMethod l), .punct .lparen, .ident "input", .punct .dot,
      .ident field.1, .punct .rparen, .punct .comma]

/-- `struct_definition` (`layout.rs:166-174`). -/
def structDefinition {α : Type} (vis : Vis) (generatedName : String) (generics : List String)
    (structFields : List (Tok α)) : List (Tok α) :=
  [.punct .hash, .punct .lbracket, .ident "derive", .punct .lparen, .ident "Debug", .punct .comma,
    .ident "Clone", .punct .comma, .ident "Copy", .punct .rparen, .punct .rbracket,
    .punct .hash, .punct .lbracket, .ident "repr", .punct .lparen, .ident "C", .punct .rparen,
    .punct .rbracket,
    .punct .hash, .punct .lbracket, .ident "doc", .punct .lparen, .ident "hidden", .punct .rparen,
    .punct .rbracket,
    .punct .hash, .punct .lbracket, .ident "allow", .punct .lparen, .ident "warnings", .punct .rparen,
    .punct .rbracket] ++
    visTokens vis ++ [.kw .kStruct, .ident generatedName] ++ genericsTokens generics ++
    [.punct .lbrace] ++ structFields ++ [.punct .rbrace]

/-- The inherent `impl` with `as_bytes` (`layout.rs:231-236`). -/
def asBytesImpl {α : Type} (l : Layout) (generatedName : String) (generics : List String) :
    List (Tok α) :=
  [.kw .kImpl] ++ genericsTokens generics ++ [.ident generatedName] ++ genericsTokens generics ++
    [.punct .lbrace,
    .punct .hash, .punct .lbracket, .ident "allow", .punct .lparen, .ident "warnings", .punct .rparen,
    .punct .rbracket,
    .kw .kPub, .kw .kFn, .ident "as_bytes", .punct .lparen, .punct .amp, .kw .kSelf, .punct .rparen,
    .punct .arrow, .punct .amp, .punct .lbracket, .ident "u8", .punct .rbracket, .punct .lbrace,
    .punct .lt, .ident generatedName] ++ genericsTokens generics ++ [.kw .kAs] ++ traitPath l ++
    [.punct .gt, .punct .colon2, .ident "as_bytes", .punct .lparen, .kw .kSelf, .punct .rparen,
    .punct .rbrace, .punct .rbrace]

/-- `unsafe impl P for T { body }` (`layout.rs:238,239,241-243`). -/
def unsafeImpl {α : Type} (path : List (Tok α)) (name : String) (generics : List String)
    (body : List (Tok α)) : List (Tok α) :=
  [.kw .kUnsafe, .kw .kImpl] ++ genericsTokens generics ++ path ++ [.kw .kFor, .ident name] ++
    genericsTokens generics ++ [.punct .lbrace] ++ body ++ [.punct .rbrace]

/-- `impl AsStdN for T` (`layout.rs:245-261`). -/
def asTraitImpl {α : Type} (l : Layout) (inputName generatedName : String) (generics : List String)
    (fields : List (String × α)) : List (Tok α) :=
  [.kw .kImpl] ++ genericsTokens generics ++ asTraitPath l ++ [.kw .kFor, .ident inputName] ++
    genericsTokens generics ++
    [.punct .lbrace,
    .kw .kType, .ident "Output", .punct .eq, .ident generatedName, .punct .semi,
    .kw .kFn, .ident (asTraitMethod l), .punct .lparen, .punct .amp, .kw .kSelf, .punct .rparen,
    .punct .arrow, .kw .kSelfTy, .punct .colon2, .ident "Output", .punct .lbrace,
    .kw .kSelfTy, .punct .colon2, .ident "Output", .punct .lbrace] ++
    (fields.map (generatedStructFieldInit l)).flatten ++
    [.punct .dot2] ++ bytemuckPath "Zeroable" ++
    [.punct .colon2, .ident "zeroed", .punct .lparen, .punct .rparen, .punct .rbrace, .punct .rbrace,
    .kw .kFn, .ident (fromTraitMethod l), .punct .lparen, .ident "input", .punct .colon,
    .kw .kSelfTy, .punct .colon2, .ident "Output", .punct .rparen, .punct .arrow, .kw .kSelfTy,
    .punct .lbrace, .kw .kSelfTy, .punct .lbrace] ++
    (fields.map (inputStructFieldInit l)).flatten ++
    [.punct .rbrace, .punct .rbrace, .punct .rbrace]

/-- `layout.rs:30-37` and `glsl.rs:6-13`. -/
def namedFields {α : Type} : Data α → Except DeriveError (List (String × α))
  | .structNamed fields => .ok fields
  | .structUnnamed _ => .error .tupleStruct
  | .structUnit => .error .unitStruct
  | .enum => .error .notStruct
  | .union => .error .notStruct

/-- `pad_fn_impls` (`layout.rs:95-126`). -/
def padFnImpls {α : Type} (l : Layout) (input : DeriveInput α) :
    Except DeriveError (List (Tok α)) := do
  let fields ← namedFields input.data
  let padFns := padFnNames l input.ident fields.length
  let impls ← padFns.zipIdx.mapM fun (padFn, i) => padFnImpl l fields padFns i padFn
  return impls.flatten

/-- `struct_definition` with its fields (`layout.rs:128-142,166-174`). -/
def structItem {α : Type} (l : Layout) (vis : Vis) (input : DeriveInput α) :
    Except DeriveError (List (Tok α)) := do
  let fields ← namedFields input.data
  let padFns := padFnNames l input.ident fields.length
  let structFields ← fields.zipIdx.mapM fun (field, i) => generatedStructField l padFns i field
  return structDefinition vis (generatedName l input.ident) input.generics structFields.flatten

/-- `layout.rs:5-265` `emit`, without the feature `debug-methods`. -/
def emitTokens {α : Type} (l : Layout) (vis : Vis) (input : DeriveInput α) :
    Except DeriveError (List (Tok α)) := do
  let fields ← namedFields input.data
  let padFnImpls ← padFnImpls l input
  let structItem ← structItem l vis input
  let name := generatedName l input.ident
  return padFnImpls ++ structItem ++
    asBytesImpl l name input.generics ++
    unsafeImpl (bytemuckPath "Zeroable") name input.generics [] ++
    unsafeImpl (bytemuckPath "Pod") name input.generics [] ++
    unsafeImpl (traitPath l) name input.generics
      ([.kw .kConst, .ident "ALIGNMENT", .punct .colon, .ident "usize", .punct .eq] ++
        structAlignment l fields ++ [.punct .semi]) ++
    asTraitImpl l input.ident name input.generics fields

/-- What `debug_definitions()` stringifies (`layout.rs:216-221`). -/
def debugDefinitions {α : Type} (l : Layout) (vis : Vis) (input : DeriveInput α) :
    Except DeriveError (List (Tok α)) := do
  return (← structItem l vis input) ++ (← padFnImpls l input)

/-- One element of `debug_fields` (`layout.rs:183-190`). -/
def debugField {α : Type} (field : String × α) : List (Tok α) :=
  [.ident "fields", .punct .dot, .ident "push", .punct .lparen, .ident "Field", .punct .lbrace,
    .ident "name", .punct .colon, .ident "stringify", .punct .bang, .punct .lparen, .ident field.1, .punct .rparen,
    .punct .comma,
    .ident "size", .punct .colon, .punct .colon2, .ident "core", .punct .colon2, .ident "mem", .punct .colon2,
    .ident "size_of", .punct .colon2, .punct .lt, .ty field.2, .punct .gt, .punct .lparen, .punct .rparen,
    .punct .comma,
    .ident "offset", .punct .colon, .punct .lparen, .punct .amp, .ident "zeroed", .punct .dot, .ident field.1,
    .kw .kAs, .punct .star, .kw .kConst, .ident "_", .kw .kAs, .ident "usize", .punct .rparen, .punct .minus,
    .punct .lparen, .punct .amp, .ident "zeroed", .kw .kAs, .punct .star, .kw .kConst, .ident "_", .kw .kAs,
    .ident "usize", .punct .rparen, .punct .comma, .punct .rbrace, .punct .rparen, .punct .semi]

/-- `fn debug_metrics` (`layout.rs:196-213`). -/
def debugMetrics {α : Type} (l : Layout) (fields : List (String × α)) : List (Tok α) :=
  [.kw .kFn, .ident "debug_metrics", .punct .lparen, .punct .rparen, .punct .arrow, .ident "String", .punct .lbrace,
    .kw .kLet, .ident "size", .punct .eq, .punct .colon2, .ident "core", .punct .colon2, .ident "mem",
    .punct .colon2, .ident "size_of", .punct .colon2, .punct .lt, .kw .kSelfTy, .punct .gt, .punct .lparen,
    .punct .rparen, .punct .semi,
    .kw .kLet, .ident "align", .punct .eq, .punct .lt, .kw .kSelfTy, .kw .kAs] ++ traitPath l ++
    [.punct .gt, .punct .colon2, .ident "ALIGNMENT", .punct .semi,
    .kw .kLet, .ident "zeroed", .punct .colon, .kw .kSelfTy, .punct .eq] ++ bytemuckPath "Zeroable" ++
    [.punct .colon2, .ident "zeroed", .punct .lparen, .punct .rparen, .punct .semi,
    .punct .hash, .punct .lbracket, .ident "derive", .punct .lparen, .ident "Debug", .punct .rparen,
    .punct .rbracket, .kw .kStruct, .ident "Field", .punct .lbrace,
    .ident "name", .punct .colon, .punct .amp, .lifetime "static", .ident "str", .punct .comma,
    .ident "offset", .punct .colon, .ident "usize", .punct .comma,
    .ident "size", .punct .colon, .ident "usize", .punct .comma, .punct .rbrace,
    .kw .kLet, .kw .kMut, .ident "fields", .punct .eq, .ident "Vec", .punct .colon2, .ident "new", .punct .lparen,
    .punct .rparen, .punct .semi] ++
    (fields.map debugField).flatten ++
    [.ident "format", .punct .bang, .punct .lparen, .str "Size {}, Align {}, fields: {:#?}", .punct .comma,
    .ident "size", .punct .comma, .ident "align", .punct .comma, .ident "fields", .punct .rparen, .punct .rbrace]

/-- The inherent `impl` of the feature `debug-methods` (`layout.rs:194-222`). -/
def debugImpl {α : Type} (l : Layout) (vis : Vis) (input : DeriveInput α) : Except DeriveError (List (Tok α)) := do
  let fields ← namedFields input.data
  let definitions ← debugDefinitions l vis input
  return [.kw .kImpl] ++ genericsTokens input.generics ++ [.ident (generatedName l input.ident)] ++
    genericsTokens input.generics ++ [.punct .lbrace] ++ debugMetrics l fields ++
    [.kw .kFn, .ident "debug_definitions", .punct .lparen, .punct .rparen, .punct .arrow, .punct .amp,
    .lifetime "static", .ident "str", .punct .lbrace, .ident "stringify", .punct .bang, .punct .lparen] ++
    definitions ++ [.punct .rparen, .punct .rbrace, .punct .rbrace]

/-- `debug_methods` (`layout.rs:176,223-225`), with or without the feature. -/
def debugMethods {α : Type} (l : Layout) (debug : Bool) (vis : Vis) (input : DeriveInput α) :
    Except DeriveError (List (Tok α)) :=
  if debug then debugImpl l vis input else .ok []

/-- `layout.rs:5-265` `emit`, with or without the feature `debug-methods` (`layout.rs:263`). -/
def emitAll {α : Type} (l : Layout) (debug : Bool) (vis : Vis) (input : DeriveInput α) :
    Except DeriveError (List (Tok α)) := do
  let code ← emitTokens l vis input
  let methods ← debugMethods l debug vis input
  return code ++ methods

/-! ### `#[derive(GlslStruct)]` -/

/-- `::crevice::glsl::T` (`glsl.rs:15-16`). -/
def glslPath {α : Type} (t : String) : List (Tok α) :=
  [.punct .colon2, .ident "crevice", .punct .colon2, .ident "glsl", .punct .colon2, .ident t]

/-- One element of `glsl_fields` (`glsl.rs:23-33`). -/
def glslFieldTokens {α : Type} (field : String × α) : List (Tok α) :=
  glslPath "GlslField" ++
    [.punct .lbrace, .ident "ty", .punct .colon, .punct .lt, .ty field.2, .kw .kAs] ++ glslPath "Glsl" ++
    [.punct .gt, .punct .colon2, .ident "NAME", .punct .comma,
     .ident "name", .punct .colon, .str field.1, .punct .comma, .punct .rbrace]

/-- `glsl.rs:5-46` `emit`. -/
def emitGlslTokens {α : Type} (input : DeriveInput α) : Except DeriveError (List (Tok α)) := do
  let fields ← namedFields input.data
  return unsafeImpl (glslPath "Glsl") input.ident input.generics
      ([.kw .kConst, .ident "NAME", .punct .colon, .punct .amp, .lifetime "static", .ident "str",
        .punct .eq, .str input.ident, .punct .semi]) ++
    unsafeImpl (glslPath "GlslStruct") input.ident input.generics
      ([.kw .kConst, .ident "FIELDS", .punct .colon, .punct .amp, .lifetime "static", .punct .lbracket] ++
        glslPath "GlslField" ++ [.punct .rbracket, .punct .eq, .punct .amp, .punct .lbracket] ++
        (fields.map fun field => glslFieldTokens field ++ [.punct .comma]).flatten ++
        [.punct .rbracket, .punct .semi])

end Crevice.Tokens
