import Verif.Model.Tokens
import Verif.Spec.MacroRun
import Verif.Source.Derive
/-
The derive macros as program text, and the input they are called with.
-/
namespace Crevice
open RustMacro

/-- `crevice-derive/src/{lib,layout,glsl}.rs`, compiled with or without the feature `debug-methods`. -/
def deriveProgram (debug : Bool) : Program :=
  { modules := [("lib", (RustCode.parse RustCode.Source.deriveLib).getD []),
      ("layout", (RustCode.parse RustCode.Source.deriveLayout).getD []),
      ("glsl", (RustCode.parse RustCode.Source.deriveGlsl).getD [])]
    features := if debug then ["debug-methods"] else [] }

/-- `syn::Field` of a struct with named fields. -/
def synField {α : Type} (f : String × α) : Val α :=
  .struct [("ident", .enum ["Some"] [.ident f.1]), ("ty", .ty f.2)]

/-- `syn::Data` with `syn::Fields`. -/
def synData {α : Type} : Data α → Val α
  | .structNamed fs => .enum ["Data", "Struct"] [.struct [("fields",
      .enum ["Fields", "Named"] [.struct [("named", .list (fs.map synField))]])]]
  | .structUnnamed ts => .enum ["Data", "Struct"] [.struct [("fields",
      .enum ["Fields", "Unnamed"] [.struct [("unnamed", .list (ts.map fun t =>
        .struct [("ident", .enum ["None"] []), ("ty", .ty t)]))]])]]
  | .structUnit => .enum ["Data", "Struct"] [.struct [("fields", .enum ["Fields", "Unit"] [])]]
  | .enum => .enum ["Data", "Enum"] [.unit]
  | .union => .enum ["Data", "Union"] [.unit]

/-- `syn::DeriveInput`; attributes, bounds and where clauses are left out. -/
def synInput {α : Type} (vis : RustSyntax.Vis) (input : DeriveInput α) : Val α :=
  .struct [("vis", .toks (Tokens.visTokens vis)), ("ident", .ident input.ident),
    ("generics", .generics input.generics), ("data", synData input.data)]

/-- The function of `crevice-derive/src/lib.rs` behind `#[derive(AsStdN)]`. -/
def deriveEntry : Layout → String
  | .std140 => "derive_as_std140"
  | .std430 => "derive_as_std430"

/-- The messages of the panics (`layout.rs:33,34,36`, `glsl.rs:9,10,12`). -/
def DeriveError.message : DeriveError → Option String
  | .tupleStruct => some "Tuple structs are not supported"
  | .unitStruct => some "Unit structs are not supported"
  | .notStruct => some "Only structs are supported"
  | .indexOutOfBounds => none

end Crevice
