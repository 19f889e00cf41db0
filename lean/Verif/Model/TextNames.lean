import Verif.Spec.Exports
import Verif.Model.TextFeatures
/-
The names that the text of crevice makes public with any set of Cargo features.
-/
namespace Crevice
open RustCode

/-- The text of a module: `src/lib.rs:163-174`, `src/{std140,std430,imp}.rs`, and the files of `sourceFiles`. -/
def moduleText : List String → List Tok
  | [] => Source.libRoot
  | [m] => ((moduleRoots.lookup m).or (sourceFiles.lookup [m])).getD []
  | p => (sourceFiles.lookup p).getD []

/-- What a module declares with the given features (`Cargo.toml:21-24,36-43`), with the macros of `src/util.rs` in scope
(`src/lib.rs:163-164`, `#[macro_use] mod util`). -/
def declsWith (f : Features) (m : List String) : List Decl :=
  decls (configure f.on Source.util ++ configure f.on (moduleText m))

/-- The modules that are compiled with the given features. -/
def compiledModules (f : Features) : List (List String) := modulesBelow (declsWith f) 5 []

/-- The names that a module of crevice makes public. Chains of `use` in crevice have length 1 (`src/std140.rs:12-20`,
`src/std430.rs:11-18`); the bound leaves room. -/
def creviceNames (f : Features) (m : List String) : List (String × Thing) := publicNames (declsWith f) 5 m

/-- What `::crevice::a::b` means in another crate. -/
def crevicePath (f : Features) (p : List String) : List (Thing × List String) := publicPath (declsWith f) 5 [] p

end Crevice
