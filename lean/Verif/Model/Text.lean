import Verif.Basic
import Verif.Spec.RustRun
import Verif.Spec.Cfg
import Verif.Spec.Features
import Verif.Source.Internal
import Verif.Source.Std140
import Verif.Source.Std430
import Verif.Source.Modules
/-
The library of crevice as program text: the files whose functions run when values are written, one program for each
layout. Module paths are not modelled: the items of the files are put together, and `use` has no effect. (No two
of these files define the same name.)
-/
namespace Crevice
open RustCode

/-- The declarations of the modules of a layout (`src/std140.rs`, `src/std430.rs`). -/
def libraryRoot : Layout → List Tok
  | .std140 => Source.std140Root
  | .std430 => Source.std430Root

/-- The modules of a layout: `src/std140/{sizer,writer,traits,dynamic_uniform}.rs` and
`src/std430/{sizer,writer,traits}.rs`. -/
def libraryFiles : Layout → List (String × List Tok)
  | .std140 => [("sizer", Source.std140Sizer), ("writer", Source.std140Writer), ("traits", Source.std140Traits),
      ("dynamic_uniform", Source.std140DynamicUniform)]
  | .std430 => [("sizer", Source.std430Sizer), ("writer", Source.std430Writer), ("traits", Source.std430Traits)]

/-- The library as it is compiled with the given features: `src/internal.rs` (which `src/lib.rs:171` declares always) and
the modules that are declared, in each the items that are not configured out. Types of kind `std` are the types of the caller that implement
`StdN`, types of kind `conv` the ones with an `AsStdN` implementation of their own. -/
def libraryWith (f : Features) (l : Layout) : Program :=
  { items := (parse (configure f.on Source.internal)).getD [] ++
      ((libraryFiles l).filter fun x => (modDecls (configure f.on (libraryRoot l))).contains x.1).flatMap fun x =>
        (parse (configure f.on x.2)).getD []
    convTraits := [match l with | .std140 => "AsStd140" | .std430 => "AsStd430"]
    stdTraits := [match l with | .std140 => "Std140" | .std430 => "Std430"]
    convertName := match l with | .std140 => "as_std140" | .std430 => "as_std430"
    restoreName := match l with | .std140 => "from_std140" | .std430 => "from_std430" }

/-- The library with all features (`Cargo.toml:21-24,36-43`). -/
def library (l : Layout) : Program := libraryWith ⟨true, true, true, true⟩ l

end Crevice
