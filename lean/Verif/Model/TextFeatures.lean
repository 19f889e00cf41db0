import Verif.Spec.Cfg
import Verif.Spec.Features
import Verif.Model.TextTypes
import Verif.Source.Modules
/-
The crate as program text with any set of Cargo features: which files and which items are compiled.
-/
namespace Crevice
open RustCode RustTypes TypeNames

/-- The files of the library by module path. -/
def sourceFiles : List (List String × List Tok) :=
  [(["util"], Source.util), (["bool"], Source.bool), (["glsl"], Source.glsl), (["internal"], Source.internal),
    (["std140", "traits"], Source.std140Traits), (["std140", "dynamic_uniform"], Source.std140DynamicUniform),
    (["std140", "sizer"], Source.std140Sizer), (["std140", "writer"], Source.std140Writer),
    (["std140", "primitives"], Source.std140Primitives),
    (["std430", "traits"], Source.std430Traits), (["std430", "sizer"], Source.std430Sizer),
    (["std430", "writer"], Source.std430Writer), (["std430", "primitives"], Source.std430Primitives),
    (["imp", "imp_mint"], Source.impMint), (["imp", "imp_cgmath"], Source.impCgmath),
    (["imp", "imp_glam"], Source.impGlam), (["imp", "imp_nalgebra"], Source.impNalgebra)]

/-- The items of a file with the macros of `src/util.rs` in scope (`src/lib.rs:163-164`, `#[macro_use] mod util`). -/
def fileItems (f : Features) (path : List String) : List Item :=
  expanded [configure f.on Source.util, configure f.on ((sourceFiles.lookup path).getD [])]

/-- The files with submodules: `src/std140.rs`, `src/std430.rs`, `src/imp.rs`. -/
def moduleRoots : List (String × List Tok) :=
  [("std140", Source.std140Root), ("std430", Source.std430Root), ("imp", Source.impRoot)]

/-- Those of the given modules that a text declares. (The order of items has no meaning in Rust; modules are listed in the
order of `crateModules`.) -/
def declaredIn (f : Features) (root : List Tok) (order : List String) : List String :=
  order.filter (modDecls (configure f.on root)).contains

/-- The items of a module. What a submodule declares is reexported by `pub use self::x::*`. -/
def moduleItems (f : Features) (m : String) : List Item :=
  match moduleRoots.lookup m with
  | some root =>
    (declaredIn f root ["traits", "dynamic_uniform", "sizer", "writer", "primitives", "imp_mint", "imp_cgmath", "imp_glam",
      "imp_nalgebra"]).flatMap fun x => fileItems f [m, x]
  | none => fileItems f [m]

/-- The modules of the crate (`src/lib.rs`). -/
def crateModulesWith (f : Features) : List (String × List Item) :=
  (declaredIn f Source.libRoot ["std140", "std430", "bool", "glsl", "internal", "imp"]).map fun m => (m, moduleItems f m)

/-- The semantics of the crate, up to a bound on the recursion. -/
def crateSemWith (f : Features) (env : ForeignEnv) (n : Nat) : Sem := sem (indexItems (crateModulesWith f)) (outside env) n

/-- The implementation of `AsStdN` for a type as it is written. -/
def textImplWith (f : Features) (env : ForeignEnv) (n : Nat) (l : Layout) (t : RustCode.Ty) : Option Impl :=
  ((crateSemWith f env n).norm topScope t).bind (semImpl (crateSemWith f env n) l)

/-- `<T as Glsl>::NAME` for a type, by the text. -/
def semName (g : Sem) (c : CTy) : Option String :=
  (g.find ["glsl", "Glsl"] [] c).bind fun f =>
    ((assocConst f.items "NAME").bind (g.const f.scope [])).bind fun v =>
      match v with
      | .str s => some s
      | _ => none

/-- `<T as Glsl>::NAME` for a type as it is written. -/
def textNameWith (f : Features) (env : ForeignEnv) (n : Nat) (t : RustCode.Ty) : Option String :=
  ((crateSemWith f env n).norm topScope t).bind (semName (crateSemWith f env n))

end Crevice
