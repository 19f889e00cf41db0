import Verif.Spec.RustRun
import Verif.Source.Glsl
/-
A program that uses `src/glsl.rs`: implementations of `Glsl` for some types and of `GlslStruct` for one of them, in the
form that the derive writes (`crevice-derive/src/glsl.rs:25-46`).
-/
namespace Crevice
open RustCode

/-- `unsafe impl Glsl for T { const NAME: &'static str = "name"; }` -/
def glslImpl (t name : String) : Item :=
  .impl ⟨[], [], []⟩ (.path ["Glsl"] []) (.path [t] []) [.const "NAME" (.ref false (.path ["str"] [])) (some (.str name))]

/-- `GlslField { ty: <T as Glsl>::NAME, name: "f" }` -/
def glslFieldExpr (f t : String) : Expr :=
  .struct (.path ["GlslField"] []) ["ty", "name"]
    [.path (.proj (.path [t] []) (.path ["Glsl"] []) ["NAME"]), .str f]

/-- `unsafe impl GlslStruct for X { const FIELDS: &'static [GlslField] = &[..]; }`; fields come with the names of their
types. -/
def glslStructImpl (x : String) (fields : List (String × String)) : Item :=
  .impl ⟨[], [], []⟩ (.path ["GlslStruct"] []) (.path [x] [])
    [.const "FIELDS" (.ref false (.slice (.path ["GlslField"] [])))
      (some (.ref false (.array (fields.map fun f => glslFieldExpr f.1 f.2))))]

/-- The program: `src/glsl.rs` and these implementations. -/
def glslProgram (table : List (String × String)) (x : String) (fields : List (String × String)) : Program :=
  { items := (parse Source.glsl).getD [] ++ table.map (fun t => glslImpl t.1 t.2) ++ [glslStructImpl x fields]
    convTraits := [], stdTraits := [], convertName := "", restoreName := "" }

/-- The implementations of `Glsl` in that program: those of `src/glsl.rs:59-74` and those of the table. -/
def glslNames (table : List (String × String)) : List (String × String) :=
  [("f32", "float"), ("f64", "double"), ("i32", "int"), ("u32", "uint")] ++ table

end Crevice
