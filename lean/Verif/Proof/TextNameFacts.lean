import Verif.Proof.TextDefs
/-
What the text of the crate says about its types: `Glsl::NAME`, the rows of the tables.
-/
namespace Crevice.Tables
open RustCode RustTypes TypeNames

section
variable (env : ForeignEnv)

theorem prims_name (k : Nat) (l : Layout) :
    (primNames l).map (fun n => nameOf (G env (k + 2)) (primCTy l n)) =
      (primNames l).map fun n => (l.primitive n).map fun p => p.glsl := by
  cases l <;> kernel_rfl

theorem scalars_name (k : Nat) :
    [Scalar.f32, .f64, .i32, .u32, .u8].map (fun s => nameOf (G env (k + 2)) (simpleCTy (scalarName s))) =
      [Scalar.f32, .f64, .i32, .u32, .u8].map scalarGlslName := by
  kernel_rfl

theorem easy_name (k : Nat) :
    easyRows.map (fun r => nameOf (G env (k + 4)) (mathCTy r.ty)) = easyRows.map fun r => mathGlslName r.ty := by
  kernel_rfl

theorem noRow_name (k : Nat) :
    (allMath.filter fun x => !hasRow x).map (fun x => (G env (k + 1)).candidates ["glsl", "Glsl"] [] (rawMath x)) =
      (allMath.filter fun x => !hasRow x).map fun _ => some [] := by
  kernel_rfl

theorem minty_name (k : Nat) :
    mintyRows.map (fun r => nameOf (G env (k + 6)) (foreignCTy r.foreign)) =
      mintyRows.map fun r => mathGlslName r.mint := by
  kernel_rfl

theorem foreign_nameHead (k : Nat) (lib name : String) (cs : List CTy) (hl : lib = "glam" ∨ lib = "nalgebra") :
    filterMapM (applies jx (G env k) [] (.named [lib, name] cs)) (glslDefs.take (glslDefs.length - mintyRows.length)) =
      some [] := by
  rcases hl with rfl | rfl <;> kernel_rfl

end

end Crevice.Tables
