import Verif.Proof.TextDefs
/-
What the text of the crate says about its types: glam and nalgebra.
-/
namespace Crevice.Tables
open RustCode RustTypes TypeNames

section
variable (env : ForeignEnv) (k : Nat) (l : Layout)

/-! ### Rows of `minty_impl!` -/

theorem minty_as :
    mintyRows.map (fun r => (G env (k + 3)).candidates [mod l, asTrait l] [] (foreignCTy r.foreign)) =
      mintyRows.map fun r => some [mintyFound l (foreignCTy r.foreign) (mathRustTy r.mint)] := by
  cases l <;> kernel_rfl

theorem minty_norm :
    mintyRows.map (fun r => (G env (k + 2)).norm topScope (foreignRustTy r.foreign)) =
      mintyRows.map fun r => some (foreignCTy r.foreign) := by
  kernel_rfl

theorem minty_mint (a : List (String × RustCode.Ty)) :
    mintyRows.map (fun r => (G env (k + 2)).norm ⟨"imp", [("Self", foreignCTy r.foreign)], a, []⟩ (mathRustTy r.mint)) =
      mintyRows.map fun r => some (mathCTy r.mint) := by
  kernel_rfl

theorem minty_from :
    mintyRows.map (fun r => ((G env (k + 1)).candidates ["From"] [foreignCTy r.foreign] (mathCTy r.mint),
        (G env (k + 1)).candidates ["From"] [mathCTy r.mint] (foreignCTy r.foreign))) =
      mintyRows.map fun _ => (some [], some []) := by
  kernel_rfl

theorem minty_into :
    mintyRows.map (fun r => ((outside env).into (foreignCTy r.foreign) (mathCTy r.mint),
        (outside env).into (mathCTy r.mint) (foreignCTy r.foreign))) =
      mintyRows.map fun r => (env.into r.foreign, env.ofMint r.foreign) := by
  kernel_rfl

end

end Crevice.Tables
