import Lean.Meta.Tactic.Simp.RegisterCommand
/-
The set of equations by which programs are executed symbolically (`Proof/Run.lean`).
-/

/-- Equations of the interpreter `RustCode.eval`. -/
register_simp_attr rust
