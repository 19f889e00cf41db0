import Lean.Meta.Tactic.Simp.RegisterCommand
/-
The set of equations by which macros are executed symbolically (`Proof/Macro.lean`).
-/

/-- Equations of the interpreter `RustMacro.eval`. -/
register_simp_attr rustMacro
