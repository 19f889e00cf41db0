import Lean.Elab.Tactic.Basic
import Lean.Meta.AppBuilder
/-
A tactic that closes `a = b` by `Eq.refl a` and leaves the comparison to the kernel. (The tactic `rfl` lets the
elaborator compare first, which is slow for long computations.)
-/
open Lean Elab Tactic Meta

/-- Reflexivity, checked by the kernel only. -/
elab "kernel_rfl" : tactic => do
  let g ← getMainGoal
  let t ← instantiateMVars (← g.getType)
  match t.eq? with
  | some (_, a, _) => g.assign (← mkEqRefl a)
  | none => throwError "not an equation"
