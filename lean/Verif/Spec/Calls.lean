import Verif.Model.Derive
/-
Specification vocabulary for the code the derive generates: which functions an expression calls,
and which item names an expansion introduces.
-/
namespace Crevice

mutual
/-- The functions called in an expression. -/
def CExpr.calls {α : Type} : CExpr α → List String
  | .lit _ => []
  | .sizeOf _ => []
  | .alignmentOf _ => []
  | .call f => [f]
  | .add a b => CExpr.calls a ++ CExpr.calls b
  | .alignOffset o a => CExpr.calls o ++ CExpr.calls a
  | .maxArr args => callsArgs args
/-- The functions called in the elements of an array literal. -/
def callsArgs {α : Type} : List (CExpr α) → List String
  | [] => []
  | a :: r => CExpr.calls a ++ callsArgs r
end

/-- Names of the items an expansion adds to the enclosing module. -/
def Generated.itemNames {α : Type} (g : Generated α) : List String :=
  g.structName :: g.padFns.map Prod.fst

end Crevice
