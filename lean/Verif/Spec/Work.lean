import Verif.Spec.Calls
/-
Specification vocabulary for the compile-time work an expansion causes. It speaks only about the
generated functions, as a reader of the expanded code would count.
-/
namespace Crevice

/-- `Runs fns fs k`: calling the functions `fs` one after the other, where a call executes the body
of the function and that executes every call it contains, makes `k` function executions. -/
inductive Runs {α : Type} (fns : List (String × CExpr α)) : List String → Nat → Prop
  | nil : Runs fns [] 0
  | cons {f : String} {body : CExpr α} {rest : List String} {a b : Nat} :
      fns.lookup f = some body → Runs fns body.calls a → Runs fns rest b →
      Runs fns (f :: rest) (1 + a + b)

/-- The calls that stand as array lengths in the generated struct, in field order. -/
def Generated.lengthCalls {α : Type} (g : Generated α) : List String :=
  g.fields.filterMap fun x => match x.2 with
    | .layoutOf _ => none
    | .padBytes f => some f

/-- How many calls of padding functions the text of the padding functions contains. -/
def Generated.callSites {α : Type} (g : Generated α) : Nat :=
  (g.padFns.map fun x => x.2.calls.length).sum

end Crevice
