import Verif.Spec.Image
import Verif.Model.Unwind
/-
What unwinding client code should do to a Writer: nothing more than has been done before it.
-/
namespace Crevice

mutual
/-- The values an argument is made of, in order; `none` where a conversion (or a `next`) unwinds. -/
def UVal.parts : UVal → List (Option StdVal)
  | .std x => [some x]
  | .panics _ => [none]
  | .slice xs => UVal.partsList xs
/-- Those of all items. -/
def UVal.partsList : List UVal → List (Option StdVal)
  | [] => []
  | x :: r => UVal.parts x ++ UVal.partsList r
end

/-- Some conversion unwinds. -/
def UVal.panicking (u : UVal) : Bool := u.parts.any Option.isNone

/-- The values before the first one that unwinds. -/
def UVal.before (u : UVal) : List StdVal := (u.parts.takeWhile Option.isSome).filterMap id

mutual
/-- The argument as one of the Writer without panics (`WVal`); only of interest if nothing unwinds. -/
def UVal.plain : UVal → WVal
  | .std x => .std x
  | .panics _ => .slice []
  | .slice xs => .slice (UVal.plainList xs)
/-- Item by item. -/
def UVal.plainList : List UVal → List WVal
  | [] => []
  | x :: r => UVal.plain x :: UVal.plainList r
end

/-- What is written in place of `u`: all of it, or the values before the panic. -/
def UVal.written (u : UVal) : WVal :=
  if u.panicking then .slice (u.before.map .std) else u.plain

/-- A sink that may unwind, as one that fails: the error is `none` for a panic. -/
def PSink.asSink {σ ε : Type} (k : PSink σ ε) : Sink σ (Option ε) :=
  { writeAll := fun s bs =>
      match k.writeAll s bs with
      | (.returned (.ok ()), s') => (.ok (), s')
      | (.returned (.error e), s') => (.error (some e), s')
      | (.unwinds, s') => (.error none, s')
    delivered := k.delivered }

/-- How the call for `u` ends, given the result of writing `u.written` to `k.asSink`. -/
def UVal.ends {ε : Type} (u : UVal) : Except (Option ε) Nat → Outcome (Except ε Nat)
  | .error none => .unwinds
  | .error (some e) => .returned (.error e)
  | .ok o => if u.panicking then .unwinds else .returned (.ok o)

end Crevice
