import Verif.Spec.Overwrite
import Verif.Spec.Rename
/-
Specification vocabulary: fields at any depth.
-/
namespace Crevice

/-- `v.a.b.c` -/
def RVal.atPath : RVal → List String → Option RVal
  | v, [] => some v
  | v, n :: p => (v.field n).bind fun x => x.atPath p

/-- `SamePath t u p q`: the path `p` in `t` and the path `q` in `u` lead through fields at the same
positions, whatever their names. -/
inductive SamePath : Ty → Ty → List String → List String → Prop
  | nil {t u} : SamePath t u [] []
  | cons {n n' fs gs k x y a b p q} (hk : k < fs.length) (hk' : k < gs.length) :
      fs[k] = (x, a) → gs[k] = (y, b) → SamePath a b p q →
      SamePath (.struct n fs) (.struct n' gs) (x :: p) (y :: q)

/-- A sink that remembers whether a call to it has failed. -/
def Sink.watched {σ ε : Type} (k : Sink σ ε) : Sink (σ × Bool) ε :=
  { writeAll := fun s bs =>
      match k.writeAll s.1 bs with
      | (.ok (), s') => (.ok (), (s', s.2))
      | (.error e, s') => (.error e, (s', true))
    delivered := fun s => k.delivered s.1 }

end Crevice
