import Verif.Model.Writer
/-
Specification vocabulary: several Writers used one after the other on the same sink.
-/
namespace Crevice

/-- `for vs in vss { let mut w = Writer::new(&mut sink); for v in vs { w.write(v) } }`: for every
Writer the results of its writes and its final `len()`, and the sink at the end. -/
def sessions {σ ε : Type} (k : Sink σ ε) (s : σ) :
    List (List WVal) → List (List (Except ε Nat) × Nat) × σ
  | [] => ([], s)
  | vs :: r =>
    let h := (Writer.new s).history k vs
    let t := sessions k h.2.sink r
    ((h.1, h.2.len) :: t.1, t.2)

/-- The results of sessions without errors: for each the returned offsets and the final `len()`. -/
def okSessions {ε : Type} (rs : List (List Nat × Nat)) : List (List (Except ε Nat) × Nat) :=
  rs.map fun r => (r.1.map .ok, r.2)

end Crevice
