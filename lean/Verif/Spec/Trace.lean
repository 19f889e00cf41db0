import Verif.Model.Sink
/-
Specification vocabulary for the calls a Writer makes to its sink.
-/
namespace Crevice

/-- The same sink, but it also writes down the argument of every `write_all` call. -/
def Sink.recording {σ ε : Type} (k : Sink σ ε) : Sink (σ × List (List Byte)) ε :=
  { writeAll := fun s bs => ((k.writeAll s.1 bs).1, ((k.writeAll s.1 bs).2, s.2 ++ [bs]))
    delivered := fun s => k.delivered s.1 }

/-- The calls that bring values (given by their offset and bytes) to their places, from position `cur`
on: single zero bytes up to the offset of a value, then the value in one piece. -/
def deliveries (cur : Nat) : List (Nat × List Byte) → List (List Byte)
  | [] => []
  | (o, bs) :: r => List.replicate (o - cur) [0] ++ [bs] ++ deliveries (o + bs.length) r

end Crevice
