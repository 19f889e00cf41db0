import Verif.Spec.Glsl
import Verif.Model.Writer
/-
Specification of what writing a sequence of values has to produce: every value at the next offset
that is a multiple of its alignment, zeros in between.
-/
namespace Crevice

mutual
/-- The StdN values inside a value, in the order they are written. -/
def WVal.leaves : WVal → List StdVal
  | .std x => [x]
  | .slice xs => leavesList xs
/-- Those of all items. -/
def leavesList : List WVal → List StdVal
  | [] => []
  | x :: r => WVal.leaves x ++ leavesList r
end

/-- The next offset at or after `off` for alignment `a`: the least multiple of `a` (`C01`);
alignment 0 means no requirement. -/
def nextOffset (off a : Nat) : Nat := if a = 0 then off else Glsl.roundUp off a

/-- Offsets at which the values go, starting from `off`. -/
def places (off : Nat) : List StdVal → List Nat
  | [] => []
  | x :: r => nextOffset off x.alignment :: places (nextOffset off x.alignment + x.bytes.length) r

/-- The offset after the last value. -/
def endOf (off : Nat) : List StdVal → Nat
  | [] => off
  | x :: r => endOf (nextOffset off x.alignment + x.bytes.length) r

/-- The bytes from offset `off` on: each value preceded by as many zeros as bring it to its
place. -/
def image (off : Nat) : List StdVal → List Byte
  | [] => []
  | x :: r =>
    List.replicate (nextOffset off x.alignment - off) 0 ++ x.bytes ++
      image (nextOffset off x.alignment + x.bytes.length) r

/-- The `write_all` calls that produce this image: single zeros, then the value in one piece. -/
def calls (off : Nat) : List StdVal → List (List Byte)
  | [] => []
  | x :: r =>
    List.replicate (nextOffset off x.alignment - off) [0] ++ x.bytes ::
      calls (nextOffset off x.alignment + x.bytes.length) r

/-- Issue calls one by one, stopping at the first error. -/
def runCalls {σ ε : Type} (k : Sink σ ε) (s : σ) : List (List Byte) → Except ε Unit × σ
  | [] => (.ok (), s)
  | c :: r =>
    match k.writeAll s c with
    | (.error e, s) => (.error e, s)
    | (.ok (), s) => runCalls k s r

/-- The offset a write returns: where its first element goes; the current position if there is
none. -/
def WVal.firstOffset (off : Nat) : WVal → Nat
  | .std x => nextOffset off x.alignment
  | .slice [] => off
  | .slice (x :: _) => WVal.firstOffset off x

/-- The size of the type is the number of bytes of its values (true of every Output type, `C15`). -/
def WVal.Wf (v : WVal) : Prop := ∀ x ∈ v.leaves, x.bytes.length = x.size

end Crevice
