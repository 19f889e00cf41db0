import Verif.Model.Writer
/-
User-written implementations of `WriteStdN` (`src/std140/traits.rs:106-130`,
`src/std430/traits.rs:106-130`), as in the documentation of the trait. The body of `write_stdN` is
generic in the sink, and the fields of `Writer` are private, so all it can do with its Writer is
call the public methods: `write_stdN`, `len`, and `write`, `write_iter`, `write_slice`, which come
down to the first two. A body is therefore a tree of such calls; it may look at the results, recover
from errors, and return any offset or error. Bodies that do not terminate are not modelled.
-/
namespace Crevice

/-- The body of an implementation of `write_stdN`, as it acts on its Writer. -/
inductive Prog (ε : Type)
  /-- return a result -/
  | ret (r : Except ε Nat)
  /-- `let n = writer.len(); ..` -/
  | len (k : Nat → Prog ε)
  /-- `let r = writer.write_stdN(&x); ..` -/
  | writeStd (x : StdVal) (k : Except ε Nat → Prog ε)

/-- Run a body on a Writer. -/
def Prog.run {σ ε : Type} (s : Sink σ ε) : Prog ε → Writer σ → Except ε Nat × Writer σ
  | .ret r, w => (r, w)
  | .len k, w => Prog.run s (k w.len) w
  | .writeStd x k, w => Prog.run s (k (w.writeStd s x).1) (w.writeStd s x).2

/-- `let r = value.write_stdN(writer); f(r)`, where `p` is the body for `value`. Also
`let r = writer.write(&value); f(r)` (`writer.rs:94-99`). -/
def Prog.bind {ε : Type} (p : Prog ε) (f : Except ε Nat → Prog ε) : Prog ε :=
  match p with
  | .ret r => f r
  | .len k => .len fun n => Prog.bind (k n) f
  | .writeStd x k => .writeStd x fun r => Prog.bind (k r) f

/-- `let o = writer.write(&value)?; f(o)`. -/
def Prog.andThen {ε : Type} (p : Prog ε) (f : Nat → Prog ε) : Prog ε :=
  p.bind fun r =>
    match r with
    | .ok o => f o
    | .error e => .ret (.error e)

/-- `for item in iter { item.write_stdN(writer)?; } Ok(offset)` (`traits.rs:160-164`,
`writer.rs:118-122`). -/
def Prog.sliceRest {ε : Type} (offset : Nat) : List (Prog ε) → Prog ε
  | [] => .ret (.ok offset)
  | p :: r => p.andThen fun _ => Prog.sliceRest offset r

/-- `impl WriteStdN for [T]` (`traits.rs:146-165`), with the bodies of the elements. The text of
`Writer::write_iter` (`writer.rs:105-123`) is the same. -/
def Prog.slice {ε : Type} (ps : List (Prog ε)) : Prog ε :=
  .len fun offset =>
    match ps with
    | [] => .ret (.ok offset)
    | p :: r => p.andThen fun offset => Prog.sliceRest offset r

mutual
/-- The bodies for `AsStdN` values (`traits.rs:132-139`) and for slices of them. -/
def WVal.prog (ε : Type) : WVal → Prog ε
  | .std x => .writeStd x .ret
  | .slice xs => Prog.slice (WVal.progs ε xs)
/-- Element by element. -/
def WVal.progs (ε : Type) : List WVal → List (Prog ε)
  | [] => []
  | x :: r => WVal.prog ε x :: WVal.progs ε r
end

/-- The provided method `stdN_size` (`traits.rs:125-129`) and the one of slices
(`traits.rs:167-171`): `len()` after writing to `io::sink()`, `none` if the `unwrap` panics. -/
def Prog.stdSize {ε : Type} (p : Prog ε) : Option Nat :=
  match p.run (nullSink ε) (Writer.new []) with
  | (.ok _, w) => some w.len
  | (.error _, _) => none

end Crevice
