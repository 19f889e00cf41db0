import Verif.Model.Writer
/-
Panics in client code that runs inside `Writer` methods (`src/std140/writer.rs:94-161`,
`src/std140/traits.rs:106-173` and the std430 files): a user's `as_stdN`, the `next` of the iterator
given to `write_iter`, or `write_all` of the sink may unwind. The Writer has no `Drop` and no
`catch_unwind`, so the unwinding passes through to the caller, who may catch it and use the Writer
again.
-/
namespace Crevice

/-- How a call ends: it returns, or it unwinds. -/
inductive Outcome (α : Type)
  | returned (a : α)
  | unwinds

/-- `std::io::Write` with a `write_all` that may unwind. -/
structure PSink (σ ε : Type) where
  writeAll : σ → List Byte → Outcome (Except ε Unit) × σ
  /-- observation: all bytes the sink has received so far -/
  delivered : σ → List Byte

/-- An argument of `Writer::write`. -/
inductive UVal
  /-- a value of an `AsStdN` type, after `as_stdN` -/
  | std (x : StdVal)
  /-- a value whose `as_stdN` unwinds; `size` is `size_of::<Output>()`. Among the items of an
  iterator also a `next` that unwinds. -/
  | panics (size : Nat)
  /-- a slice, or the items of an iterator -/
  | slice (xs : List UVal)

/-- `for _ in 0..n { self.writer.write_all(&[0])?; }` (`writer.rs:132-134`). -/
def writeZerosU {σ ε : Type} (k : PSink σ ε) : Nat → σ → Outcome (Except ε Unit) × σ
  | 0, s => (.returned (.ok ()), s)
  | n + 1, s =>
    match k.writeAll s [0] with
    | (.returned (.ok ()), s') => writeZerosU k n s'
    | (.returned (.error e), s') => (.returned (.error e), s')
    | (.unwinds, s') => (.unwinds, s')

/-- `Writer::write_stdN` (`writer.rs:126-144`). -/
def Writer.writeStdU {σ ε : Type} (k : PSink σ ε) (w : Writer σ) (v : StdVal) :
    Outcome (Except ε Nat) × Writer σ :=
  let padding := alignOffset w.offset v.alignment
  match writeZerosU k padding w.sink with
  | (.unwinds, s) => (.unwinds, { w with sink := s })
  | (.returned (.error e), s) => (.returned (.error e), { w with sink := s })
  | (.returned (.ok ()), s) =>
    let w : Writer σ := { sink := s, offset := w.offset + padding }
    match k.writeAll w.sink v.bytes with
    | (.unwinds, s) => (.unwinds, { w with sink := s })
    | (.returned (.error e), s) => (.returned (.error e), { w with sink := s })
    | (.returned (.ok ()), s) =>
      let writeHere := w.offset
      (.returned (.ok writeHere), { sink := s, offset := w.offset + v.size })

mutual
/-- `Writer::write` (`writer.rs:94-99`). For a value, `writer.write_stdN(&self.as_stdN())`
(`traits.rs:137-139`): the conversion is evaluated before `write_stdN` is entered. For a slice, the
loop of `traits.rs:150-165`; `Writer::write_iter` (`writer.rs:105-123`) has the same text. -/
def Writer.writeU {σ ε : Type} (k : PSink σ ε) (w : Writer σ) :
    UVal → Outcome (Except ε Nat) × Writer σ
  | .std x => w.writeStdU k x
  | .panics _ => (.unwinds, w)
  | .slice [] => (.returned (.ok w.len), w)
  | .slice (x :: xs) =>
    match Writer.writeU k w x with
    | (.unwinds, w) => (.unwinds, w)
    | (.returned (.error e), w) => (.returned (.error e), w)
    | (.returned (.ok offset), w) =>
      match Writer.writeRestU k w xs with
      | (.unwinds, w) => (.unwinds, w)
      | (.returned (.error e), w) => (.returned (.error e), w)
      | (.returned (.ok ()), w) => (.returned (.ok offset), w)
/-- `for item in iter { item.write_stdN(writer)?; }` (`traits.rs:160-162`, `writer.rs:118-120`). -/
def Writer.writeRestU {σ ε : Type} (k : PSink σ ε) (w : Writer σ) :
    List UVal → Outcome (Except ε Unit) × Writer σ
  | [] => (.returned (.ok ()), w)
  | x :: xs =>
    match Writer.writeU k w x with
    | (.unwinds, w) => (.unwinds, w)
    | (.returned (.error e), w) => (.returned (.error e), w)
    | (.returned (.ok _), w) => Writer.writeRestU k w xs
end

/-- `io::sink()` (`library/std/src/io/util.rs`); the state is the observation. -/
def nullPSink : PSink (List Byte) Unit :=
  { writeAll := fun s bs => (.returned (.ok ()), s ++ bs)
    delivered := id }

/-- A `Vec<u8>`. -/
def vecPSink (ε : Type) : PSink (List Byte) ε :=
  { writeAll := fun s bs => (.returned (.ok ()), s ++ bs)
    delivered := id }

/-- `WriteStdN::stdN_size`: for a value `size_of::<Output>()` (`traits.rs:141-143`), without a
conversion; for a slice `len()` after writing to `io::sink()` (`traits.rs:167-171`). -/
def UVal.stdSize : UVal → Outcome Nat
  | .std x => .returned x.size
  | .panics size => .returned size
  | .slice xs =>
    match (Writer.new []).writeU nullPSink (.slice xs) with
    | (.returned (.ok _), w) => .returned w.len
    | (.returned (.error _), _) => .unwinds
    | (.unwinds, _) => .unwinds

/-- A client that writes the values one after the other with the same Writer, catching the panics
(`std::panic::catch_unwind`) and going on after them and after errors. -/
def Writer.historyU {σ ε : Type} (k : PSink σ ε) (w : Writer σ) :
    List UVal → List (Outcome (Except ε Nat)) × Writer σ
  | [] => ([], w)
  | u :: us =>
    let (r, w) := w.writeU k u
    let (rs, w) := Writer.historyU k w us
    (r :: rs, w)

end Crevice
