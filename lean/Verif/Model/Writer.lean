import Verif.Model.Internal
import Verif.Model.Types
import Verif.Model.Sink
/-
Model of `src/std140/writer.rs`, `src/std140/sizer.rs` and the `WriteStd140` trait
(`src/std140/traits.rs:106-173`). The std430 files are the same text with 140 replaced by 430
(except that std430's Writer lacks the deprecated `write_slice`).
-/
namespace Crevice

/-- A value of a type `T: StdN`, as much of it as the Writer looks at. -/
structure StdVal where
  /-- `T::ALIGNMENT` -/
  alignment : Nat
  /-- `size_of::<T>()` -/
  size : Nat
  /-- `bytes_of(&value)` -/
  bytes : List Byte

/-- The view of a value `o` of an Output type. -/
def Impl.stdVal (tg : Target) (i : Impl) (o : RVal) : Option StdVal :=
  (bytesOf tg i.out o).map fun bs => { alignment := i.alignment, size := i.out.size tg, bytes := bs }

/-- A value that implements `WriteStdN`: a value of an `AsStdN` type (`traits.rs:132-144`), after
`as_stdN`, or a slice of such values (`traits.rs:146-172`). -/
inductive WVal
  | std (x : StdVal)
  | slice (xs : List WVal)

/-- `&T` with `T: AsStdN` as an argument of `Writer::write`: `self.as_stdN()`
(`traits.rs:137-139`). -/
def Impl.wval (tg : Target) (i : Impl) (v : RVal) : Option WVal :=
  (i.asStd v).bind fun o => (i.stdVal tg o).map .std

/-- `struct Writer<W>` (`writer.rs:78-81`). -/
structure Writer (σ : Type) where
  sink : σ
  offset : Nat

/-- `Writer::new` (`writer.rs:86-88`). -/
def Writer.new {σ : Type} (sink : σ) : Writer σ := { sink := sink, offset := 0 }

/-- `Writer::len` (`writer.rs:159-161`). -/
def Writer.len {σ : Type} (w : Writer σ) : Nat := w.offset

/-- `for _ in 0..n { self.writer.write_all(&[0])?; }` (`writer.rs:132-134`). -/
def writeZeros {σ ε : Type} (k : Sink σ ε) : Nat → σ → Except ε Unit × σ
  | 0, s => (.ok (), s)
  | n + 1, s =>
    match k.writeAll s [0] with
    | (.ok (), s') => writeZeros k n s'
    | (.error e, s') => (.error e, s')

/-- `Writer::write_stdN` (`writer.rs:126-144`). `value.as_stdN()` there is the identity
(`traits.rs:91-104`). -/
def Writer.writeStd {σ ε : Type} (k : Sink σ ε) (w : Writer σ) (v : StdVal) :
    Except ε Nat × Writer σ :=
  let padding := alignOffset w.offset v.alignment
  match writeZeros k padding w.sink with
  | (.error e, s) => (.error e, { w with sink := s })
  | (.ok (), s) =>
    let w : Writer σ := { sink := s, offset := w.offset + padding }
    match k.writeAll w.sink v.bytes with
    | (.error e, s) => (.error e, { w with sink := s })
    | (.ok (), s) =>
      let writeHere := w.offset
      (.ok writeHere, { sink := s, offset := w.offset + v.size })

mutual
/-- `Writer::write` (`writer.rs:94-99`), i.e. `value.write_stdN(self)`, for both kinds of values
(`traits.rs:132-139,146-165`). -/
def Writer.write {σ ε : Type} (k : Sink σ ε) (w : Writer σ) : WVal → Except ε Nat × Writer σ
  | .std x => w.writeStd k x
  | .slice [] => (.ok w.len, w)
  | .slice (x :: xs) =>
    match Writer.write k w x with
    | (.error e, w) => (.error e, w)
    | (.ok offset, w) =>
      match Writer.writeRest k w xs with
      | (.error e, w) => (.error e, w)
      | (.ok (), w) => (.ok offset, w)
/-- `for item in iter { item.write_stdN(writer)?; }` (`traits.rs:160-162`, `writer.rs:118-120`). -/
def Writer.writeRest {σ ε : Type} (k : Sink σ ε) (w : Writer σ) :
    List WVal → Except ε Unit × Writer σ
  | [] => (.ok (), w)
  | x :: xs =>
    match Writer.write k w x with
    | (.error e, w) => (.error e, w)
    | (.ok _, w) => Writer.writeRest k w xs
end

/-- `Writer::write_iter` (`writer.rs:105-123`). The iterator is the list of items it yields. -/
def Writer.writeIter {σ ε : Type} (k : Sink σ ε) (w : Writer σ) (items : List WVal) :
    Except ε Nat × Writer σ :=
  match items with
  | [] => (.ok w.offset, w)
  | x :: xs =>
    match w.write k x with
    | (.error e, w) => (.error e, w)
    | (.ok offset, w) =>
      match w.writeRest k xs with
      | (.error e, w) => (.error e, w)
      | (.ok (), w) => (.ok offset, w)

/-- `Writer::write_slice` (`std140/writer.rs:147-156`, deprecated). -/
def Writer.writeSlice {σ ε : Type} (k : Sink σ ε) (w : Writer σ) (items : List WVal) :
    Except ε Nat × Writer σ := w.write k (.slice items)

/-- `WriteStdN::stdN_size`: `size_of::<Output>()` for `AsStdN` types (`traits.rs:141-143`), and for
slices (`traits.rs:167-171`) the `len()` of a Writer on `io::sink()`; `none` if the `unwrap`
panics. -/
def WVal.stdSize : WVal → Option Nat
  | .std x => some x.size
  | .slice xs =>
    match (Writer.new []).write (nullSink Unit) (.slice xs) with
    | (.ok _, w) => some w.len
    | (.error _, _) => none

/-- The provided method `WriteStdN::stdN_size` (`traits.rs:125-129`), which custom implementations
inherit. -/
def WVal.stdSizeDefault (v : WVal) : Option Nat :=
  match (Writer.new []).write (nullSink Unit) v with
  | (.ok _, w) => some w.len
  | (.error _, _) => none

/-- A client program: write the values one after the other, going on after errors. -/
def Writer.history {σ ε : Type} (k : Sink σ ε) (w : Writer σ) :
    List WVal → List (Except ε Nat) × Writer σ
  | [] => ([], w)
  | v :: vs =>
    let (r, w) := w.write k v
    let (rs, w) := Writer.history k w vs
    (r :: rs, w)

/-! ### Sizer -/

/-- `struct Sizer` (`sizer.rs:48-50`). -/
structure Sizer where
  offset : Nat

/-- `Sizer::new` (`sizer.rs:54-56`). -/
def Sizer.new : Sizer := { offset := 0 }

/-- `Sizer::len` (`sizer.rs:78-80`). -/
def Sizer.len (s : Sizer) : Nat := s.offset

/-- `Sizer::add::<T>` (`sizer.rs:60-74`), where `i` is `T`'s implementation. -/
def Sizer.add (tg : Target) (s : Sizer) (i : Impl) : Nat × Sizer :=
  let size := i.out.size tg
  let alignment := i.alignment
  let padding := alignOffset s.offset alignment
  let offset := s.offset + padding
  let writeHere := offset
  (writeHere, { offset := offset + size })

/-- A client program: add the types one after the other. -/
def Sizer.addAll (tg : Target) (s : Sizer) : List Impl → List Nat × Sizer
  | [] => ([], s)
  | i :: is =>
    let (o, s) := s.add tg i
    let (os, s) := Sizer.addAll tg s is
    (o :: os, s)

end Crevice
