import Verif.Basic
/-
`std::io::Write` as the Writer uses it: only `write_all` is ever called. The std implementations
used here are transcribed from the Rust standard library (library/std/src/io).
-/
namespace Crevice

/-- An implementation of `std::io::Write`: `write_all` returns a result and the sink afterwards.
`σ` is the type of the sink, `ε` of its errors (`io::Error`). -/
structure Sink (σ ε : Type) where
  writeAll : σ → List Byte → Except ε Unit × σ
  /-- observation: all bytes the sink has received so far -/
  delivered : σ → List Byte

/-- The contract of `write_all`: on `Ok` exactly the given bytes have been received, on `Err` some
prefix of them ("it is unspecified how many bytes have been written"). -/
structure Sink.Lawful {σ ε : Type} (k : Sink σ ε) : Prop where
  ok : ∀ s bs s', k.writeAll s bs = (.ok (), s') → k.delivered s' = k.delivered s ++ bs
  err : ∀ s bs e s', k.writeAll s bs = (.error e, s') →
    ∃ p, p <+: bs ∧ k.delivered s' = k.delivered s ++ p

/-- A sink that never fails. -/
def Sink.Infallible {σ ε : Type} (k : Sink σ ε) : Prop := ∀ s bs, ∃ s', k.writeAll s bs = (.ok (), s')

/-- `impl Write for Vec<u8>`: `extend_from_slice`. -/
def vecSink (ε : Type) : Sink (List Byte) ε :=
  { writeAll := fun s bs => (.ok (), s ++ bs)
    delivered := id }

/-- `io::sink()`: accepts and drops everything. The state counts for the observation only. -/
def nullSink (ε : Type) : Sink (List Byte) ε :=
  { writeAll := fun s bs => (.ok (), s ++ bs)
    delivered := id }

/-- A `&mut [u8]`: the bytes already filled and the rest of the slice, still with its old
contents. -/
structure SliceState where
  filled : List Byte
  rest : List Byte

/-- `impl Write for &mut [u8]`: `write` copies as much as fits and advances; `write_all` fails with
`WriteZero` if not everything fit. -/
def sliceSink : Sink SliceState Unit :=
  { writeAll := fun s bs =>
      let amt := min bs.length s.rest.length
      let s' : SliceState := { filled := s.filled ++ bs.take amt, rest := s.rest.drop amt }
      if amt < bs.length then (.error (), s') else (.ok (), s')
    delivered := SliceState.filled }

/-- The whole buffer behind a `&mut [u8]`. -/
def SliceState.buffer (s : SliceState) : List Byte := s.filled ++ s.rest

/-- What one call of `Write::write` does: accept up to `n` bytes, be interrupted, or fail. -/
inductive Event (ε : Type)
  | accept (n : Nat)
  | interrupted
  | fail (e : ε)

/-- A sink that follows an arbitrary schedule and accepts everything once the schedule is over. -/
structure Scheduled (ε : Type) where
  received : List Byte
  schedule : List (Event ε)

/-- The default `Write::write_all` loop run against a scheduled sink: retry on interruption,
continue after a short write, fail with `zero` (`ErrorKind::WriteZero`) when `write` returns
`Ok(0)`. -/
def scheduledLoop {ε : Type} (zero : ε) :
    List (Event ε) → List Byte → List Byte → Except ε Unit × Scheduled ε
  | evs, got, [] => (.ok (), { received := got, schedule := evs })
  | [], got, bs => (.ok (), { received := got ++ bs, schedule := [] })
  | .interrupted :: evs, got, bs => scheduledLoop zero evs got bs
  | .fail e :: evs, got, _ => (.error e, { received := got, schedule := evs })
  | .accept n :: evs, got, b :: bs =>
    if n = 0 then (.error zero, { received := got, schedule := evs })
    else scheduledLoop zero evs (got ++ (b :: bs).take n) ((b :: bs).drop n)

/-- A sink with the default `write_all` and an arbitrary `write`. -/
def scheduledSink {ε : Type} (zero : ε) : Sink (Scheduled ε) ε :=
  { writeAll := fun s bs => scheduledLoop zero s.schedule s.received bs
    delivered := Scheduled.received }

end Crevice
