import Verif.Model.Sink
/-
`std::io::BufWriter<W>` (library/std/src/io/buffered/bufwriter.rs) as a sink for a Writer. This is
code of the standard library, modelled because users put it between a Writer and a file.
-/
namespace Crevice

/-- `struct BufWriter<W>`: the inner writer and the bytes held back. -/
structure Buffered (σ : Type) where
  inner : σ
  held : List Byte

/-- `BufWriter::new(inner)`. -/
def Buffered.new {σ : Type} (s : σ) : Buffered σ := { inner := s, held := [] }

/-- `BufWriter::flush_buf`: hand the held bytes to the inner writer. After an error those it has
accepted are removed from the buffer (`BufGuard`), the rest stay. The loop over `inner.write` is
`write_all`. -/
def Buffered.flush {σ ε : Type} (k : Sink σ ε) (s : Buffered σ) : Except ε Unit × Buffered σ :=
  match k.writeAll s.inner s.held with
  | (.ok (), t) => (.ok (), { inner := t, held := [] })
  | (.error e, t) =>
    (.error e,
      { inner := t, held := s.held.drop ((k.delivered t).length - (k.delivered s.inner).length) })

/-- `impl Write for BufWriter<W>`: `write_all` and `write_all_cold`, for a buffer of `capacity` bytes.
"Received" are the bytes the inner writer has and those held back. -/
def Sink.buffered {σ ε : Type} (capacity : Nat) (k : Sink σ ε) : Sink (Buffered σ) ε :=
  { writeAll := fun s bs =>
      if bs.length < capacity - s.held.length then
        (.ok (), { s with held := s.held ++ bs })
      else
        match (if capacity - s.held.length < bs.length then s.flush k else (.ok (), s)) with
        | (.error e, s) => (.error e, s)
        | (.ok (), s) =>
          if capacity ≤ bs.length then
            match k.writeAll s.inner bs with
            | (r, t) => (r, { s with inner := t })
          else (.ok (), { s with held := s.held ++ bs })
    delivered := fun s => k.delivered s.inner ++ s.held }

end Crevice
