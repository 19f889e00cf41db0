import Verif.Model.Sink
/-
More implementations of `std::io::Write` that Writers are used with: `Cursor<&mut [u8]>`,
`Cursor<Vec<u8>>` and `&mut W`. Transcribed from the Rust standard library (library/std/src/io/cursor.rs
and library/std/src/io/impls.rs).
-/
namespace Crevice

/-- `io::Cursor`: a buffer and a position, which may be past its end. -/
structure CursorState where
  buf : List Byte
  pos : Nat

/-- `impl Write for Cursor<&mut [u8]>` (`slice_write_all`): copies as much as fits from the position
on, advances the position, and fails with `WriteZero` if not everything fit. -/
def cursorSliceSink : Sink CursorState Unit :=
  { writeAll := fun s bs =>
      let start := min s.pos s.buf.length
      let amt := min bs.length (s.buf.length - start)
      let s' : CursorState :=
        { buf := s.buf.take start ++ bs.take amt ++ s.buf.drop (start + amt), pos := s.pos + amt }
      if amt < bs.length then (.error (), s') else (.ok (), s')
    delivered := fun s => s.buf.take s.pos }

/-- The buffer of a `Cursor<Vec<u8>>` with zeros added up to the position (`reserve_and_pad`). -/
def CursorState.padded (s : CursorState) : List Byte :=
  s.buf ++ List.replicate (s.pos - s.buf.length) 0

/-- `impl Write for Cursor<Vec<u8>>` (`vec_write_all`): fills up to the position with zeros if it is
past the end, overwrites from there on and grows the vector if needed. -/
def cursorVecSink (ε : Type) : Sink CursorState ε :=
  { writeAll := fun s bs =>
      (.ok (), { buf := s.padded.take s.pos ++ bs ++ s.padded.drop (s.pos + bs.length)
                 pos := s.pos + bs.length })
    delivered := fun s => s.padded.take s.pos }

/-- `impl<W: Write + ?Sized> Write for &mut W`: calls the method of `W`. -/
def Sink.byRef {σ ε : Type} (k : Sink σ ε) : Sink σ ε :=
  { writeAll := fun s bs => k.writeAll s bs
    delivered := k.delivered }

end Crevice
