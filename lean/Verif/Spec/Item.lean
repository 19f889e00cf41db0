import Verif.Model.Writer
/-
Specification vocabulary: a value of a convertible type, as passed to `Writer::write`.
-/
namespace Crevice

/-- A value of a convertible type with its bytes (`val.as_stdN().as_bytes()`) and the argument that
`Writer::write(&val)` works on. -/
structure Item (tg : Target) (env : ForeignEnv) (l : Layout) where
  ty : Ty
  val : RVal
  impl : Impl
  bytes : List Byte
  arg : WVal
  resolves : resolve tg env l ty = some impl
  hasVal : ty.HasVal tg env val
  /-- `bytes` is `val.as_stdN().as_bytes()` -/
  bytes_eq : (impl.asStd val).bind (bytesOf tg impl.out) = some bytes
  /-- `arg` is `&val` as a `WriteStdN` -/
  arg_eq : impl.wval tg val = some arg

/-- What a value `v` writes begins with a value: it is not, and does not begin with, an empty
slice. -/
def WVal.startsWithValue : WVal → Bool
  | .std _ => true
  | .slice [] => false
  | .slice (x :: _) => WVal.startsWithValue x

end Crevice
