import Verif.Basic
/-
The part of Rust (rustc, core, bytemuck) that crevice relies on: types with a defined memory
layout, values, memory images in which padding bytes are *uninitialised*, `bytes_of`,
`from_bytes`, `zeroed`, struct literals. This file models the language, not crevice; it is part
of the trusted base (Rust Reference, "Type layout" and "Struct expressions"; bytemuck docs).
-/
namespace Crevice

/-- The primitive machine types that occur in crevice's Output types. -/
inductive Scalar
  | f32 | f64 | i32 | u32 | u8
  deriving DecidableEq, Repr

/-- `core::mem::size_of` of a primitive. -/
def Scalar.size : Scalar → Nat
  | .f32 => 4
  | .f64 => 8
  | .i32 => 4
  | .u32 => 4
  | .u8 => 1

/-- What rustc takes from the target: byte order and `align_of` of the primitives (for instance
`align_of::<f64>()` is 8 on x86_64 and 4 on i686). -/
structure Target where
  endian : Endian
  alignOf : Scalar → Nat

/-- Rust guarantees that the size of a type is a multiple of its alignment; for primitives that
makes the alignment a divisor of 1, 4 or 8 (so a power of two). -/
def Target.Valid (tg : Target) : Prop := ∀ s, tg.alignOf s ∣ s.size

/-- x86_64-unknown-linux-gnu, used in examples. -/
def x86_64 : Target := { endian := .little, alignOf := Scalar.size }

/-- i686-unknown-linux-gnu (`f64` is 4-aligned), used in examples. -/
def i686 : Target :=
  { endian := .little, alignOf := fun s => match s with | .f64 => 4 | s => s.size }

/-- Rust types with a specified layout: primitives, `bool`, arrays, `#[repr(transparent)]`
newtypes and `#[repr(C)]` structs. -/
inductive RTy
  | scalar (s : Scalar)
  | bool
  | array (elem : RTy) (len : Nat)
  | newtype (inner : RTy)
  | struct (fields : List (String × RTy))

/-- Rust values. Floats are their bit patterns (moves and copies preserve bits). -/
inductive RVal
  | scalar (s : Scalar) (bits : BitVec (8 * s.size))
  | bool (b : Bool)
  | array (elems : List RVal)
  | newtype (inner : RVal)
  | struct (fields : List (String × RVal))

/-! ### Type layout -/

/-- Rust Reference, "The C Representation": `padding_needed_for(offset, alignment)`. -/
def paddingFor (offset alignment : Nat) : Nat :=
  if offset % alignment > 0 then alignment - offset % alignment else 0

mutual
/-- `core::mem::align_of`. -/
def RTy.align (tg : Target) : RTy → Nat
  | .scalar s => tg.alignOf s
  | .bool => 1
  | .array t _ => RTy.align tg t
  | .newtype t => RTy.align tg t
  | .struct fs => alignFields tg fs
/-- Alignment of a `repr(C)` struct: the largest field alignment (1 if there is none). -/
def alignFields (tg : Target) : List (String × RTy) → Nat
  | [] => 1
  | (_, t) :: r => max (RTy.align tg t) (alignFields tg r)
end

mutual
/-- `core::mem::size_of`. -/
def RTy.size (tg : Target) : RTy → Nat
  | .scalar s => s.size
  | .bool => 1
  | .array t n => RTy.size tg t * n
  | .newtype t => RTy.size tg t
  | .struct fs =>
    endOfFields tg 0 fs + paddingFor (endOfFields tg 0 fs) (alignFields tg fs)
/-- The offset after the last field, laying fields out from `off` by the `repr(C)` rule. -/
def endOfFields (tg : Target) (off : Nat) : List (String × RTy) → Nat
  | [] => off
  | (_, t) :: r => endOfFields tg (off + paddingFor off (RTy.align tg t) + RTy.size tg t) r
end

/-- Field offsets of a `repr(C)` struct, laying fields out from `off`. -/
def fieldOffsets (tg : Target) (off : Nat) : List (String × RTy) → List (String × Nat)
  | [] => []
  | (n, t) :: r =>
    (n, off + paddingFor off (t.align tg)) ::
      fieldOffsets tg (off + paddingFor off (t.align tg) + t.size tg) r

mutual
/-- `core::mem::offset_of!(T, a.b.c)`: offset and type of a nested field. Transparent newtypes are
looked through. -/
def RTy.offsetOf (tg : Target) : RTy → List String → Option (Nat × RTy)
  | t, [] => some (0, t)
  | .newtype t, p => RTy.offsetOf tg t p
  | .struct fs, n :: p => offsetOfField tg 0 fs n p
  | _, _ => none
/-- Helper of `RTy.offsetOf` for the fields of a struct laid out from `off`. -/
def offsetOfField (tg : Target) (off : Nat) :
    List (String × RTy) → String → List String → Option (Nat × RTy)
  | [], _, _ => none
  | (m, t) :: r, n, p =>
    if m = n then
      (RTy.offsetOf tg t p).map fun (k, t') => (off + paddingFor off (RTy.align tg t) + k, t')
    else
      offsetOfField tg (off + paddingFor off (RTy.align tg t) + RTy.size tg t) r n p
end

/-! ### Values of a type -/

mutual
/-- `v` is a value of type `t`. -/
def RVal.HasTy : RTy → RVal → Prop
  | .scalar s, .scalar s' _ => s = s'
  | .bool, .bool _ => True
  | .array t n, .array vs => vs.length = n ∧ ∀ v ∈ vs, RVal.HasTy t v
  | .newtype t, .newtype v => RVal.HasTy t v
  | .struct fs, .struct vs => HasTys fs vs
  | _, _ => False
/-- Field by field, names included. -/
def HasTys : List (String × RTy) → List (String × RVal) → Prop
  | [], [] => True
  | (n, t) :: r, (m, v) :: s => n = m ∧ RVal.HasTy t v ∧ HasTys r s
  | _, _ => False
end

/-! ### Memory images -/

/-- The `n` low-order bytes of a number, least significant first. -/
def natToLE : Nat → Nat → List Byte
  | 0, _ => []
  | n + 1, x => BitVec.ofNat 8 x :: natToLE n (x / 256)

/-- The number whose bytes are given, least significant first. -/
def leToNat : List Byte → Nat
  | [] => 0
  | b :: bs => b.toNat + 256 * leToNat bs

/-- Memory of a primitive in the target's byte order. -/
def scalarBytes (e : Endian) (s : Scalar) (bits : BitVec (8 * s.size)) : List Byte :=
  match e with
  | .little => natToLE s.size bits.toNat
  | .big => (natToLE s.size bits.toNat).reverse

/-- Primitive from its memory. -/
def scalarOfBytes (e : Endian) (s : Scalar) (bs : List Byte) : BitVec (8 * s.size) :=
  match e with
  | .little => BitVec.ofNat _ (leToNat bs)
  | .big => BitVec.ofNat _ (leToNat bs.reverse)

mutual
/-- The memory of a value: `none` bytes are uninitialised (padding the compiler inserts). The
result is `none` when the value does not have the type. -/
def encode (tg : Target) : RTy → RVal → Option (List (Option Byte))
  | .scalar s, .scalar s' b =>
    if s = s' then some ((scalarBytes tg.endian s' b).map some) else none
  | .bool, .bool b => some [some (if b then 1 else 0)]
  | .array t n, .array vs =>
    if vs.length = n then (vs.mapM fun v => encode tg t v).map List.flatten else none
  | .newtype t, .newtype v => encode tg t v
  | .struct fs, .struct vs =>
    (encodeFields tg 0 fs vs).map fun img =>
      img ++ List.replicate
        (paddingFor (endOfFields tg 0 fs) (alignFields tg fs)) none
  | _, _ => none
/-- Memory of the fields of a struct, from offset `off`. -/
def encodeFields (tg : Target) (off : Nat) :
    List (String × RTy) → List (String × RVal) → Option (List (Option Byte))
  | [], [] => some []
  | (n, t) :: r, (m, v) :: s =>
    if n = m then
      (encode tg t v).bind fun img =>
        (encodeFields tg (off + paddingFor off (RTy.align tg t) + RTy.size tg t) r s).map
          fun rest => List.replicate (paddingFor off (RTy.align tg t)) none ++ img ++ rest
    else none
  | _, _ => none
end

/-- `bytemuck::bytes_of`: the bytes of a value. `none` when reading them would read uninitialised
memory (undefined behaviour) or the value is ill-typed. -/
def bytesOf (tg : Target) (t : RTy) (v : RVal) : Option (List Byte) :=
  (encode tg t v).bind fun img => img.mapM id

mutual
/-- `bytemuck::from_bytes`/`pod_read_unaligned`: the value with the given memory; `none` if the
length is wrong or the bytes are not a valid value (a `bool` other than 0/1). -/
def decode (tg : Target) : RTy → List Byte → Option RVal
  | .scalar s, bs =>
    if bs.length = s.size then some (.scalar s (scalarOfBytes tg.endian s bs)) else none
  | .bool, bs =>
    if bs = [0] then some (.bool false) else if bs = [1] then some (.bool true) else none
  | .array t n, bs =>
    if bs.length = RTy.size tg t * n then
      ((List.range n).mapM fun i =>
        decode tg t ((bs.drop (i * RTy.size tg t)).take (RTy.size tg t))).map .array
    else none
  | .newtype t, bs => (decode tg t bs).map .newtype
  | .struct fs, bs =>
    if bs.length = RTy.size tg (.struct fs) then
      (decodeFields tg 0 fs bs).map .struct
    else none
/-- The fields of a struct from the memory that starts at offset `off`. -/
def decodeFields (tg : Target) (off : Nat) :
    List (String × RTy) → List Byte → Option (List (String × RVal))
  | [], _ => some []
  | (n, t) :: r, bs =>
    (decode tg t ((bs.drop (paddingFor off (RTy.align tg t))).take (RTy.size tg t))).bind fun v =>
      (decodeFields tg (off + paddingFor off (RTy.align tg t) + RTy.size tg t) r
        (bs.drop (paddingFor off (RTy.align tg t) + RTy.size tg t))).map fun rest => (n, v) :: rest
end

mutual
/-- `bytemuck::Zeroable::zeroed()`: the value whose bytes are all zero. -/
def zeroed : RTy → RVal
  | .scalar s => .scalar s 0
  | .bool => .bool false
  | .array t n => .array (List.replicate n (zeroed t))
  | .newtype t => .newtype (zeroed t)
  | .struct fs => .struct (zeroedFields fs)
/-- Field by field. -/
def zeroedFields : List (String × RTy) → List (String × RVal)
  | [] => []
  | (n, t) :: r => (n, zeroed t) :: zeroedFields r
end

/-! ### Struct expressions -/

/-- Field access `v.name`. -/
def RVal.field (v : RVal) (name : String) : Option RVal :=
  match v with
  | .struct fs => fs.lookup name
  | _ => none

/-- `S { f: e, ..., ..base }`: every field of `S` (names `decl`, in declaration order) takes its
explicit initialiser if there is one and is copied from `base` otherwise. rustc rejects
initialisers that name no field or a field twice. -/
def structUpdate (decl : List String) (explicit : List (String × RVal)) (base : RVal) :
    Option RVal :=
  if (explicit.map Prod.fst).Nodup ∧ ∀ x ∈ explicit.map Prod.fst, x ∈ decl then
    (decl.mapM fun n =>
      match explicit.lookup n with
      | some v => some (n, v)
      | none => (base.field n).map fun v => (n, v)).map .struct
  else none

/-- `S { f: e, ... }` without a base: every field must be initialised exactly once. -/
def structNew (decl : List String) (explicit : List (String × RVal)) : Option RVal :=
  if (explicit.map Prod.fst).Nodup ∧ ∀ x ∈ explicit.map Prod.fst, x ∈ decl then
    (decl.mapM fun n => (explicit.lookup n).map fun v => (n, v)).map .struct
  else none

end Crevice
