import Verif.Basic
/-
Specification: GLSL types, the std140 and std430 layout rules, and what a shader reads from a
buffer. Written from the OpenGL 4.6 core specification, section 7.6.2.2 "Standard Uniform Block
Layout" (rules 1-10), without reference to crevice.
-/
namespace Glsl
open Crevice (Byte Endian Layout)

/-- Scalar types of GLSL. -/
inductive Scalar
  | float | double | int | uint | bool
  deriving DecidableEq, Repr

/-- The size `N` of a scalar in basic machine units. A GLSL `bool` in a buffer is 32 bits. -/
def Scalar.size : Scalar → Nat
  | .float => 4
  | .double => 8
  | .int => 4
  | .uint => 4
  | .bool => 4

/-- GLSL types. `mat s c r` is a column-major matrix with `c` columns and `r` rows.
`aligned a t` is a member declared with the qualifier `layout(align = a)` (GLSL 4.40, section
4.4.5: "the actual alignment of a member will be the greater of the specified align alignment and
the standard base alignment for the member's type"). -/
inductive Ty
  | scalar (s : Scalar)
  | vec (s : Scalar) (n : Nat)
  | mat (s : Scalar) (cols rows : Nat)
  | array (elem : Ty) (len : Nat)
  | struct (name : String) (members : List (String × Ty))
  | aligned (a : Nat) (t : Ty)

/-- The smallest multiple of `a` that is at least `n` (see `roundUp_isLeast`). -/
def roundUp (n a : Nat) : Nat := (n + a - 1) / a * a

/-- Rules 1-3: base alignment of a vector with `n` components of size `N`. -/
def vecAlign (s : Scalar) (n : Nat) : Nat :=
  if n = 2 then 2 * s.size else 4 * s.size

/-- Rules 4 and 9: std140 rounds the base alignment of arrays (hence matrices) and structures up to
the base alignment of a `vec4`; std430 does not. -/
def roundToVec4 (l : Layout) (a : Nat) : Nat :=
  match l with
  | .std140 => roundUp a 16
  | .std430 => a

mutual
/-- Base alignment. -/
def Ty.align (l : Layout) : Ty → Nat
  | .scalar s => s.size                                   -- rule 1
  | .vec s n => vecAlign s n                              -- rules 2, 3
  | .mat s _ r => roundToVec4 l (vecAlign s r)            -- rules 5, 6: an array of column vectors
  | .array t _ => roundToVec4 l (Ty.align l t)            -- rules 4, 10
  | .struct _ ms => roundToVec4 l (maxAlign l ms)         -- rule 9
  | .aligned a t => max a (Ty.align l t)
/-- The largest base alignment of any member. -/
def maxAlign (l : Layout) : List (String × Ty) → Nat
  | [] => 0
  | (_, t) :: r => max (Ty.align l t) (maxAlign l r)
end

/-- Distance between consecutive columns of a matrix (rules 4, 5). -/
def columnStride (l : Layout) (s : Scalar) (rows : Nat) : Nat :=
  roundUp (rows * s.size) (roundToVec4 l (vecAlign s rows))

mutual
/-- Number of bytes a type occupies, including the padding that rules 4 and 9 put at the end of
arrays, matrices and structures. -/
def Ty.size (l : Layout) : Ty → Nat
  | .scalar s => s.size
  | .vec s n => n * s.size
  | .mat s c r => c * columnStride l s r
  | .array t n => n * roundUp (Ty.size l t) (roundToVec4 l (t.align l))
  | .struct nm ms => roundUp (endOfMembers l 0 ms) ((Ty.struct nm ms).align l)
  | .aligned _ t => Ty.size l t
/-- Offset after the last of the members when the first is placed from offset `cur` on: each member
goes to the next multiple of its base alignment. -/
def endOfMembers (l : Layout) (cur : Nat) : List (String × Ty) → Nat
  | [] => cur
  | (_, t) :: r => endOfMembers l (roundUp cur (t.align l) + Ty.size l t) r
end

/-- Distance between consecutive elements of an array (rules 4, 10). -/
def arrayStride (l : Layout) (elem : Ty) : Nat :=
  roundUp (elem.size l) (roundToVec4 l (elem.align l))

/-- Offsets of the members of a structure or block, from `cur` on. -/
def memberOffsets (l : Layout) (cur : Nat) : List (String × Ty) → List (String × Nat)
  | [] => []
  | (n, t) :: r =>
    (n, roundUp cur (t.align l)) :: memberOffsets l (roundUp cur (t.align l) + t.size l) r

/-- Names of vector components and matrix columns in paths. -/
def componentNames : List String := ["x", "y", "z", "w"]

mutual
/-- Offset and type of the part of a type reached by a path of member names; `x y z w` select the
components of a vector and the columns of a matrix. -/
def Ty.offsetOf (l : Layout) : Ty → List String → Option (Nat × Ty)
  | t, [] => some (0, t)
  | .vec s n, [c] =>
    if (componentNames.take n).contains c then
      some (componentNames.idxOf c * s.size, .scalar s)
    else none
  | .mat s cols rows, c :: p =>
    if (componentNames.take cols).contains c then
      match p with
      | [] => some (componentNames.idxOf c * columnStride l s rows, .vec s rows)
      | [d] =>
        if (componentNames.take rows).contains d then
          some (componentNames.idxOf c * columnStride l s rows + componentNames.idxOf d * s.size,
            .scalar s)
        else none
      | _ => none
    else none
  | .struct _ ms, n :: p => offsetOfMember l 0 ms n p
  | .aligned _ t, p => Ty.offsetOf l t p
  | _, _ => none
/-- The same for a member of a structure, members being placed from `cur` on. -/
def offsetOfMember (l : Layout) (cur : Nat) :
    List (String × Ty) → String → List String → Option (Nat × Ty)
  | [], _, _ => none
  | (m, t) :: r, n, p =>
    if m = n then
      (Ty.offsetOf l t p).map fun x => (roundUp cur (t.align l) + x.1, x.2)
    else
      offsetOfMember l (roundUp cur (t.align l) + t.size l) r n p
end

/-- GLSL values. Floats are bit patterns. -/
inductive Val
  | float (bits : BitVec 32)
  | double (bits : BitVec 64)
  | int (bits : BitVec 32)
  | uint (bits : BitVec 32)
  | bool (b : Bool)
  | vec (components : List Val)
  | mat (columns : List (List Val))
  | array (elems : List Val)
  | struct (members : List (String × Val))

/-- The number stored in a sequence of bytes. -/
def number : Endian → List Byte → Nat
  | .little, bs => bs.foldr (fun b acc => b.toNat + 256 * acc) 0
  | .big, bs => bs.foldl (fun acc b => 256 * acc + b.toNat) 0

/-- The `n`-byte number stored at offset `off` of a buffer. -/
def wordAt (e : Endian) (buf : List Byte) (off n : Nat) : Option Nat :=
  if off + n ≤ buf.length then some (number e ((buf.drop off).take n)) else none

/-- A scalar read from a buffer. A `bool` is true iff its word is not zero. -/
def readScalar (e : Endian) (s : Scalar) (buf : List Byte) (off : Nat) : Option Val :=
  (wordAt e buf off s.size).map fun w =>
    match s with
    | .float => .float (BitVec.ofNat 32 w)
    | .double => .double (BitVec.ofNat 64 w)
    | .int => .int (BitVec.ofNat 32 w)
    | .uint => .uint (BitVec.ofNat 32 w)
    | .bool => .bool (w != 0)

/-- `n` consecutive scalars. -/
def readScalars (e : Endian) (s : Scalar) (n : Nat) (buf : List Byte) (off : Nat) :
    Option (List Val) :=
  (List.range n).mapM fun i => readScalar e s buf (off + i * s.size)

mutual
/-- What a shader sees at offset `off` of a buffer declared with the given type. -/
def read (e : Endian) (l : Layout) : Ty → List Byte → Nat → Option Val
  | .scalar s, buf, off => readScalar e s buf off
  | .vec s n, buf, off => (readScalars e s n buf off).map .vec
  | .mat s c r, buf, off =>
    ((List.range c).mapM fun i =>
      readScalars e s r buf (off + i * columnStride l s r)).map .mat
  | .array t n, buf, off =>
    ((List.range n).mapM fun i => read e l t buf (off + i * arrayStride l t)).map .array
  | .struct _ ms, buf, off => (readMembers e l ms buf off 0).map .struct
  | .aligned _ t, buf, off => read e l t buf off
/-- Members of a structure that starts at `base`, placed from relative offset `cur` on. -/
def readMembers (e : Endian) (l : Layout) :
    List (String × Ty) → List Byte → Nat → Nat → Option (List (String × Val))
  | [], _, _, _ => some []
  | (n, t) :: r, buf, base, cur =>
    (read e l t buf (base + roundUp cur (t.align l))).bind fun v =>
      (readMembers e l r buf base (roundUp cur (t.align l) + t.size l)).map fun vs => (n, v) :: vs
end

/-- Positions of `n` consecutive scalars. -/
def scalarCells (s : Scalar) (n off : Nat) : List (Nat × Nat) :=
  (List.range n).map fun i => (off + i * s.size, s.size)

mutual
/-- Where the scalar components of a type at offset `off` are: list of (offset, size). All other
bytes of the type are padding. -/
def cells (l : Layout) : Ty → Nat → List (Nat × Nat)
  | .scalar s, off => [(off, s.size)]
  | .vec s n, off => scalarCells s n off
  | .mat s c r, off => (List.range c).flatMap fun i => scalarCells s r (off + i * columnStride l s r)
  | .array t n, off => (List.range n).flatMap fun i => cells l t (off + i * arrayStride l t)
  | .struct _ ms, off => memberCells l ms off 0
  | .aligned _ t, off => cells l t off
/-- Cells of the members of a structure that starts at `base`. -/
def memberCells (l : Layout) : List (String × Ty) → Nat → Nat → List (Nat × Nat)
  | [], _, _ => []
  | (_, t) :: r, base, cur =>
    cells l t (base + roundUp cur (t.align l)) ++
      memberCells l r base (roundUp cur (t.align l) + t.size l)
end

/-- Byte `k` belongs to a scalar component of a type placed at offset 0. -/
def Occupied (l : Layout) (t : Ty) (k : Nat) : Prop :=
  ∃ c ∈ cells l t 0, c.1 ≤ k ∧ k < c.1 + c.2

end Glsl
