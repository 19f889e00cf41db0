import Verif.Model.Derive
/-
Model of `src/std140/primitives.rs` and `src/std430/primitives.rs`: the layout primitives, as the
rows of the `vectors!` and `matrices!` macro invocations.
-/
namespace Crevice

/-- `src/bool.rs:8-10` `Bool`: `#[repr(transparent)] struct Bool(u32)`. -/
def boolTy : RTy := .newtype (.scalar .u32)

/-- The `$prim` of a `vectors!` row: a machine primitive or `Bool`. -/
inductive PrimTy
  | scalar (s : Scalar)
  | Bool
  deriving DecidableEq, Repr

/-- The Rust type of a `$prim`. -/
def PrimTy.rty : PrimTy → RTy
  | .scalar s => .scalar s
  | .Bool => boolTy

/-- A row of `vectors!` (`std140/primitives.rs:42`, `std430/primitives.rs:42`). -/
structure VecRow where
  align : Nat
  glsl : String
  name : String
  prim : PrimTy
  fields : List String

/-- `src/std140/primitives.rs:68-88`. -/
def vectors140 : List VecRow := [
  ⟨8, "vec2", "Vec2", .scalar .f32, ["x", "y"]⟩,
  ⟨16, "vec3", "Vec3", .scalar .f32, ["x", "y", "z"]⟩,
  ⟨16, "vec4", "Vec4", .scalar .f32, ["x", "y", "z", "w"]⟩,
  ⟨8, "ivec2", "IVec2", .scalar .i32, ["x", "y"]⟩,
  ⟨16, "ivec3", "IVec3", .scalar .i32, ["x", "y", "z"]⟩,
  ⟨16, "ivec4", "IVec4", .scalar .i32, ["x", "y", "z", "w"]⟩,
  ⟨8, "uvec2", "UVec2", .scalar .u32, ["x", "y"]⟩,
  ⟨16, "uvec3", "UVec3", .scalar .u32, ["x", "y", "z"]⟩,
  ⟨16, "uvec4", "UVec4", .scalar .u32, ["x", "y", "z", "w"]⟩,
  ⟨8, "bvec2", "BVec2", .Bool, ["x", "y"]⟩,
  ⟨16, "bvec3", "BVec3", .Bool, ["x", "y", "z"]⟩,
  ⟨16, "bvec4", "BVec4", .Bool, ["x", "y", "z", "w"]⟩,
  ⟨16, "dvec2", "DVec2", .scalar .f64, ["x", "y"]⟩,
  ⟨32, "dvec3", "DVec3", .scalar .f64, ["x", "y", "z"]⟩,
  ⟨32, "dvec4", "DVec4", .scalar .f64, ["x", "y", "z", "w"]⟩]

/-- `src/std430/primitives.rs:68-88`. -/
def vectors430 : List VecRow := [
  ⟨8, "vec2", "Vec2", .scalar .f32, ["x", "y"]⟩,
  ⟨16, "vec3", "Vec3", .scalar .f32, ["x", "y", "z"]⟩,
  ⟨16, "vec4", "Vec4", .scalar .f32, ["x", "y", "z", "w"]⟩,
  ⟨8, "ivec2", "IVec2", .scalar .i32, ["x", "y"]⟩,
  ⟨16, "ivec3", "IVec3", .scalar .i32, ["x", "y", "z"]⟩,
  ⟨16, "ivec4", "IVec4", .scalar .i32, ["x", "y", "z", "w"]⟩,
  ⟨8, "uvec2", "UVec2", .scalar .u32, ["x", "y"]⟩,
  ⟨16, "uvec3", "UVec3", .scalar .u32, ["x", "y", "z"]⟩,
  ⟨16, "uvec4", "UVec4", .scalar .u32, ["x", "y", "z", "w"]⟩,
  ⟨8, "bvec2", "BVec2", .Bool, ["x", "y"]⟩,
  ⟨16, "bvec3", "BVec3", .Bool, ["x", "y", "z"]⟩,
  ⟨16, "bvec4", "BVec4", .Bool, ["x", "y", "z", "w"]⟩,
  ⟨16, "dvec2", "DVec2", .scalar .f64, ["x", "y"]⟩,
  ⟨32, "dvec3", "DVec3", .scalar .f64, ["x", "y", "z"]⟩,
  ⟨32, "dvec4", "DVec4", .scalar .f64, ["x", "y", "z", "w"]⟩]

/-- The field types that occur in `matrices!` rows. -/
inductive MatField
  /-- a vector type of the same module -/
  | vec (name : String)
  /-- an explicit padding scalar, `_pad_x: f32` -/
  | scalar (s : Scalar)
  /-- an explicit padding array, `_pad_x: [f32; 2]` -/
  | array (s : Scalar) (n : Nat)
  deriving DecidableEq

/-- A row of `matrices!` (`std140/primitives.rs:93-97`, `std430/primitives.rs:93-97`). -/
structure MatRow where
  align : Nat
  glsl : String
  name : String
  fields : List (String × MatField)

/-- `src/std140/primitives.rs:123-179`. -/
def matrices140 : List MatRow := [
  ⟨16, "mat2", "Mat2",
    [("x", .vec "Vec2"), ("_pad_x", .array .f32 2), ("y", .vec "Vec2"), ("_pad_y", .array .f32 2)]⟩,
  ⟨16, "mat3", "Mat3",
    [("x", .vec "Vec3"), ("_pad_x", .scalar .f32), ("y", .vec "Vec3"), ("_pad_y", .scalar .f32),
      ("z", .vec "Vec3"), ("_pad_z", .scalar .f32)]⟩,
  ⟨16, "mat4", "Mat4",
    [("x", .vec "Vec4"), ("y", .vec "Vec4"), ("z", .vec "Vec4"), ("w", .vec "Vec4")]⟩,
  ⟨16, "dmat2", "DMat2", [("x", .vec "DVec2"), ("y", .vec "DVec2")]⟩,
  ⟨32, "dmat3", "DMat3",
    [("x", .vec "DVec3"), ("_pad_x", .scalar .f64), ("y", .vec "DVec3"), ("_pad_y", .scalar .f64),
      ("z", .vec "DVec3"), ("_pad_z", .scalar .f64)]⟩,
  ⟨32, "dmat4", "DMat4",
    [("x", .vec "DVec4"), ("y", .vec "DVec4"), ("z", .vec "DVec4"), ("w", .vec "DVec4")]⟩]

/-- `src/std430/primitives.rs:123-177`. -/
def matrices430 : List MatRow := [
  ⟨8, "mat2", "Mat2", [("x", .vec "Vec2"), ("y", .vec "Vec2")]⟩,
  ⟨16, "mat3", "Mat3",
    [("x", .vec "Vec3"), ("_pad_x", .scalar .f32), ("y", .vec "Vec3"), ("_pad_y", .scalar .f32),
      ("z", .vec "Vec3"), ("_pad_z", .scalar .f32)]⟩,
  ⟨16, "mat4", "Mat4",
    [("x", .vec "Vec4"), ("y", .vec "Vec4"), ("z", .vec "Vec4"), ("w", .vec "Vec4")]⟩,
  ⟨16, "dmat2", "DMat2", [("x", .vec "DVec2"), ("y", .vec "DVec2")]⟩,
  ⟨32, "dmat3", "DMat3",
    [("x", .vec "DVec3"), ("_pad_x", .scalar .f64), ("y", .vec "DVec3"), ("_pad_y", .scalar .f64),
      ("z", .vec "DVec3"), ("_pad_z", .scalar .f64)]⟩,
  ⟨32, "dmat4", "DMat4",
    [("x", .vec "DVec4"), ("y", .vec "DVec4"), ("z", .vec "DVec4"), ("w", .vec "DVec4")]⟩]

/-- The `vectors!` invocation of each layout's module. -/
def Layout.vectors : Layout → List VecRow
  | .std140 => vectors140
  | .std430 => vectors430

/-- The `matrices!` invocation of each layout's module. -/
def Layout.matrices : Layout → List MatRow
  | .std140 => matrices140
  | .std430 => matrices430

/-- A primitive struct of a layout module with its `impl StdN` and `impl Glsl`. -/
structure Primitive where
  /-- fields of the `#[repr(C)]` struct -/
  fields : List (String × RTy)
  /-- `const ALIGNMENT` -/
  alignment : Nat
  /-- `Glsl::NAME` -/
  glsl : String

/-- `vectors!` expansion (`primitives.rs:39-66`): `pub struct $name { $(pub $field: $prim,)+ }`. -/
def VecRow.primitive (r : VecRow) : Primitive :=
  { fields := r.fields.map fun f => (f, r.prim.rty), alignment := r.align, glsl := r.glsl }

/-- Name resolution for vector types in a layout module. -/
def Layout.vecPrimitive (l : Layout) (name : String) : Option Primitive :=
  (l.vectors.find? fun r => r.name == name).map VecRow.primitive

/-- The Rust type of a `matrices!` field. -/
def MatField.rty (l : Layout) : MatField → Option RTy
  | .vec n => (l.vecPrimitive n).map fun p => .struct p.fields
  | .scalar s => some (.scalar s)
  | .array s n => some (.array (.scalar s) n)

/-- `matrices!` expansion (`primitives.rs:90-121`). -/
def MatRow.primitive (l : Layout) (r : MatRow) : Option Primitive :=
  (r.fields.mapM fun (f : String × MatField) => (f.2.rty l).map fun t => (f.1, t)).map fun fs =>
    { fields := fs, alignment := r.align, glsl := r.glsl }

/-- `crate::stdN::$name`: a primitive struct by name. -/
def Layout.primitive (l : Layout) (name : String) : Option Primitive :=
  match l.vecPrimitive name with
  | some p => some p
  | none => (l.matrices.find? fun r => r.name == name).bind (MatRow.primitive l)

/-- `impl StdN for f32/f64/i32/u32` (`std140/primitives.rs:7-21`, `std430/primitives.rs:7-21`):
`ALIGNMENT`. There is no impl for `u8`. -/
def Layout.scalarAlignment : Layout → Scalar → Option Nat
  | .std140, .f32 => some 4
  | .std140, .f64 => some 8
  | .std140, .i32 => some 4
  | .std140, .u32 => some 4
  | .std430, .f32 => some 4
  | .std430, .f64 => some 8
  | .std430, .i32 => some 4
  | .std430, .u32 => some 4
  | _, .u8 => none

/-- `impl StdN for Bool` (`std140/primitives.rs:23-25`, `std430/primitives.rs:23-25`). -/
def Layout.boolAlignment : Layout → Nat
  | .std140 => 4
  | .std430 => 4

/-- `src/bool.rs:15-19` `impl From<bool> for Bool`: `Self(v as u32)`. -/
def boolToBool (v : Bool) : RVal :=
  .newtype (.scalar .u32 (if v then 1 else 0))

/-- `src/bool.rs:21-25` `impl From<Bool> for bool`: `v.0 != 0`. Stuck on a value that is not a
`Bool`. -/
def boolOfBool : RVal → Option Bool
  | .newtype (.scalar .u32 w) => some (w != 0)
  | _ => none

end Crevice
