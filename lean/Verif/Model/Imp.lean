import Verif.Model.Primitives
/-
Model of `src/imp/*.rs`: which math library types are connected to which layout primitives.
The tables are the rows of the `easy_impl!` and `minty_impl!` invocations.
-/
namespace Crevice

/-- Component types of the math types crevice supports. -/
inductive MScalar
  | f32 | f64 | i32 | u32 | bool
  deriving DecidableEq, Repr

/-- Libraries whose types are connected by field name (`easy_impl!`). -/
inductive Lib
  | mint | cgmath
  deriving DecidableEq, Repr

/-- Shape of a math type. -/
inductive Kind
  | vector | point | matrix
  deriving DecidableEq, Repr

/-- A math type: `mint::Vector3<f32>` is `⟨.mint, .vector, .f32, 3⟩`, `mint::ColumnMatrix2<f64>`
and `cgmath::Matrix2<f64>` have kind `.matrix`. -/
structure MathTy where
  lib : Lib
  kind : Kind
  scalar : MScalar
  dim : Nat
  deriving DecidableEq, Repr

/-- Field names of the math structs (external crates mint and cgmath): `x, y, z, w`. A matrix has
one field per column. -/
def MathTy.fieldNames (m : MathTy) : List String := ["x", "y", "z", "w"].take m.dim

/-- Type of the columns of a matrix type. -/
def MathTy.column (m : MathTy) : MathTy := { m with kind := .vector }

/-- A row of `easy_impl!` (`src/util.rs:4`): `$std_name $imp_ty { $($field),* }`. -/
structure EasyRow where
  stdName : String
  ty : MathTy
  fields : List String

/-- A row of `minty_impl!` (`src/util.rs:61`): `$mint_ty => $imp_ty`. -/
structure MintyRow where
  mint : MathTy
  foreign : String

/-- `src/imp/imp_mint.rs:1-44`: the rows of `easy_impl!`. -/
def mintRows : List EasyRow := [
  ⟨"Vec2", ⟨.mint, .vector, .f32, 2⟩, ["x", "y"]⟩,
  ⟨"Vec3", ⟨.mint, .vector, .f32, 3⟩, ["x", "y", "z"]⟩,
  ⟨"Vec4", ⟨.mint, .vector, .f32, 4⟩, ["x", "y", "z", "w"]⟩,
  ⟨"Vec2", ⟨.mint, .point, .f32, 2⟩, ["x", "y"]⟩,
  ⟨"Vec3", ⟨.mint, .point, .f32, 3⟩, ["x", "y", "z"]⟩,
  ⟨"IVec2", ⟨.mint, .vector, .i32, 2⟩, ["x", "y"]⟩,
  ⟨"IVec3", ⟨.mint, .vector, .i32, 3⟩, ["x", "y", "z"]⟩,
  ⟨"IVec4", ⟨.mint, .vector, .i32, 4⟩, ["x", "y", "z", "w"]⟩,
  ⟨"IVec2", ⟨.mint, .point, .i32, 2⟩, ["x", "y"]⟩,
  ⟨"IVec3", ⟨.mint, .point, .i32, 3⟩, ["x", "y", "z"]⟩,
  ⟨"UVec2", ⟨.mint, .vector, .u32, 2⟩, ["x", "y"]⟩,
  ⟨"UVec3", ⟨.mint, .vector, .u32, 3⟩, ["x", "y", "z"]⟩,
  ⟨"UVec4", ⟨.mint, .vector, .u32, 4⟩, ["x", "y", "z", "w"]⟩,
  ⟨"UVec2", ⟨.mint, .point, .u32, 2⟩, ["x", "y"]⟩,
  ⟨"UVec3", ⟨.mint, .point, .u32, 3⟩, ["x", "y", "z"]⟩,
  ⟨"BVec2", ⟨.mint, .vector, .bool, 2⟩, ["x", "y"]⟩,
  ⟨"BVec3", ⟨.mint, .vector, .bool, 3⟩, ["x", "y", "z"]⟩,
  ⟨"BVec4", ⟨.mint, .vector, .bool, 4⟩, ["x", "y", "z", "w"]⟩,
  ⟨"BVec2", ⟨.mint, .point, .bool, 2⟩, ["x", "y"]⟩,
  ⟨"BVec3", ⟨.mint, .point, .bool, 3⟩, ["x", "y", "z"]⟩,
  ⟨"DVec2", ⟨.mint, .vector, .f64, 2⟩, ["x", "y"]⟩,
  ⟨"DVec3", ⟨.mint, .vector, .f64, 3⟩, ["x", "y", "z"]⟩,
  ⟨"DVec4", ⟨.mint, .vector, .f64, 4⟩, ["x", "y", "z", "w"]⟩,
  ⟨"DVec2", ⟨.mint, .point, .f64, 2⟩, ["x", "y"]⟩,
  ⟨"DVec3", ⟨.mint, .point, .f64, 3⟩, ["x", "y", "z"]⟩,
  ⟨"Mat2", ⟨.mint, .matrix, .f32, 2⟩, ["x", "y"]⟩,
  ⟨"Mat3", ⟨.mint, .matrix, .f32, 3⟩, ["x", "y", "z"]⟩,
  ⟨"Mat4", ⟨.mint, .matrix, .f32, 4⟩, ["x", "y", "z", "w"]⟩,
  ⟨"DMat2", ⟨.mint, .matrix, .f64, 2⟩, ["x", "y"]⟩,
  ⟨"DMat3", ⟨.mint, .matrix, .f64, 3⟩, ["x", "y", "z"]⟩,
  ⟨"DMat4", ⟨.mint, .matrix, .f64, 4⟩, ["x", "y", "z", "w"]⟩]

/-- `src/imp/imp_cgmath.rs:1-44`: the rows of `easy_impl!`. -/
def cgmathRows : List EasyRow := [
  ⟨"Vec2", ⟨.cgmath, .vector, .f32, 2⟩, ["x", "y"]⟩,
  ⟨"Vec3", ⟨.cgmath, .vector, .f32, 3⟩, ["x", "y", "z"]⟩,
  ⟨"Vec4", ⟨.cgmath, .vector, .f32, 4⟩, ["x", "y", "z", "w"]⟩,
  ⟨"Vec2", ⟨.cgmath, .point, .f32, 2⟩, ["x", "y"]⟩,
  ⟨"Vec3", ⟨.cgmath, .point, .f32, 3⟩, ["x", "y", "z"]⟩,
  ⟨"IVec2", ⟨.cgmath, .vector, .i32, 2⟩, ["x", "y"]⟩,
  ⟨"IVec3", ⟨.cgmath, .vector, .i32, 3⟩, ["x", "y", "z"]⟩,
  ⟨"IVec4", ⟨.cgmath, .vector, .i32, 4⟩, ["x", "y", "z", "w"]⟩,
  ⟨"IVec2", ⟨.cgmath, .point, .i32, 2⟩, ["x", "y"]⟩,
  ⟨"IVec3", ⟨.cgmath, .point, .i32, 3⟩, ["x", "y", "z"]⟩,
  ⟨"UVec2", ⟨.cgmath, .vector, .u32, 2⟩, ["x", "y"]⟩,
  ⟨"UVec3", ⟨.cgmath, .vector, .u32, 3⟩, ["x", "y", "z"]⟩,
  ⟨"UVec4", ⟨.cgmath, .vector, .u32, 4⟩, ["x", "y", "z", "w"]⟩,
  ⟨"UVec2", ⟨.cgmath, .point, .u32, 2⟩, ["x", "y"]⟩,
  ⟨"UVec3", ⟨.cgmath, .point, .u32, 3⟩, ["x", "y", "z"]⟩,
  ⟨"BVec2", ⟨.cgmath, .vector, .bool, 2⟩, ["x", "y"]⟩,
  ⟨"BVec3", ⟨.cgmath, .vector, .bool, 3⟩, ["x", "y", "z"]⟩,
  ⟨"BVec4", ⟨.cgmath, .vector, .bool, 4⟩, ["x", "y", "z", "w"]⟩,
  ⟨"BVec2", ⟨.cgmath, .point, .bool, 2⟩, ["x", "y"]⟩,
  ⟨"BVec3", ⟨.cgmath, .point, .bool, 3⟩, ["x", "y", "z"]⟩,
  ⟨"DVec2", ⟨.cgmath, .vector, .f64, 2⟩, ["x", "y"]⟩,
  ⟨"DVec3", ⟨.cgmath, .vector, .f64, 3⟩, ["x", "y", "z"]⟩,
  ⟨"DVec4", ⟨.cgmath, .vector, .f64, 4⟩, ["x", "y", "z", "w"]⟩,
  ⟨"DVec2", ⟨.cgmath, .point, .f64, 2⟩, ["x", "y"]⟩,
  ⟨"DVec3", ⟨.cgmath, .point, .f64, 3⟩, ["x", "y", "z"]⟩,
  ⟨"Mat2", ⟨.cgmath, .matrix, .f32, 2⟩, ["x", "y"]⟩,
  ⟨"Mat3", ⟨.cgmath, .matrix, .f32, 3⟩, ["x", "y", "z"]⟩,
  ⟨"Mat4", ⟨.cgmath, .matrix, .f32, 4⟩, ["x", "y", "z", "w"]⟩,
  ⟨"DMat2", ⟨.cgmath, .matrix, .f64, 2⟩, ["x", "y"]⟩,
  ⟨"DMat3", ⟨.cgmath, .matrix, .f64, 3⟩, ["x", "y", "z"]⟩,
  ⟨"DMat4", ⟨.cgmath, .matrix, .f64, 4⟩, ["x", "y", "z", "w"]⟩]

/-- `src/imp/imp_glam.rs:1-29`: the rows of `minty_impl!`. -/
def glamRows : List MintyRow := [
  ⟨⟨.mint, .vector, .f32, 2⟩, "glam::Vec2"⟩,
  ⟨⟨.mint, .vector, .f32, 3⟩, "glam::Vec3"⟩,
  ⟨⟨.mint, .vector, .f32, 4⟩, "glam::Vec4"⟩,
  ⟨⟨.mint, .vector, .i32, 2⟩, "glam::IVec2"⟩,
  ⟨⟨.mint, .vector, .i32, 3⟩, "glam::IVec3"⟩,
  ⟨⟨.mint, .vector, .i32, 4⟩, "glam::IVec4"⟩,
  ⟨⟨.mint, .vector, .u32, 2⟩, "glam::UVec2"⟩,
  ⟨⟨.mint, .vector, .u32, 3⟩, "glam::UVec3"⟩,
  ⟨⟨.mint, .vector, .u32, 4⟩, "glam::UVec4"⟩,
  ⟨⟨.mint, .vector, .f64, 2⟩, "glam::DVec2"⟩,
  ⟨⟨.mint, .vector, .f64, 3⟩, "glam::DVec3"⟩,
  ⟨⟨.mint, .vector, .f64, 4⟩, "glam::DVec4"⟩,
  ⟨⟨.mint, .matrix, .f32, 2⟩, "glam::Mat2"⟩,
  ⟨⟨.mint, .matrix, .f32, 3⟩, "glam::Mat3"⟩,
  ⟨⟨.mint, .matrix, .f32, 4⟩, "glam::Mat4"⟩,
  ⟨⟨.mint, .matrix, .f64, 2⟩, "glam::DMat2"⟩,
  ⟨⟨.mint, .matrix, .f64, 3⟩, "glam::DMat3"⟩,
  ⟨⟨.mint, .matrix, .f64, 4⟩, "glam::DMat4"⟩]

/-- `src/imp/imp_nalgebra.rs:1-44`: the rows of `minty_impl!`. -/
def nalgebraRows : List MintyRow := [
  ⟨⟨.mint, .vector, .f32, 2⟩, "nalgebra::Vector2<f32>"⟩,
  ⟨⟨.mint, .vector, .f32, 3⟩, "nalgebra::Vector3<f32>"⟩,
  ⟨⟨.mint, .vector, .f32, 4⟩, "nalgebra::Vector4<f32>"⟩,
  ⟨⟨.mint, .point, .f32, 2⟩, "nalgebra::Point2<f32>"⟩,
  ⟨⟨.mint, .point, .f32, 3⟩, "nalgebra::Point3<f32>"⟩,
  ⟨⟨.mint, .vector, .i32, 2⟩, "nalgebra::Vector2<i32>"⟩,
  ⟨⟨.mint, .vector, .i32, 3⟩, "nalgebra::Vector3<i32>"⟩,
  ⟨⟨.mint, .vector, .i32, 4⟩, "nalgebra::Vector4<i32>"⟩,
  ⟨⟨.mint, .point, .i32, 2⟩, "nalgebra::Point2<i32>"⟩,
  ⟨⟨.mint, .point, .i32, 3⟩, "nalgebra::Point3<i32>"⟩,
  ⟨⟨.mint, .vector, .u32, 2⟩, "nalgebra::Vector2<u32>"⟩,
  ⟨⟨.mint, .vector, .u32, 3⟩, "nalgebra::Vector3<u32>"⟩,
  ⟨⟨.mint, .vector, .u32, 4⟩, "nalgebra::Vector4<u32>"⟩,
  ⟨⟨.mint, .point, .u32, 2⟩, "nalgebra::Point2<u32>"⟩,
  ⟨⟨.mint, .point, .u32, 3⟩, "nalgebra::Point3<u32>"⟩,
  ⟨⟨.mint, .vector, .bool, 2⟩, "nalgebra::Vector2<bool>"⟩,
  ⟨⟨.mint, .vector, .bool, 3⟩, "nalgebra::Vector3<bool>"⟩,
  ⟨⟨.mint, .vector, .bool, 4⟩, "nalgebra::Vector4<bool>"⟩,
  ⟨⟨.mint, .point, .bool, 2⟩, "nalgebra::Point2<bool>"⟩,
  ⟨⟨.mint, .point, .bool, 3⟩, "nalgebra::Point3<bool>"⟩,
  ⟨⟨.mint, .vector, .f64, 2⟩, "nalgebra::Vector2<f64>"⟩,
  ⟨⟨.mint, .vector, .f64, 3⟩, "nalgebra::Vector3<f64>"⟩,
  ⟨⟨.mint, .vector, .f64, 4⟩, "nalgebra::Vector4<f64>"⟩,
  ⟨⟨.mint, .point, .f64, 2⟩, "nalgebra::Point2<f64>"⟩,
  ⟨⟨.mint, .point, .f64, 3⟩, "nalgebra::Point3<f64>"⟩,
  ⟨⟨.mint, .matrix, .f32, 2⟩, "nalgebra::Matrix2<f32>"⟩,
  ⟨⟨.mint, .matrix, .f32, 3⟩, "nalgebra::Matrix3<f32>"⟩,
  ⟨⟨.mint, .matrix, .f32, 4⟩, "nalgebra::Matrix4<f32>"⟩,
  ⟨⟨.mint, .matrix, .f64, 2⟩, "nalgebra::Matrix2<f64>"⟩,
  ⟨⟨.mint, .matrix, .f64, 3⟩, "nalgebra::Matrix3<f64>"⟩,
  ⟨⟨.mint, .matrix, .f64, 4⟩, "nalgebra::Matrix4<f64>"⟩]

/-- All `easy_impl!` rows. -/
def easyRows : List EasyRow := mintRows ++ cgmathRows

/-- All `minty_impl!` rows. -/
def mintyRows : List MintyRow := glamRows ++ nalgebraRows

/-- The `easy_impl!` row of a math type, if it has one. -/
def easyRow (m : MathTy) : Option EasyRow := easyRows.find? fun r => r.ty == m

/-- The `minty_impl!` row of a foreign type, if it has one. -/
def mintyRow (name : String) : Option MintyRow := mintyRows.find? fun r => r.foreign == name

end Crevice
