import Verif.Model.Imp
/-
Specification: the glam and nalgebra types that have a mint equivalent which crevice can use, and
that equivalent, by the naming schemes of those crates. Independent of crevice's tables
(`glamRows`, `nalgebraRows`).
-/
namespace Crevice

/-- glam: `Vec3`, `IVec3`, `UVec3`, `DVec3` have `f32`, `i32`, `u32`, `f64` components; `Mat3` and
`DMat3` are matrices of `f32` and `f64`. -/
def glamTypes : List (String × MathTy) :=
  ([(MScalar.f32, ""), (.i32, "I"), (.u32, "U"), (.f64, "D")].flatMap fun sp =>
    [2, 3, 4].map fun n => ("glam::" ++ sp.2 ++ "Vec" ++ toString n, ⟨.mint, .vector, sp.1, n⟩)) ++
  ([(MScalar.f32, ""), (.f64, "D")].flatMap fun sp =>
    [2, 3, 4].map fun n => ("glam::" ++ sp.2 ++ "Mat" ++ toString n, ⟨.mint, .matrix, sp.1, n⟩))

/-- nalgebra: `Vector3<T>` and `Point3<T>` for all scalars, `Matrix3<T>` for `f32` and `f64`. -/
def nalgebraTypes : List (String × MathTy) :=
  let scalars := [(MScalar.f32, "f32"), (.f64, "f64"), (.i32, "i32"), (.u32, "u32"), (.bool, "bool")]
  let name (c : String) (n : Nat) (s : String) := "nalgebra::" ++ c ++ toString n ++ "<" ++ s ++ ">"
  (scalars.flatMap fun sp => [2, 3, 4].map fun n => (name "Vector" n sp.2, ⟨.mint, .vector, sp.1, n⟩)) ++
  (scalars.flatMap fun sp => [2, 3].map fun n => (name "Point" n sp.2, ⟨.mint, .point, sp.1, n⟩)) ++
  ((scalars.take 2).flatMap fun sp =>
    [2, 3, 4].map fun n => (name "Matrix" n sp.2, ⟨.mint, .matrix, sp.1, n⟩))

/-- The mint equivalent of a glam or nalgebra type. -/
def foreignMath (name : String) : Option MathTy := (glamTypes ++ nalgebraTypes).lookup name

end Crevice
