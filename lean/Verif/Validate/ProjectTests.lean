import Verif.Model.Writer
import Verif.Model.Glsl
import Verif.Model.Debug
import Verif.Props.Examples
/-
The project's own tests (`crevice-tests/src/lib.rs`, `tests/test.rs`, the tests in
`src/std140/dynamic_uniform.rs`) and the examples of its documentation, replayed in the model. They
validate the transcription: each expected number is the one asserted in the repository. They are
tests, not claims; the claims are in `Props/`.
-/
namespace Crevice.ProjectTests
open Crevice

/-- What `assert_std140!`/`assert_std430!` look at (`crevice-tests/src/util.rs:34-88,90-143`):
`size_of`, `ALIGNMENT` and the offsets of fields of the Output type. -/
def metrics (l : Layout) (t : Ty) (fields : List String) : Option (Nat × Nat × List Nat) :=
  (resolve x86_64 Ex.env0 l t).bind fun i =>
    (fields.mapM fun f => (i.out.offsetOf x86_64 [f]).map Prod.fst).map fun os =>
      (i.out.size x86_64, i.alignment, os)

/-- `f32` -/
abbrev f32 : Ty := .scalar .f32
/-- `f64` -/
abbrev f64 : Ty := .scalar .f64
/-- `mint::VectorN<s>` -/
abbrev vec (s : MScalar) (n : Nat) : Ty := .math ⟨.mint, .vector, s, n⟩
/-- `mint::PointN<s>` -/
abbrev point (s : MScalar) (n : Nat) : Ty := .math ⟨.mint, .point, s, n⟩
/-- `mint::ColumnMatrixN<s>` -/
abbrev mat (s : MScalar) (n : Nat) : Ty := .math ⟨.mint, .matrix, s, n⟩

/-! ### crevice-tests/src/lib.rs -/

/-- `two_f32` (`:24-46`). -/
def twoF32 : Ty := .struct "TwoF32" [("x", f32), ("y", f32)]
example : metrics .std140 twoF32 ["x", "y"] = some (16, 16, [0, 4]) := by decide +kernel
example : metrics .std430 twoF32 ["x", "y"] = some (8, 4, [0, 4]) := by decide +kernel

/-- `vec2` (`:48-63`). -/
example : metrics .std140 (.struct "UseVec2" [("one", vec .f32 2)]) ["one"] =
    some (16, 16, [0]) := by decide +kernel

/-- `mat2_bare` (`:65-86`). -/
example : metrics .std140 (mat .f32 2) ["x", "y"] = some (32, 16, [0, 16]) := by decide +kernel
example : metrics .std430 (mat .f32 2) ["x", "y"] = some (16, 8, [0, 8]) := by decide +kernel

/-- `mat3_bare` (`:88-106`). -/
example : metrics .std140 (mat .f32 3) ["x", "y", "z"] = some (48, 16, [0, 16, 32]) := by
  decide +kernel

/-- `mat4_bare` (`:108-125`). -/
example : metrics .std140 (mat .f32 4) ["x", "y", "z", "w"] = some (64, 16, [0, 16, 32, 48]) := by
  decide +kernel

/-- `mat3` (`:127-141`): compiles. -/
example : (metrics .std140 (.struct "TestData" [("one", mat .f32 3)]) []).isSome = true ∧
    (metrics .std430 (.struct "TestData" [("one", mat .f32 3)]) []).isSome = true := by
  decide +kernel

/-- `dvec4` (`:143-161`). -/
example : metrics .std140 (.struct "UsingDVec4" [("doubles", vec .f64 4)]) ["doubles"] =
    some (32, 32, [0]) := by decide +kernel

/-- `four_f64` (`:163-190`). -/
example : metrics .std140 (.struct "FourF64" [("x", f64), ("y", f64), ("z", f64), ("w", f64)])
    ["x", "y", "z", "w"] = some (32, 16, [0, 8, 16, 24]) := by decide +kernel

/-- `two_vec3` (`:192-218`). -/
def twoVec3 : Ty := .struct "TwoVec3" [("one", vec .f32 3), ("two", vec .f32 3)]
example : metrics .std140 twoVec3 ["one", "two"] = some (32, 16, [0, 16]) := by decide +kernel
example : metrics .std430 twoVec3 ["one", "two"] = some (32, 16, [0, 16]) := by decide +kernel

/-- `two_vec4` (`:220-238`). -/
example : metrics .std140 (.struct "TwoVec4" [("one", vec .f32 4), ("two", vec .f32 4)])
    ["one", "two"] = some (32, 16, [0, 16]) := by decide +kernel

/-- `vec3_then_f32` (`:240-258`). -/
example : metrics .std140 (.struct "Vec3ThenF32" [("one", vec .f32 3), ("two", f32)])
    ["one", "two"] = some (16, 16, [0, 12]) := by decide +kernel

/-- `mat3_padding` (`:260-282`). -/
example : metrics .std140 (.struct "Mat3Padding" [("one", mat .f32 3), ("two", f32)])
    ["one", "two"] = some (64, 16, [0, 48]) := by decide +kernel

/-- `padding_after_struct` (`:284-302`). -/
example : metrics .std140 (.struct "PaddingAfterStruct"
      [("base_value", .struct "TwoF32" [("x", f32)]), ("small_field", f32)])
    ["base_value", "small_field"] = some (32, 16, [0, 16]) := by decide +kernel

/-- `proper_offset_calculations_for_differing_member_sizes` (`:304-337`). -/
def foo : Ty := .struct "Foo" [("x", f32)]
/-- `struct Bar { first: Foo, second: Foo }` -/
def bar : Ty := .struct "Bar" [("first", foo), ("second", foo)]
example : metrics .std140 (.struct "Outer" [("leading", bar), ("trailing", foo)])
    ["leading", "trailing"] = some (48, 16, [0, 32]) := by decide +kernel

/-- `bools_and_bool_vectors` (`:339-355`). -/
def containsBools : Ty := .struct "ContainsBools" [("x", .bool), ("y", vec .bool 2)]
example : metrics .std140 containsBools ["x", "y"] = some (16, 16, [0, 8]) := by decide +kernel
example : metrics .std430 containsBools ["x", "y"] = some (16, 8, [0, 8]) := by decide +kernel

/-! ### tests/test.rs -/

/-- The `f32` with these bits. -/
abbrev flt (b : BitVec 32) : RVal := .scalar .f32 b
/-- `0.0` -/
abbrev f0 : RVal := flt 0
/-- `1.0` -/
abbrev f1 : RVal := flt 0x3f800000
/-- `2.0` -/
abbrev f2 : RVal := flt 0x40000000
/-- A struct with fields `x y z`. -/
abbrev v3 (x y z : RVal) : RVal := .struct [("x", x), ("y", y), ("z", z)]

/-- `struct ThereAndBackAgain` (`tests/test.rs:5-9`). -/
def thereAndBackAgain : Ty :=
  .struct "ThereAndBackAgain" [("view", mat .f32 3), ("origin", vec .f32 3)]

/-- The value `x` (`tests/test.rs:11-33`). -/
def thereAndBackAgainVal : RVal :=
  .struct [("view", v3 (v3 f1 f0 f0) (v3 f0 f1 f0) (v3 f0 f0 f1)), ("origin", v3 f0 f1 f2)]

/-- `there_and_back_again` (`tests/test.rs:3-36`). -/
example : ((resolve x86_64 Ex.env0 .std140 thereAndBackAgain).bind fun i =>
    (i.asStd thereAndBackAgainVal).bind i.fromStd) = some thereAndBackAgainVal := by
  with_unfolding_all rfl

/-- `generate_struct_glsl` (`tests/test.rs:38-52`, `tests/snapshots/test__generate_struct_glsl.snap`). -/
example : Ty.glslDefinition (.struct "TestGlsl" [("foo", vec .f32 3), ("bar", mat .f32 2)]) =
    some "struct TestGlsl {\n\tvec3 foo;\n\tmat2 bar;\n};" := by decide +kernel

/-! ### src/std140/dynamic_uniform.rs -/

/-- `size_is_unchanged` (`:44-50`). -/
example : (resolve x86_64 Ex.env0 .std140 (.dynamic f32)).map (Impl.sizeStatic x86_64) =
    (resolve x86_64 Ex.env0 .std140 f32).map (Impl.sizeStatic x86_64) := by decide +kernel

/-- The arguments of `write` for values of a type. -/
def args (l : Layout) (t : Ty) (vs : List RVal) : Option (List WVal) :=
  (resolve x86_64 Ex.env0 l t).bind fun i => vs.mapM fun v => i.wval x86_64 v

/-- `len()` after each of some writes to a `Vec<u8>`, starting with an empty one. -/
def lens (w : Writer (List Byte)) : List WVal → List Nat
  | [] => []
  | v :: vs => let w' := (w.write (vecSink Unit) v).2; w'.len :: lens w' vs

/-- `alignment_applies` (`:52-65`). -/
example : (args .std140 (.dynamic f32) [.newtype f0, .newtype f1]).map (lens (Writer.new [])) =
    some [4, 260] := by decide +kernel

/-! ### Documentation -/

/-- `std140::Writer` (`src/std140/writer.rs:35-57`). -/
def pointLight : Ty := .struct "PointLight"
  [("position", point .f32 3), ("color", vec .f32 3), ("brightness", f32)]

/-- The `lights` of the example (`src/std140/writer.rs:43-54`); `0.6`, `4.0` and `3.0` by their bits. -/
def lights : List RVal :=
  [.struct [("position", v3 f0 f1 f0), ("color", v3 f1 f0 f0), ("brightness", flt 0x3f19999a)],
   .struct [("position", v3 f0 (flt 0x40800000) (flt 0x40400000)), ("color", v3 f1 f1 f1),
     ("brightness", f1)]]

/-- The example of `std140::Writer` (`src/std140/writer.rs:35-75`): the count at 0, then "12 bytes of
padding", then the lights, into a buffer of 1024 bytes. -/
example : ((args .std140 (.scalar .u32) [.scalar .u32 2]).bind fun n =>
    (args .std140 pointLight lights).map fun ls =>
      let r := (Writer.new ({ filled := [], rest := List.replicate 1024 0 } : SliceState)).history
        sliceSink (n ++ [.slice ls])
      (r.1.map Except.toOption, r.2.len, r.2.sink.filled.take 16)) =
    some ([some 0, some 16], 80, [2, 0, 0, 0, 0, 0, 0, 0, 0, 0, 0, 0, 0, 0, 0, 0]) := by
  decide +kernel

/-- `std140::Sizer` and `std430::Sizer` (`src/std140/sizer.rs:26-46`, `src/std430/sizer.rs:26-46`). -/
def frob : Ty := .struct "Frob" [("size", vec .f32 3), ("frobiness", f32)]
example (l : Layout) : ((resolve x86_64 Ex.env0 l (.scalar .u32)).bind fun a =>
    (resolve x86_64 Ex.env0 l frob).map fun b => (Sizer.new.addAll x86_64 [a, b]).2.len) =
    some 32 := by cases l <;> decide +kernel

/-- `README.md:45-74`, `src/lib.rs`: `mat3 orientation` at 0, `vec3 position` at 48, `float scale`
at 60. -/
def mainUniform : Ty := .struct "MainUniform"
  [("orientation", mat .f32 3), ("position", point .f32 3), ("scale", f32)]
example (l : Layout) : metrics l mainUniform ["orientation", "position", "scale"] =
    some (64, 16, [0, 48, 60]) := by cases l <;> decide +kernel

/-- `src/glsl.rs:15-40`: the definition of `SpotLight` (the documentation shows the tabs as
spaces). -/
example : Ty.glslDefinition (.struct "SpotLight"
      [("transform", mat .f32 4), ("color", vec .f32 3), ("intensity", f32)]) =
    some "struct SpotLight {\n\tmat4 transform;\n\tvec3 color;\n\tfloat intensity;\n};" := by
  decide +kernel

/-- `print_std140!(TwoVec3)` (`crevice-tests/src/lib.rs:201`, `util.rs:1-15`): the text of
`debug_metrics`, with `size_of::<mint::Vector3<f32>>() = 12`. -/
example : (debugMetrics x86_64 Ex.env0 .std140 8 (fun _ => 12) "TwoVec3"
      [("one", vec .f32 3), ("two", vec .f32 3)]).map DebugMetrics.text =
    some ("Size 32, Align 16, fields: [\n    Field {\n        name: \"one\",\n        offset: 0,\n" ++
      "        size: 12,\n    },\n    Field {\n        name: \"two\",\n        offset: 16,\n" ++
      "        size: 12,\n    },\n]") := by decide +kernel

end Crevice.ProjectTests
