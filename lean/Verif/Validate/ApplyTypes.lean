import Verif.Validate.Fixtures
import Verif.Props.C01_C03
import Verif.Props.C04_C16
import Verif.Props.C06_C12
import Verif.Props.C15_C38
import Verif.Props.C30_C31
import Verif.Props.C32
import Verif.Props.C40
import Verif.Props.C43_C46
import Verif.Props.C48
import Verif.Props.C49
import Verif.Props.C44_Order
import Verif.Props.C54
import Verif.Props.C28_C29
import Verif.Props.C22_C26
import Verif.Props.Depth
import Verif.Props.C21
import Verif.Props.C41_C42
import Verif.Props.C33
import Verif.Props.C57
import Verif.Props.C58
import Verif.Props.C60
import Verif.Props.C61
import Verif.Props.C62
/-
The theorems about types, conversions and generated text, applied to concrete types and values: every
hypothesis is met. `l` is either layout.
-/
namespace Crevice.Apply
open Ex

/-! ## Layouts -/

example := C01_padding 5 16
example := C01_padding_unique 5 16 11 ⟨by decide, by decide, fun _ => ⟨by decide, fun m h h' => by omega⟩⟩
example (l : Layout) := C02_struct_alignment (lightImpl_ok l)
example (l : Layout) := C03_placement V (lightImpl_ok l)
example (l : Layout) := C03_disjoint V (lightImpl_ok l) (j := 1) (k := 4) (by decide) (by decide)
example (l : Layout) := C04_C05_counterpart (lightImpl_ok l) (by decide)
example := C04_std140 V (lightImpl_ok .std140) light_glsl
example := C05_std430 V (lightImpl_ok .std430) light_glsl
example (l : Layout) := C13_pow2 V (lightImpl_ok l) (fun h => by simp [show light.scalarFree = false from by decide] at h)
example := C13_exception (tg := x86_64) (env := env) V (t := .struct "Empty" []) rfl rfl
example (l : Layout) := C14_size V (lightImpl_ok l)
example (l : Layout) := C14_hereditary V (lightImpl_ok l) light_glsl (base := (lightImpl l).alignment * 3)
  ⟨3, rfl⟩ (p := ["inner", "v"]) (by cases l <;> rfl)
example (l : Layout) := C14_array V (lightImpl_ok l) light_glsl (base := (lightImpl l).alignment * 3)
  ⟨3, rfl⟩ 7 (p := ["inner", "v"]) (by cases l <;> rfl)
example := C16_std430_le_std140 V (lightImpl_ok .std430) (lightImpl_ok .std140) light_glsl
example := C16_factor V (lightImpl_ok .std430) (lightImpl_ok .std140) light_glsl
example := C21_std430 V (lightImpl_ok .std430) light_glsl
example := C21_std140_iff V (lightImpl_ok .std140) light_glsl
example := C21_std140_struct V (lightImpl_ok .std140) light_glsl
example (l : Layout) := C42_align_of V (lightImpl_ok l)
example (l : Layout) := C43_bound (lightImpl_ok l)
example (l : Layout) := C43_any_base V (lightImpl_ok l)
  (Nat.pos_of_ne_zero fun h => by
    obtain ⟨k, hk⟩ := C13_pow2 V (lightImpl_ok l)
      (fun h => by simp [show light.scalarFree = false from by decide] at h)
    have := Nat.two_pow_pos k
    omega)
  (base := 64) (by decide)

/-- The derive on two fields whose implementations are those of `f32` and of a derived struct. -/
theorem derive_ok (l : Layout) : ∃ i, deriveImpl x86_64 l "S"
    [("a", impl l f32 (f32_accepted l)), ("b", lightImpl l)] = some i := by
  obtain ⟨i, h⟩ := (resolve_isSome_iff x86_64 env l (.struct "S" [("a", f32), ("b", light)])).2
    (by cases l <;> decide)
  obtain ⟨is, hr, -, -⟩ := resolve_struct h
  refine ⟨i, ?_⟩
  have : resolveFields x86_64 env l [("a", f32), ("b", light)] =
      some [("a", impl l f32 (f32_accepted l)), ("b", lightImpl l)] := by
    simp only [resolveFields, impl_ok l f32 (f32_accepted l), lightImpl_ok l]
    rfl
  simp only [resolve, this] at h
  exact h

example (l : Layout) := C02_derive (derive_ok l).choose_spec
example (l : Layout) := C03_derive V (fun f hf => by
  simp only [List.mem_cons, List.not_mem_nil, or_false] at hf
  rcases hf with rfl | rfl
  · exact good_resolve V (impl_ok l f32 (f32_accepted l))
  · exact good_resolve V (lightImpl_ok l)) (derive_ok l).choose_spec

/-! ## Conversions -/

theorem light_plain : light.plain = true := by decide

example (l : Layout) := C06_shader_reads_value V E (lightImpl_ok l) light_glsl (light_hasVal _)
example (l : Layout) : ∃ x, light.denote env lightVal = some x := by
  obtain ⟨_, _, x, _, _, hx, _⟩ := C06_shader_reads_value V E (lightImpl_ok l) light_glsl (light_hasVal _)
  exact ⟨x, hx⟩
example (l : Layout) {x : Glsl.Val} (hx : light.denote env lightVal = some x) :=
  C06_view_determines_value E (lightImpl_ok l) light_plain (light_hasVal _) (light_hasVal _) hx hx
theorem light_out (l : Layout) : ∃ o, (lightImpl l).asStd lightVal = some o ∧
    RVal.HasTy (lightImpl l).out o ∧ (lightImpl l).fromStd o = some lightVal :=
  C10_round_trip E (lightImpl_ok l) (light_hasVal _)
example (l : Layout) := C07_no_uninit V (lightImpl_ok l) (light_out l).choose_spec.2.1
example (l : Layout) := C08_length V (lightImpl_ok l) (light_out l).choose_spec.2.1
  (C07_no_uninit V (lightImpl_ok l) (light_out l).choose_spec.2.1).choose_spec.choose_spec.2.2.2.1
example (l : Layout) := C08_pod V (lightImpl_ok l)
  (bs := List.replicate ((lightImpl l).out.size x86_64) 255) (by simp)
example (l : Layout) := C08_zeroed V (lightImpl_ok l)
example (l : Layout) := C09_padding_zero V E (lightImpl_ok l) light_glsl light_plain (light_hasVal _)
example := C09_exception
example (l : Layout) := C10_round_trip E (lightImpl_ok l) (light_hasVal x86_64)
example (l : Layout) := C11_byte_round_trip V E (lightImpl_ok l) (light_hasVal _)
example (l : Layout) := C11_injective V E (lightImpl_ok l) (light_hasVal _) (light_hasVal _)
  (light_out l).choose_spec.1 (light_out l).choose_spec.1 rfl
example (l : Layout) := C12_read_back V E env_exact (lightImpl_ok l) light_glsl
  (bs := List.replicate ((lightImpl l).out.size x86_64) 255) (by simp)
example (l : Layout) := C12_padding_ignored V E (lightImpl_ok l) light_glsl light_plain
  (bs := List.replicate ((lightImpl l).out.size x86_64) 255)
  (bs' := List.replicate ((lightImpl l).out.size x86_64) 255) (by simp) (by simp) (fun _ _ => rfl)
example (l : Layout) := C12_padding_ignored_view V E env_exact (lightImpl_ok l) light_glsl
  (bs := List.replicate ((lightImpl l).out.size x86_64) 255)
  (bs' := List.replicate ((lightImpl l).out.size x86_64) 255) (by simp) (by simp) (fun _ _ => rfl)
/-- Two different byte strings that agree off the padding: the `vec3` of a struct in std140. -/
example := C12_padding_ignored V E (t := .struct "S" [("v", vec3)]) (l := .std140) rfl rfl rfl
  (bs := List.replicate 12 7 ++ [0, 0, 0, 0]) (bs' := List.replicate 12 7 ++ [1, 2, 3, 4]) rfl rfl
  (fun k hk => by
    have : k < 12 := by
      obtain ⟨c, hc, h1, h2⟩ := hk
      have h3 : ∀ c ∈ Glsl.cells .std140 (.struct "S" [("v", .vec .float 3)]) 0, c.1 + c.2 ≤ 12 := by
        decide
      have := h3 c hc
      omega
    rw [List.getElem?_append_left (by simpa using this), List.getElem?_append_left (by simpa using this)])
example (l : Layout) := C15_sizes_agree V E (lightImpl_ok l) (light_hasVal _)
example (l : Layout) := C27_bool_word V env l true
example (l : Layout) := C27_nonzero_is_true (impl_ok l .bool (bool_accepted l)) 7
example (l : Layout) := C27_round_trips (impl_ok l .bool (bool_accepted l))
example (l : Layout) := C35_identity (lightImpl_ok l)
example (l : Layout) := C35_write V E (lightImpl_ok l) (C35_identity (lightImpl_ok l)).choose_spec.1
  (light_hasVal _)
example (l : Layout) := C36_nesting V E (lightImpl_ok l) (light_hasVal _)
example (l : Layout) := C36_any_depth V E (lightImpl_ok l) (light_hasVal _) (p := ["inner", "k"]) rfl
example (l : Layout) := C38_normalise V E env_exact (lightImpl_ok l) light_glsl light_plain
  (light_out l).choose_spec.2.1
example (l : Layout) := C54_as_bytes V E (lightImpl_ok l) light_glsl light_plain (light_hasVal _)
example (l : Layout) := C54_characterisation V E (lightImpl_ok l) light_glsl light_plain (light_hasVal _)
example (l : Layout) := C54_meaning_only V E E (lightImpl_ok l) (lightImpl_ok l) light_glsl light_glsl
  light_plain light_plain (light_hasVal _) (light_hasVal _)
example (l : Layout) := C54_reference (l := l) (e := .little) (g := .struct "S" [("b", .scalar .bool)])
  (by simp [Glsl.Ty.Wf, Glsl.WfMembers]) (x := .struct [("b", .bool true)]) (bs := [1, 0, 0, 0])

/-! ## Two types, two layouts, two targets -/

/-- `Attenuation` with other names. -/
abbrev atten' : Ty := .struct "Falloff" [("c", .scalar .f64), ("w", .foreign "glam::Vec2")]
/-- `attenVal` with other names. -/
abbrev attenVal' : RVal :=
  .struct [("c", .scalar .f64 0x3ff0000000000000), ("w", .newtype (v2 (flt 5) (flt 6)))]
theorem atten_accepted (l : Layout) : atten.accepted l = true := by cases l <;> decide
theorem atten'_accepted (l : Layout) : atten'.accepted l = true := by cases l <;> decide
theorem atten_renamed : atten.Renamed atten' := ⟨rfl, rfl, trivial⟩
theorem atten'_hasVal : atten'.HasVal x86_64 env attenVal' :=
  ⟨_, rfl, rfl, ⟨_, rfl⟩, rfl, ⟨_, glam_vec2, _, rfl, uniform2 (flt_hasVal _) (flt_hasVal _)⟩, trivial⟩

example (l : Layout) := C37_rename_layout V atten_renamed (impl_ok l _ (atten_accepted l))
  (impl_ok l _ (atten'_accepted l))
example (l : Layout) := C37_rename_offsets V atten_renamed (impl_ok l _ (atten_accepted l))
  (impl_ok l _ (atten'_accepted l)) (k := 1) (by decide)
example (l : Layout) := C37_rename_bytes V E atten_renamed (impl_ok l _ (atten_accepted l))
  (impl_ok l _ (atten'_accepted l)) (atten_hasVal _) atten'_hasVal ⟨rfl, rfl, trivial⟩
example (l : Layout) := C37_rename_any_depth V atten_renamed (impl_ok l _ (atten_accepted l))
  (impl_ok l _ (atten'_accepted l)) (p := ["v"]) (q := ["w"])
  (.cons (k := 1) (by decide) (by decide) rfl rfl .nil)
example (l : Layout) := C37_prefix V (impl_ok l _ (atten_accepted l))
  (impl_ok l (.struct "T" [("x", .scalar .f64), ("y", .foreign "glam::Vec2"), ("z", vec3)])
    (by cases l <;> decide)) ⟨[vec3], rfl⟩ (k := 1) (by decide) (by decide)
theorem nal_accepted (l : Layout) : (Ty.foreign "glam::Vec2").accepted l = true := by
  cases l <;> decide +kernel
theorem vec2_accepted (l : Layout) : vec2.accepted l = true := by cases l <;> decide
example (l : Layout) := C32_same_bytes V E (t := vec2) (u := .foreign "glam::Vec2") rfl rfl rfl rfl
  (impl_ok l _ (vec2_accepted l)) (impl_ok l _ (nal_accepted l))
example (l : Layout) := C32_same_impl (m := ⟨.mint, .vector, .f32, 3⟩) (m' := ⟨.cgmath, .point, .f32, 3⟩)
  rfl rfl (by decide) (impl_ok l _ (vec3_accepted l))
  (impl_ok l (.math ⟨.cgmath, .point, .f32, 3⟩) (by cases l <;> decide))
example (l : Layout) := C32_glsl_name (impl_ok l _ (nal_accepted l)) (Or.inr (Or.inr ⟨_, rfl⟩))
example (l : Layout) := C44_layout V i686_valid (lightImpl_ok l)
example (l : Layout) := C44_bytes V i686_valid rfl E (lightImpl_ok l)
  (light_resolves i686 l).choose_spec (light_hasVal _)
/-- A target with the other byte order. -/
def bigEndian : Target := { endian := .big, alignOf := Scalar.size }
theorem bigEndian_valid : bigEndian.Valid := by
  intro s; cases s <;> simp [bigEndian, Scalar.size]
example (l : Layout) := C44_byte_order V bigEndian_valid (by decide) E (lightImpl_ok l) (light_resolves bigEndian l).choose_spec
  light_glsl light_plain (light_hasVal _)
/-- A struct that both layouts place alike. -/
abbrev frame : Ty := .struct "Frame" [("position", vec3), ("basis", mat3), ("on", .bool)]
example := C45_coincide V (impl_ok .std430 frame (by decide)) (impl_ok .std140 frame (by decide)) rfl
  (by decide)
/-- A struct that they do not. -/
abbrev narrow : Ty := .struct "Narrow" [("a", f32), ("b", .bool)]
example := C45_narrow_struct (impl_ok .std430 narrow (by decide)) (impl_ok .std140 narrow (by decide))
  (fun f hf j hj => by
    simp only [List.mem_cons, List.not_mem_nil, or_false] at hf
    rcases hf with rfl | rfl <;> cases hj <;> decide)
/-- Another admissible placement of the fields of `Frame`, which leaves gaps. -/
example := C46_overhead V (l := .std140) (rfl : resolve x86_64 env .std140 frame = some _)
  (is := [impl .std140 vec3 (by decide), impl .std140 mat3 (by decide), impl .std140 .bool (by decide)])
  (by rw [List.map_cons, List.map_cons, List.map_cons, List.map_nil, impl_ok, impl_ok, impl_ok]; rfl)
example := C46_derive V (l := .std140) (rfl : resolve x86_64 env .std140 frame = some _)
  (is := [impl .std140 vec3 (by decide), impl .std140 mat3 (by decide), impl .std140 .bool (by decide)])
  (by rw [List.map_cons, List.map_cons, List.map_cons, List.map_nil, impl_ok, impl_ok, impl_ok]; rfl)
  (offs := [16, 48, 100]) (size := 112)
  (.cons (by omega) (fun _ => by
      rw [show (impl .std140 vec3 (by decide)).alignment = 16 from
        congrArg (fun i => (i.map Impl.alignment).getD 0) (impl_ok .std140 vec3 (by decide)).symm]
      decide)
    (.cons (by
        rw [show (impl .std140 vec3 (by decide)).out.size x86_64 = 12 from
          congrArg (fun i => (i.map fun i => i.out.size x86_64).getD 0) (impl_ok .std140 vec3 (by decide)).symm]
        omega) (fun _ => by
      rw [show (impl .std140 mat3 (by decide)).alignment = 16 from
        congrArg (fun i => (i.map Impl.alignment).getD 0) (impl_ok .std140 mat3 (by decide)).symm]
      decide)
    (.cons (by
        rw [show (impl .std140 mat3 (by decide)).out.size x86_64 = 48 from
          congrArg (fun i => (i.map fun i => i.out.size x86_64).getD 0) (impl_ok .std140 mat3 (by decide)).symm]
        omega) (fun _ => by
      rw [show (impl .std140 Ty.bool (by decide)).alignment = 4 from
        congrArg (fun i => (i.map Impl.alignment).getD 0) (impl_ok .std140 Ty.bool (by decide)).symm]
      decide) (.nil (by
        rw [show (impl .std140 Ty.bool (by decide)).out.size x86_64 = 4 from
          congrArg (fun i => (i.map fun i => i.out.size x86_64).getD 0) (impl_ok .std140 Ty.bool (by decide)).symm]
        omega))))) (by decide)

/-! ## Dynamic uniforms, hand-written implementations, comparisons -/

example := C26_exists x86_64 env light
theorem dynLight_accepted : (Ty.dynamic light).accepted .std140 = true := by decide
example := C26_dynamic V E (impl_ok .std140 _ dynLight_accepted) (lightImpl_ok .std140)
example (l : Layout) := C48_layout x86_64 env env0 l material
theorem material_accepted (l : Layout) : material.accepted l = true := by cases l <;> decide
theorem stripped_accepted (l : Layout) : material.strip.accepted l = true := by cases l <;> decide
example (l : Layout) := C48_bytes E (impl_ok l _ (material_accepted l)) (impl_ok l _ (stripped_accepted l))
  material_hasVal
example (l : Layout) := C48_conversions_irrelevant env0 (impl_ok l _ (material_accepted l))

/-- `Vec2`, as in `src/std140/primitives.rs`. -/
abbrev vec2Row : VecRow := ⟨8, "vec2", "Vec2", .scalar .f32, ["x", "y"]⟩
abbrev uvec2Row : VecRow := ⟨8, "uvec2", "UVec2", .scalar .u32, ["x", "y"]⟩
example := C49_vector_eq (r := vec2Row) (by simp [vectors140]) (as := [("x", flt 0), ("y", flt 1)])
  (bs := [("x", flt 0x80000000), ("y", flt 1)]) ⟨rfl, rfl, rfl, rfl, trivial⟩ ⟨rfl, rfl, rfl, rfl, trivial⟩
example := C49_reflexive (r := vec2Row) (by simp [vectors140]) (as := [("x", flt 0x7fc00000), ("y", flt 1)])
  ⟨rfl, rfl, rfl, rfl, trivial⟩
example := C49_words V (r := uvec2Row) (by simp [vectors140]) (by decide)
  (as := [("x", .scalar .u32 (5 : BitVec 32)), ("y", .scalar .u32 (6 : BitVec 32))])
  (bs := [("x", .scalar .u32 (5 : BitVec 32)), ("y", .scalar .u32 (7 : BitVec 32))]) ⟨rfl, rfl, rfl, rfl, trivial⟩
  ⟨rfl, rfl, rfl, rfl, trivial⟩
example := C49_std430 "Vec2" (v2 (flt 0) (flt 1)) (v2 (flt 0) (flt 1))
example := C49_bool_eq
example := C49_bool_debug

/-! ## Generated text -/

example := C28_parses (rfl : (Ty.struct "SpotLight" spot).glslDefinition = some _) spot_spelled
example := C28_injective (rfl : (Ty.struct "SpotLight" spot).glslDefinition = some _)
  (rfl : (Ty.struct "SpotLight" spot).glslDefinition = some _) spot_spelled.named spot_spelled.named
example := C28_valid_iff (rfl : (Ty.struct "SpotLight" spot).glslDefinition = some _) spot_spelled.named
example := C28_exists "SpotLight" spot
example := C28_exception
example := C28_no_bool light
example := C29_text two_emittable (rfl : two.mapM (fun d => (Ty.struct d.1 d.2).glslDefinition) = some _)
  (sep := "\n") (by decide)
example := C29_bytes two_emittable (rfl : two.mapM (fun d => (Ty.struct d.1 d.2).glslDefinition) = some _)
  (sep := "\n\n") (by decide) V E (l := .std140) (name := "Light") (.tail _ (.head _))
  (impl_ok .std140 (.struct "Light" [("position", vec3), ("basis", mat3), ("inner", atten),
     ("raw", .output .std140 vec2)]) (by decide))

/-! ## The derive -/

/-- `struct P { a: f32, b: Light }` and other inputs of the derive. -/
abbrev input : DeriveInput Ty := ⟨"P", [], .structNamed [("a", f32), ("b", light)]⟩
example (l : Layout) := C30_macro l input
example := C30_macro_glsl input
example := C30_derives_agree input .tupleStruct
example (l : Layout) := C30_no_recursion (l := l) (input := input) rfl 1 (by cases l <;> decide)
example (l : Layout) := C30_terminates (tg := x86_64) (l := l) (name := "P") (ps := [])
  (fs := [("a", impl l f32 (f32_accepted l)), ("b", lightImpl l)]) rfl
example (l : Layout) := C30_compiles x86_64 env l "P" [("a", f32), ("b", light)]
example (l : Layout) := C30_generics (tg := x86_64) l
  ⟨"P", ["T"], .structNamed [("a", impl l f32 (f32_accepted l))]⟩ rfl (by simp) ["T"]
example (l : Layout) := C30_convertible x86_64 env l light
example (l : Layout) := C30_reserved_name x86_64 env l
example (l : Layout) := C30_no_dynamic_field x86_64 env l "P" [("a", f32), ("b", .dynamic light)] "b" light
  (by simp)
/-- Both derives on the same struct, and on another one. -/
example (input' : DeriveInput Ty) (g₁ g₂ g₃ : Generated Ty) (hn : input'.ident = "Q")
    (h₁ : emitLayout .std140 input = .ok g₁) (h₂ : emitLayout .std430 input = .ok g₂)
    (h₃ : emitLayout .std430 input' = .ok g₃) :=
  C31_items_distinct (α := Ty) [(.std140, input, g₁), (.std430, input, g₂), (.std430, input', g₃)]
    (by simp [h₁, h₂, h₃]) (by simp only [List.map_cons, List.map_nil, hn]; decide)
example : ∃ g₁ g₂ g₃, emitLayout .std140 input = .ok g₁ ∧ emitLayout .std430 input = .ok g₂ ∧
    emitLayout .std430 (⟨"Q", [], .structNamed [("x", vec3)]⟩ : DeriveInput Ty) = .ok g₃ :=
  ⟨_, _, _, rfl, rfl, rfl⟩
example (l : Layout) := C31_fields_distinct (l := l) (name := "P") (ps := [])
  (fs := [("a", f32), ("b", light)]) rfl
example (l : Layout) := C31_user_collision l "P" [] (by decide) (fs := [("a", f32), ("b", light)]) rfl
example (l : Layout) := C40_metrics V (lightImpl_ok l) (by decide) 8 (fun _ => 4)
example (l : Layout) := (C40_exists V env l "Light" _ 8 fun _ => 4).2 ⟨by decide, _, lightImpl_ok l⟩
example (l : Layout) := C40_empty_exception x86_64 env l "S" 8 fun _ => 4
example (l : Layout) := C40_field_size_exception V (lightImpl_ok l) 8 (sizeOf := fun _ => 1) rfl (k := 2)
  (by decide) rfl
/-- The metrics of the field `inner`. -/
theorem inner_metrics (l : Layout) : ∃ d f, debugMetrics x86_64 env l 8 (fun _ => 4) "Light"
      [("position", vec3), ("intensity", f32), ("enabled", .bool), ("basis", mat3), ("inner", atten)] =
      some d ∧ f ∈ d.fields ∧ f.name = "inner" := by
  obtain ⟨d, hd, -, -, hn, -⟩ := C40_metrics V (lightImpl_ok l) (by decide) 8 (fun _ => 4)
  have : "inner" ∈ d.fields.map DebugField.name := by rw [hn]; simp
  obtain ⟨f, hf, he⟩ := List.mem_map.1 this
  exact ⟨d, f, hd, hf, he⟩
example (l : Layout) := C40_glsl_offsets V (lightImpl_ok l) light_glsl 8 (fun _ => 4)
  (inner_metrics l).choose_spec.choose_spec.1 (inner_metrics l).choose_spec.choose_spec.2.1 (o := 80)
  (g' := .struct "Attenuation" [("k", .scalar .double), ("v", .vec .float 2)])
  (by rw [(inner_metrics l).choose_spec.choose_spec.2.2]; cases l <;> rfl)
example (l : Layout) := C40_shadowed_exception V
  (impl_ok l (.struct "S" [("a", f32), ("b", .struct "Field" [("x", f32)])]) (by cases l <;> decide)) 8
  (fun _ => 4) (k := 1) (by decide) rfl
example (l l' : Layout) := C40_text_injective
  (C40_metrics V (lightImpl_ok l) (by decide) 8 (fun _ => 4)).choose_spec.1
  (C40_metrics V (lightImpl_ok l') (by decide) 8 (fun _ => 4)).choose_spec.1 (by decide) (by decide)

/-! ## Machine words -/

example := C33_align_offset .on (21 : BitVec 32) 16
example := C33_max (21 : BitVec 32) 16
example := C33_max_arr .on [(21 : BitVec 32), 16, 4] (by decide)
example (l : Layout) := C33_alignments V (lightImpl_ok l)
theorem light_fields (l : Layout) : ∃ is, resolveFields x86_64 env l
    [("position", vec3), ("intensity", f32), ("enabled", .bool), ("basis", mat3), ("inner", atten)] =
    some is := by
  obtain ⟨is, h, -, -⟩ := resolve_struct (lightImpl_ok l)
  exact ⟨is, h⟩
theorem light_size (l : Layout) : (lightImpl l).out.size x86_64 = 96 := by
  rw [(laidOut V (lightImpl_ok l) light_glsl).size]
  cases l <;> decide
example (l : Layout) := C33_consts V (lightImpl_ok l) (light_fields l).choose_spec
  ((C30_macro l { ident := "Light", data := .structNamed (light_fields l).choose }).1 _ rfl).choose_spec (w := 16)
  (by decide) (by rw [light_size]; decide) (by decide) .on

/-! ## Compile-time work -/

theorem light_expands (l : Layout) : ∃ g : Generated Impl, emitLayout l
    { ident := "Light", data := .structNamed (light_fields l).choose } = .ok g :=
  (C30_macro l { ident := "Light", data := .structNamed (light_fields l).choose }).1 _ rfl
example (l : Layout) := C57_one (light_expands l).choose_spec 3
  (by rw [(C30_terminates (tg := x86_64) (light_expands l).choose_spec).1,
        ← List.length_map Prod.fst, resolveFields_names (light_fields l).choose_spec]; decide)
example (l : Layout) := C57_all rfl (light_expands l).choose_spec
example (l : Layout) := C57_text rfl (light_expands l).choose_spec

/-! ## Implementations from outside the crate -/

def mixed : List (String × Impl) := [("a", blanketImpl (.scalar .f32) 4 true), ("b", own)]
theorem mixed_compiles (l : Layout) : ∃ i, deriveImpl x86_64 l "S" mixed = some i :=
  (C58_compiles x86_64 l "S" mixed).2 ⟨by decide +kernel, by decide +kernel, fun f hf k hk => by
    have hk : k = 0 ∨ k = 1 := by simp [mixed] at hk; omega
    simp only [mixed, List.mem_cons, List.not_mem_nil, or_false] at hf
    rcases hf with rfl | rfl <;> rcases hk with rfl | rfl <;> decide +kernel⟩
theorem mixed_std : ∀ f ∈ mixed, StdContract f.2 := by
  intro f hf
  simp only [mixed, List.mem_cons, List.not_mem_nil, or_false] at hf
  rcases hf with rfl | rfl
  · exact stdContract_iff.2 ⟨⟨rfl, rfl, .inl ⟨⟨2, rfl⟩, ⟨1, rfl⟩⟩⟩, by decide⟩
  · exact own_std
def mixedVal : String → RVal → Prop
  | "a" => RVal.HasTy (.scalar .f32)
  | "b" => RVal.HasTy own.out
  | _ => fun _ => False
theorem mixed_as : ∀ f ∈ mixed, AsContract (mixedVal f.1) f.2 := by
  intro f hf
  simp only [mixed, List.mem_cons, List.not_mem_nil, or_false] at hf
  rcases hf with rfl | rfl
  · exact ⟨fun v hv => ⟨v, rfl, hv, rfl⟩, fun o ho => ⟨o, rfl, ho⟩⟩
  · exact own_as
example (l : Layout) := C58_layout V mixed_std (mixed_compiles l).choose_spec
example (l : Layout) := C58_contract V mixed_std (.inr (by simp [mixed])) (mixed_compiles l).choose_spec
example (l : Layout) := C58_conversion mixed_as (mixed_compiles l).choose_spec
example (l : Layout) := C58_bytes V mixed_std mixed_as (mixed_compiles l).choose_spec
  (v := .struct [("a", flt 1), ("b", .struct [("lo", .scalar .f64 1), ("hi", .scalar .f64 2)])])
  ⟨_, rfl, rfl, fun x hx => by
    simp only [List.mem_cons, List.not_mem_nil, or_false] at hx
    rcases hx with rfl | rfl
    · exact rfl
    · exact ⟨rfl, rfl, rfl, rfl, trivial⟩⟩
example (l : Layout) := C58_supported V E (lightImpl_ok l)
example := C58_needs_align
example := C58_needs_pow2

example := C60_which Ex.plainBool_wf
theorem plainBool_noOther : Ex.plainBool.NoOther := by
  intro t r m ht hm ho
  simp only [Ex.plainBool, List.cons.injEq] at ht
  obtain ⟨rfl, -⟩ := ht
  simp only [List.mem_singleton] at hm
  subst hm
  exact absurd rfl ho
example (l : Layout) := C60_derive (tg := x86_64) (l := l) (name := "S") (fields := [Ex.plainBool])
  (by simpa using Ex.plainBool_wf) (by simpa using ⟨_, _, _, rfl, List.mem_cons_self, rfl⟩)
  (by simpa using plainBool_noOther)
example (l : Layout) := C60_missing (tg := x86_64) (l := l) (name := "S")
  (fields := [{ Ex.plainBool with types := [⟨true, []⟩] }]) List.mem_cons_self (by simp)
example := C60_no_fields
example := C60_accepted C60_no_round_trip.choose_spec.1 (List.mem_singleton.2 rfl)
example := C60_shadowed_exception Ex.negated_wf rfl (List.mem_cons_of_mem _ List.mem_cons_self) rfl rfl rfl
  (by simp)
example := C60_rest C60_no_round_trip.choose_spec.1
example := C60_no_round_trip

example (l : Layout) := C61_read_fields V E (bs := List.replicate 96 7) (lightImpl_ok l)
  (by rw [light_size]; rfl)
theorem atten_more_accepted (l : Layout) :
    (Ty.struct "T" ([("f", .scalar .f32), ("v", .foreign "glam::Vec2")] ++ [("z", vec3)])).accepted l =
      true := by cases l <;> decide
theorem atten_base_accepted (l : Layout) :
    (Ty.struct "S" [("f", .scalar .f32), ("v", .foreign "glam::Vec2")]).accepted l = true := by
  cases l <;> decide
example (l : Layout) := C61_monotone V (n := "A") (n' := "B") (fs := [("f", .scalar .f32), ("z", vec3)])
  (gs := [("f", .scalar .f32), ("v", .foreign "glam::Vec2"), ("z", vec3)])
  (.cons_cons _ (.cons _ (.cons_cons _ .slnil)))
  (impl_ok l (.struct "A" [("f", .scalar .f32), ("z", vec3)]) (by cases l <;> decide))
  (impl_ok l (.struct "B" _) (atten_more_accepted l))
example (l : Layout) (buf : List Byte) := C61_compatible V E (buf := buf)
  (impl_ok l _ (atten_base_accepted l)) (impl_ok l _ (atten_more_accepted l))
example (l : Layout) := C61_old_reads_new V E (impl_ok l _ (atten_base_accepted l))
  (impl_ok l _ (atten_more_accepted l))
  (w := .struct [("f", flt 1), ("v", .newtype (v2 (flt 2) (flt 3))), ("z", v3 (flt 4) (flt 5) (flt 6))])
  ⟨_, rfl, rfl, ⟨_, rfl⟩, rfl, ⟨_, glam_vec2, _, rfl, uniform2 (flt_hasVal _) (flt_hasVal _)⟩, rfl,
    vec3_hasVal _ _ _, trivial⟩

/-! ## The text of the derives -/

theorem light_text (l : Layout) : ∃ ts items, Tokens.emitTokens l .inCrate
      { ident := "Light", data := .structNamed (light_fields l).choose } = .ok ts ∧ RustSyntax.Reads ts items := by
  obtain ⟨ts, h, ⟨items, hi⟩, -⟩ := C62_expansion x86_64 l .inCrate "Light" (light_fields l).choose
  exact ⟨ts, items, h, hi⟩
theorem generic_text (l : Layout) : ∃ ts items, Tokens.emitTokens l .everywhere
      ⟨"G", ["A", "B"], .structNamed (light_fields l).choose⟩ = .ok ts ∧ RustSyntax.Reads ts items := by
  rcases Tokens.emit_sim l .everywhere ⟨"G", ["A", "B"], .structNamed (light_fields l).choose⟩ with
    ⟨ts, _, _, _, _, h1, _, _, _, _, h2, _⟩ | ⟨e, h1, _⟩
  · exact ⟨ts, _, h1, h2⟩
  · rw [C62_errors] at h1
    simp at h1

example (l : Layout) := C62_expansion x86_64 l .inCrate "Light" (light_fields l).choose
example (l : Layout) := C62_resolve .inCrate (light_fields l).choose_spec
  (light_text l).choose_spec.choose_spec.1 (light_text l).choose_spec.choose_spec.2
example (l : Layout) := C62_generics x86_64 l .everywhere "G" "A" ["B"] _
  (generic_text l).choose_spec.choose_spec.1 (generic_text l).choose_spec.choose_spec.2
example (l : Layout) := C62_errors l .everywhere (⟨"E", [], .enum⟩ : DeriveInput Impl) .notStruct
example (l : Layout) := C62_struct rfl (light_text l).choose_spec.choose_spec.1
  (light_text l).choose_spec.choose_spec.2
example (l : Layout) := C62_as_bytes (light_text l).choose_spec.choose_spec.1
  (light_text l).choose_spec.choose_spec.2
example (l : Layout) := C62_debug_definitions (light_text l).choose_spec.choose_spec.1
  (light_text l).choose_spec.choose_spec.2
example := C62_glsl "Light" [("position", vec3), ("r#type", .scalar .u32)]

end Crevice.Apply
