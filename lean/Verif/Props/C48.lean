import Verif.Proof.Strip
import Verif.Props.C06_C12
/-
C48 types with hand-written implementations of AsStdN, as such and as parts of other types.
-/
namespace Crevice

/-- C48: a type that contains types with hand-written implementations compiles iff the type with
their representations in place of them does, and then Output type, size and ALIGNMENT are those of
the latter, whatever the hand-written conversions compute. -/
theorem C48_layout (tg : Target) (env env' : ForeignEnv) (l : Layout) (t : Ty) :
    ((∃ i, resolve tg env l t = some i) ↔ ∃ j, resolve tg env' l t.strip = some j) ∧
    ∀ i j, resolve tg env l t = some i → resolve tg env' l t.strip = some j →
      i.out = j.out ∧ i.alignment = j.alignment := by
  refine ⟨?_, fun i j hi hj => ?_⟩
  · rw [resolve_isSome_iff, resolve_isSome_iff, accepted_strip]
  · have := strip_sameLayout hi hj
    exact ⟨this.1, this.2.1⟩

/-- C48: converting a value gives exactly the bytes one gets by first replacing the parts with
hand-written implementations by what their conversions make of them. -/
theorem C48_bytes {tg : Target} {env : ForeignEnv} (henv : env.Lawful tg) {l : Layout}
    {t : Ty} {i j : Impl} (hi : resolve tg env l t = some i) (hj : resolve tg env l t.strip = some j)
    {v : RVal} (hv : t.HasVal tg env v) :
    ∃ w, t.stripVal env v = some w ∧ t.strip.HasVal tg env w ∧ 
      (i.asStd v).bind (bytesOf tg i.out) = (j.asStd w).bind (bytesOf tg j.out) := by
  obtain ⟨w, h1, h2, h3⟩ := asStd_strip henv hi hj hv
  exact ⟨w, h1, h2, by rw [h3, (strip_sameLayout hi hj).1]⟩

/-- C48: the layout of any type is the same whatever the conversions of external crates and of
hand-written implementations compute. -/
theorem C48_conversions_irrelevant {tg : Target} {env : ForeignEnv} (env' : ForeignEnv) {l : Layout}
    {t : Ty} {i : Impl} (h : resolve tg env l t = some i) :
    ∃ j, resolve tg env' l t = some j ∧ j.out = i.out ∧ j.alignment = i.alignment := by
  obtain ⟨j, hj, h1, h2, -⟩ := resolve_env env' h
  exact ⟨j, hj, h1.symm, h2.symm⟩

namespace Ex

/-- `struct Material { tint: Color, on: bool, weight: f32 }` where the user wrote
`impl AsStdN for Color` by way of `mint::Vector3<f32>`. -/
def material : Ty := .struct "Material" [("tint", .user "Color" vec3), ("on", .bool), ("weight", f32)]

/-- A value of type `Material`. -/
def materialVal : RVal := .struct
  [("tint", .newtype (v3 (flt 1) (flt 2) (flt 3))), ("on", .bool true), ("weight", flt 4)]

theorem material_resolves (tg : Target) (l : Layout) : ∃ i, resolve tg env l material = some i :=
  (resolve_isSome_iff tg env l material).2 (by cases l <;> decide)

theorem material_hasVal : material.HasVal x86_64 env materialVal := by
  refine ⟨_, rfl, rfl, ?_, rfl, ⟨_, rfl⟩, rfl, ⟨_, rfl⟩, trivial⟩
  exact ⟨_, rfl, uniform3 (flt_hasVal _) (flt_hasVal _) (flt_hasVal _)⟩

theorem material_glsl : material.glsl = some (.struct "Material"
    [("tint", .vec .float 3), ("on", .scalar .bool), ("weight", .scalar .float)]) := rfl

theorem material_strip : material.strip =
    .struct "Material" [("tint", vec3), ("on", .bool), ("weight", f32)] := rfl

end Ex

/-- The hypotheses of C48 and of the theorems about conversion hold of `Material`; the bytes are those
of three floats, a word and a float at the offsets of the layout. -/
example (l : Layout) : ∃ i j o bs, resolve x86_64 Ex.env l Ex.material = some i ∧
    resolve x86_64 Ex.env l Ex.material.strip = some j ∧ Ex.material.HasVal x86_64 Ex.env Ex.materialVal ∧
    i.asStd Ex.materialVal = some o ∧ bytesOf x86_64 i.out o = some bs ∧
    Glsl.read .little l (.struct "Material"
      [("tint", .vec .float 3), ("on", .scalar .bool), ("weight", .scalar .float)]) bs 0 =
      some (.struct [("tint", .vec [.float 1, .float 2, .float 3]), ("on", .bool true),
        ("weight", .float 4)]) ∧ i.fromStd o = some Ex.materialVal := by
  obtain ⟨i, hi⟩ := Ex.material_resolves x86_64 l
  obtain ⟨j, hj⟩ := ((C48_layout x86_64 Ex.env Ex.env l Ex.material).1).1 ⟨i, hi⟩
  obtain ⟨o, bs, x, h1, h2, h3, h4⟩ :=
    C06_shader_reads_value Ex.x86_64_valid Ex.env_lawful hi Ex.material_glsl Ex.material_hasVal
  obtain ⟨o', h5, -, h6⟩ := C10_round_trip Ex.env_lawful hi Ex.material_hasVal
  rw [h1] at h5; cases h5
  refine ⟨i, j, o, bs, hi, hj, Ex.material_hasVal, h1, h2, ?_, h6⟩
  exact h4.trans h3.symm

end Crevice
