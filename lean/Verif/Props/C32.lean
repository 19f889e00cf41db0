import Verif.Proof.SameView
import Verif.Props.C28_C29
/-
C32: every math library gives the same bytes and the same GLSL names.
-/
namespace Crevice

/-- C32: whenever two Rust types stand for the same GLSL type (whatever math libraries they are
built from, at any depth), values with the same components convert to the same bytes, and the two
Output types have the same alignment and size. -/
theorem C32_same_bytes {tg : Target} (htg : tg.Valid) {env : ForeignEnv} (henv : env.Lawful tg)
    {l : Layout} {t u : Ty} {g : Glsl.Ty} (hgt : t.glsl = some g) (hgu : u.glsl = some g)
    (hpt : t.plain = true) (hpu : u.plain = true) {i j : Impl} (hi : resolve tg env l t = some i)
    (hj : resolve tg env l u = some j) :
    i.alignment = j.alignment ∧ i.out.size tg = j.out.size tg ∧
    ∀ v w, t.HasVal tg env v → u.HasVal tg env w → t.denote env v = u.denote env w →
      ∃ o p bs, i.asStd v = some o ∧ j.asStd w = some p ∧
        bytesOf tg i.out o = some bs ∧ bytesOf tg j.out p = some bs := by
  have a := laidOut htg hi hgt
  have b := laidOut htg hj hgu
  refine ⟨by rw [a.alignment, b.alignment], by rw [a.size, b.size], ?_⟩
  intro v w hv hw hvw
  obtain ⟨o, bs, x, ho, hb, hx, -⟩ := C06_shader_reads_value htg henv hi hgt hv
  obtain ⟨p, bs', y, hp, hb', hy, -⟩ := C06_shader_reads_value htg henv hj hgu hw
  have he := same_view_bytes htg henv hgt hgu hpt hpu hi hj hv hw hx (hvw ▸ hx) ho hp
  obtain ⟨o', ho', hty, -⟩ := (conv_resolve henv hi).as_ok v hv
  rw [ho] at ho'; cases ho'
  obtain ⟨p', hp', hty', -⟩ := (conv_resolve henv hj).as_ok w hw
  rw [hp] at hp'; cases hp'
  refine ⟨o, p, _, ho, hp, (outBytes htg hi hty).1, ?_⟩
  rw [he]
  exact (outBytes htg hj hty').1

/-- C32: two mint or cgmath types with the same dimension and scalar type, both matrices or both
vectors or points, have the same implementation. -/
theorem C32_same_impl {tg : Target} {env : ForeignEnv} {l : Layout} {m m' : MathTy}
    (hd : m.dim = m'.dim) (hs : m.scalar = m'.scalar) (hk : m.kind = .matrix ↔ m'.kind = .matrix)
    {i j : Impl} (hi : resolve tg env l (.math m) = some i)
    (hj : resolve tg env l (.math m') = some j) : i = j :=
  mathImpl_same ⟨hk, hs, hd⟩ hi hj

/-- C32: every convertible scalar or math type, of any library, has the GLSL name of the built-in
type with its dimension and scalar type, and so has its Output type. -/
theorem C32_glsl_name {tg : Target} {env : ForeignEnv} {l : Layout} {t : Ty} {i : Impl}
    (hi : resolve tg env l t = some i)
    (ht : (∃ s, t = .scalar s) ∨ (∃ m, t = .math m) ∨ ∃ n, t = .foreign n) :
    ∃ n g, t.glslName = some n ∧ (Ty.output l t).glslName = some n ∧ Glsl.builtin n = some g ∧
      t.glsl = some g := by
  have hmath : ∀ m j, mathImpl l m = some j → ∃ n, mathGlslName m = some n ∧
      outputGlslName l m = some n := by
    intro m j hj
    obtain ⟨r, hr⟩ := (mathImpl_some_iff l m).1 ⟨j, hj⟩
    obtain ⟨hm, rfl⟩ := easyRow_mem hr
    obtain ⟨p, g, h1, h2, h3, h4⟩ := row_glsl hm l
    refine ⟨p.glsl, ?_, ?_⟩
    · simpa [mathGlslName, hr] using h4
    · simp [outputGlslName, hr, h1]
  have key : ∃ n, t.glslName = some n ∧ (Ty.output l t).glslName = some n := by
    rcases ht with ⟨s, rfl⟩ | ⟨m, rfl⟩ | ⟨n, rfl⟩
    · cases s with
      | u8 => cases l <;> simp [resolve, scalarImpl, Layout.scalarAlignment] at hi
      | _ => exact ⟨_, rfl, rfl⟩
    · obtain ⟨n, h1, h2⟩ := hmath m i hi
      exact ⟨n, h1, h2⟩
    · simp only [resolve, Option.bind_eq_some_iff, Option.map_eq_some_iff] at hi
      obtain ⟨row, hrow, j, hj, -⟩ := hi
      obtain ⟨n, h1, h2⟩ := hmath row.mint j hj
      exact ⟨n, by simp [Ty.glslName, hrow, h1], by simp [Ty.glslName, Ty.outputName, hrow, h2]⟩
  obtain ⟨n, h1, h2⟩ := key
  obtain ⟨g, hb, hg⟩ := glslName_builtin h1 (by
    rcases ht with ⟨s, rfl⟩ | ⟨m, rfl⟩ | ⟨n, rfl⟩ <;> simp)
  exact ⟨n, g, h1, h2, hb, hg⟩

/-- Three structs that differ only in the libraries they use. -/
example : ∃ g, (Ty.struct "S" [("a", .math ⟨.mint, .vector, .f32, 3⟩), ("b", .bool)]).glsl = some g ∧
    (Ty.struct "S" [("a", .math ⟨.cgmath, .point, .f32, 3⟩), ("b", .bool)]).glsl = some g ∧
    (Ty.struct "S" [("a", .foreign "nalgebra::Point3<f32>"), ("b", .bool)]).glsl = some g :=
  ⟨_, rfl, rfl, rfl⟩

example : (Ty.foreign "glam::DMat3").glslName = some "dmat3" ∧
    (Ty.math ⟨.cgmath, .point, .bool, 2⟩).glslName = some "bvec2" ∧
    (Ty.output .std430 (.foreign "nalgebra::Point3<u32>")).glslName = some "uvec3" := by decide

/-- The same vector from mint, cgmath and (as modelled by `Ex.env`) glam. -/
example : (Ty.math ⟨.mint, .vector, .f32, 2⟩).denote Ex.env (Ex.v2 (Ex.flt 1) (Ex.flt 2)) =
    (Ty.foreign "glam::Vec2").denote Ex.env (.newtype (Ex.v2 (Ex.flt 1) (Ex.flt 2))) := rfl

end Crevice
