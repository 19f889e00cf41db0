import Verif.Proof.EnvIndep
import Verif.Spec.Correspond
/-
Concrete types, values and environments used to show that the hypotheses of the theorems can be
met. Nothing here is part of the model.
-/
namespace Crevice.Ex
open Crevice

/-- No foreign code at all. -/
def env0 : ForeignEnv :=
  { has := fun _ _ => False, into := fun _ _ => none, ofMint := fun _ _ => none
    userHas := fun _ _ _ => False, userInto := fun _ _ _ => none, userOf := fun _ _ _ => none }

/-- The values of the foreign types of `env` below: they wrap the mint value. -/
def foreignHas (n : String) (v : RVal) : Prop :=
  ∃ m, foreignMath n = some m ∧ ∃ w, v = .newtype w ∧ m.HasVal w

mutual
/-- `Ty.HasVal` on x86_64 for the environment `env` below: values of a type with a hand-written
implementation wrap the value they convert to. -/
def hasVal : Ty → RVal → Prop
  | .scalar s, v => ∃ b, v = .scalar s b
  | .bool, v => ∃ b, v = .bool b
  | .math m, v => m.HasVal v
  | .foreign n, v => foreignHas n v
  | .struct _ fs, v => ∃ vs, v = .struct vs ∧ hasVals fs vs
  | .dynamic t, v => ∃ w, v = .newtype w ∧ hasVal t w
  | .output l t, v => ∃ i, resolve x86_64 env0 l t = some i ∧ RVal.HasTy i.out v
  | .user _ t, v => ∃ w, v = .newtype w ∧ hasVal t w
/-- Field by field. -/
def hasVals : List (String × Ty) → List (String × RVal) → Prop
  | [], [] => True
  | (n, t) :: r, (m, v) :: s => n = m ∧ hasVal t v ∧ hasVals r s
  | _, _ => False
end

/-- A lawful stand-in for glam and nalgebra and for the user's implementations: their values wrap the
value they convert to. -/
def env : ForeignEnv :=
  { userHas := fun _ t v => ∃ w, v = .newtype w ∧ hasVal t w
    userInto := fun _ _ v => match v with
      | .newtype w => some w
      | _ => none
    userOf := fun _ _ w => some (.newtype w)
    has := fun n v => ∃ m, foreignMath n = some m ∧ ∃ w, v = .newtype w ∧ m.HasVal w
    into := fun _ v => match v with
      | .newtype w => some w
      | _ => none
    ofMint := fun _ w => some (.newtype w) }

theorem hasVal_iff (t : Ty) (v : RVal) : t.HasVal x86_64 env v ↔ hasVal t v := by
  induction t using Ty.ind generalizing v with
  | hs s => rfl
  | hb => rfl
  | hm m => rfl
  | hf n => rfl
  | hst n fs ih =>
    simp only [Ty.HasVal, hasVal]
    have : ∀ vs, HasVals x86_64 env fs vs ↔ hasVals fs vs := by
      induction fs with
      | nil => intro vs; cases vs <;> rfl
      | cons f r ihr =>
        obtain ⟨m, t⟩ := f
        intro vs
        cases vs with
        | nil => rfl
        | cons w s =>
          have h1 := ih (m, t) (by simp) w.2
          simp only at h1
          simp only [HasVals, hasVals, h1, ihr fun g hg => ih g (List.mem_cons_of_mem _ hg)]
    simp only [this]
  | hd t ih => simp only [Ty.HasVal, hasVal, ih]
  | hu n t ih => rfl
  | ho l t ih =>
    simp only [Ty.HasVal, hasVal]
    constructor
    · rintro ⟨i, h, hv⟩
      obtain ⟨j, hj, hs, -⟩ := resolve_env env0 h
      exact ⟨j, hj, hs ▸ hv⟩
    · rintro ⟨i, h, hv⟩
      obtain ⟨j, hj, hs, -⟩ := resolve_env env h
      exact ⟨j, hj, hs ▸ hv⟩

theorem env_exact : env.Exact x86_64 := by
  intro n t w v _ h
  cases h
  rfl

theorem env_lawful : env.Lawful x86_64 := by
  refine ⟨?_, ?_, ?_, ?_⟩
  rotate_left 2
  · rintro n t v ⟨w, rfl, hw⟩
    exact ⟨w, rfl, (hasVal_iff t w).2 hw, rfl⟩
  · intro n t w hw
    exact ⟨.newtype w, rfl, w, rfl, (hasVal_iff t w).1 hw⟩
  · rintro n m hm v ⟨m', hm', w, rfl, hw⟩
    rw [hm] at hm'; cases hm'
    exact ⟨w, rfl, hw, rfl⟩
  · intro n m hm w hw
    exact ⟨.newtype w, rfl, ⟨m, hm, w, rfl, hw⟩, rfl⟩

theorem x86_64_valid : x86_64.Valid := by
  intro s; cases s <;> simp [x86_64, Scalar.size]

theorem i686_valid : i686.Valid := by
  intro s; cases s <;> simp [i686, Scalar.size] <;> decide

/-- `mint::Vector3<f32>` -/
abbrev vec3 : Ty := .math ⟨.mint, .vector, .f32, 3⟩
/-- `mint::Vector2<f32>` -/
abbrev vec2 : Ty := .math ⟨.mint, .vector, .f32, 2⟩
/-- `cgmath::Matrix3<f32>` -/
abbrev mat3 : Ty := .math ⟨.cgmath, .matrix, .f32, 3⟩
/-- `f32` -/
abbrev f32 : Ty := .scalar .f32

/-- `struct Attenuation { k: f64, v: glam::Vec2 }` -/
def atten : Ty := .struct "Attenuation" [("k", .scalar .f64), ("v", .foreign "glam::Vec2")]

/-- `struct Light { position: Vector3<f32>, intensity: f32, enabled: bool, basis: Matrix3<f32>,
inner: Attenuation }` -/
def light : Ty := .struct "Light"
  [("position", vec3), ("intensity", f32), ("enabled", .bool), ("basis", mat3), ("inner", atten)]

/-- Some `f32` value. -/
def flt (b : BitVec 32) : RVal := .scalar .f32 b
/-- A struct with fields `x y z`. -/
def v3 (x y z : RVal) : RVal := .struct [("x", x), ("y", y), ("z", z)]
/-- A struct with fields `x y`. -/
def v2 (x y : RVal) : RVal := .struct [("x", x), ("y", y)]

/-- A value of type `Attenuation`. -/
def attenVal : RVal :=
  .struct [("k", .scalar .f64 0x3ff0000000000000), ("v", .newtype (v2 (flt 5) (flt 6)))]

/-- A value of type `Light`. -/
def lightVal : RVal := .struct
  [("position", v3 (flt 0x3f800000) (flt 0x40000000) (flt 0x40400000)),
   ("intensity", flt 0xbf800000), ("enabled", .bool true),
   ("basis", v3 (v3 (flt 1) (flt 2) (flt 3)) (v3 (flt 4) (flt 5) (flt 6)) (v3 (flt 7) (flt 8) (flt 9))),
   ("inner", attenVal)]

theorem flt_hasVal (b : BitVec 32) : MScalar.HasVal .f32 (flt b) := ⟨b, rfl⟩

theorem uniform3 {P : RVal → Prop} {x y z : RVal} (hx : P x) (hy : P y) (hz : P z) :
    UniformStruct ["x", "y", "z"] P (v3 x y z) := by
  refine ⟨_, rfl, rfl, ?_⟩
  intro a ha
  simp only [List.mem_cons, List.not_mem_nil, or_false] at ha
  rcases ha with rfl | rfl | rfl <;> assumption

theorem uniform2 {P : RVal → Prop} {x y : RVal} (hx : P x) (hy : P y) :
    UniformStruct ["x", "y"] P (v2 x y) := by
  refine ⟨_, rfl, rfl, ?_⟩
  intro a ha
  simp only [List.mem_cons, List.not_mem_nil, or_false] at ha
  rcases ha with rfl | rfl <;> assumption

theorem glam_vec2 : foreignMath "glam::Vec2" = some ⟨.mint, .vector, .f32, 2⟩ := by decide +kernel

theorem atten_hasVal (tg : Target) : atten.HasVal tg env attenVal := by
  refine ⟨_, rfl, rfl, ⟨_, rfl⟩, rfl, ?_, trivial⟩
  exact ⟨_, glam_vec2, _, rfl, uniform2 (flt_hasVal _) (flt_hasVal _)⟩

theorem light_hasVal (tg : Target) : light.HasVal tg env lightVal := by
  refine ⟨_, rfl, rfl, ?_, rfl, ⟨_, rfl⟩, rfl, ⟨_, rfl⟩, rfl, ?_, rfl, atten_hasVal tg, trivial⟩
  · exact uniform3 (flt_hasVal _) (flt_hasVal _) (flt_hasVal _)
  · exact uniform3 (uniform3 (flt_hasVal _) (flt_hasVal _) (flt_hasVal _))
      (uniform3 (flt_hasVal _) (flt_hasVal _) (flt_hasVal _))
      (uniform3 (flt_hasVal _) (flt_hasVal _) (flt_hasVal _))

theorem atten_resolves (tg : Target) (l : Layout) : ∃ i, resolve tg env l atten = some i :=
  (resolve_isSome_iff tg env l atten).2 (by cases l <;> decide)

theorem light_resolves (tg : Target) (l : Layout) : ∃ i, resolve tg env l light = some i :=
  (resolve_isSome_iff tg env l light).2 (by cases l <;> decide)

theorem light_glsl : light.glsl = some (.struct "Light"
    [("position", .vec .float 3), ("intensity", .scalar .float), ("enabled", .scalar .bool),
     ("basis", .mat .float 3 3),
     ("inner", .struct "Attenuation" [("k", .scalar .double), ("v", .vec .float 2)])]) := by
  rfl

end Crevice.Ex
