import Verif.Proof.Layout
import Verif.Spec.Coincide
/-
Types whose std140 and std430 implementations are the same.
-/
namespace Crevice

theorem vecPrimitive_same (n : String) : Layout.std430.vecPrimitive n = Layout.std140.vecPrimitive n :=
  rfl

theorem matRow_same (r : MatRow) : r.primitive .std430 = r.primitive .std140 := by
  unfold MatRow.primitive
  have : ∀ f : MatField, f.rty .std430 = f.rty .std140 := by
    intro f; cases f <;> rfl
  simp only [this]

theorem primitive_same {n : String} (h : n ≠ "Mat2") :
    Layout.std430.primitive n = Layout.std140.primitive n := by
  have h' : ("Mat2" == n) = false := by simpa using fun e => h e.symm
  unfold Layout.primitive
  rw [vecPrimitive_same]
  cases Layout.std140.vecPrimitive n with
  | some p => rfl
  | none =>
    have : (matrices430.find? fun r => r.name == n) = matrices140.find? fun r => r.name == n := by
      simp only [matrices430, matrices140, List.find?_cons, h']
    simp only [Layout.matrices, this]
    cases matrices140.find? fun r => r.name == n with
    | none => rfl
    | some r => exact matRow_same r

theorem scalarImpl_coincide (s : Scalar) : scalarImpl .std430 s = scalarImpl .std140 s := by
  cases s <;> rfl

theorem mscalarImpl_coincide (s : MScalar) : mscalarImpl .std430 s = mscalarImpl .std140 s := by
  cases s <;> rfl

theorem mat2_rows : ∀ r ∈ easyRows, r.stdName = "Mat2" →
    r.ty.kind = .matrix ∧ r.ty.scalar = .f32 ∧ r.ty.dim = 2 := by decide +kernel

theorem vecImpl_coincide {m : MathTy} (hk : m.kind ≠ .matrix) : vecImpl .std430 m = vecImpl .std140 m := by
  unfold vecImpl
  cases hr : easyRow m with
  | none => rfl
  | some r =>
    obtain ⟨hm, rfl⟩ := easyRow_mem hr
    have : r.stdName ≠ "Mat2" := fun h => hk (mat2_rows r hm h).1
    simp only [Option.bind_some, mscalarImpl_coincide, easyImpl, primitive_same this]

theorem mathImpl_coincide {m : MathTy} (h : ¬ (m.kind = .matrix ∧ m.scalar = .f32 ∧ m.dim = 2)) :
    mathImpl .std430 m = mathImpl .std140 m := by
  by_cases hk : m.kind = .matrix
  · unfold mathImpl
    rw [hk]
    simp only
    cases hr : easyRow m with
    | none => rfl
    | some r =>
      obtain ⟨hm, rfl⟩ := easyRow_mem hr
      have : r.stdName ≠ "Mat2" := fun h' => h (mat2_rows r hm h')
      simp only [Option.bind_some, easyImpl, primitive_same this,
        vecImpl_coincide (m := r.ty.column) (by simp [MathTy.column])]
  · rw [mathImpl_vec hk, mathImpl_vec hk, vecImpl_coincide hk]

theorem math_coincides {m : MathTy} {g : Glsl.Ty} (hg : m.glsl = some g) (hc : g.coincides = true) :
    ¬ (m.kind = .matrix ∧ m.scalar = .f32 ∧ m.dim = 2) := by
  rintro ⟨h1, h2, h3⟩
  obtain ⟨lib, kind, sc, dim⟩ := m
  simp only at h1 h2 h3
  subst h1 h2 h3
  simp [MathTy.glsl] at hg
  subst hg
  revert hc
  decide

theorem structAl_same {is : List (String × Impl)} (h : 16 ≤ maxArr (is.map fun f => f.2.alignment)) :
    structAl .std430 is = structAl .std140 is := by
  simp only [structAl, maxArr_cons, Layout.minStructAlignment]
  omega

theorem resolve_coincides {tg : Target} (htg : tg.Valid) {env : ForeignEnv} {t : Ty} {i j : Impl}
    (h430 : resolve tg env .std430 t = some i) (h140 : resolve tg env .std140 t = some j)
    {g : Glsl.Ty} (hg : t.glsl = some g) (hc : g.coincides = true) : i = j := by
  induction t using Ty.ind generalizing i j g with
  | hs s =>
    simp only [resolve] at h430 h140
    rw [scalarImpl_coincide, h140] at h430
    exact (Option.some.inj h430).symm
  | hb =>
    have h : resolve tg env .std430 .bool = resolve tg env .std140 .bool := rfl
    rw [h, h140] at h430
    exact (Option.some.inj h430).symm
  | hm m =>
    simp only [resolve] at h430 h140
    rw [mathImpl_coincide (math_coincides hg hc), h140] at h430
    exact (Option.some.inj h430).symm
  | hf n =>
    simp only [resolve, Option.bind_eq_some_iff, Option.map_eq_some_iff] at h430 h140
    obtain ⟨row, hr, a, ha, rfl⟩ := h430
    obtain ⟨row', hr', b, hb, rfl⟩ := h140
    rw [hr] at hr'
    cases hr'
    simp only [Ty.glsl, foreignMath_row hr, Option.bind_some] at hg
    rw [mathImpl_coincide (math_coincides hg hc), hb] at ha
    cases ha
    rfl
  | hst n fs ih =>
    obtain ⟨is, hr, -, rfl⟩ := resolve_struct h430
    obtain ⟨js, hr', -, rfl⟩ := resolve_struct h140
    obtain ⟨ms, rfl, hne, hms⟩ := glsl_struct hg
    have hag : AgreesAll .std430 is ms := (resolveFields_all2 hr).comp (glslMembers_all2 hms)
      fun f _ b c hb hc => ⟨hb.1.symm.trans hc.1, agrees_resolve htg hb.2 hc.2⟩
    simp only [Glsl.Ty.coincides, Bool.and_eq_true, decide_eq_true_eq] at hc
    rw [maxAlign_eq hag] at hc
    have he : is = js := by
      obtain ⟨hc, -⟩ := hc
      clear h430 h140 hag hne hg
      induction fs generalizing is js ms with
      | nil =>
        simp only [resolveFields, Option.some.injEq] at hr hr'
        rw [← hr, ← hr']
      | cons f r ihr =>
        obtain ⟨m, t⟩ := f
        simp only [resolveFields, Option.bind_eq_some_iff, Option.map_eq_some_iff] at hr hr'
        simp only [glslMembers, Option.bind_eq_some_iff, Option.map_eq_some_iff] at hms
        obtain ⟨a, ha, as, has, rfl⟩ := hr
        obtain ⟨b, hb, bs, hbs, rfl⟩ := hr'
        obtain ⟨x, hx, xs, hxs, rfl⟩ := hms
        simp only [Glsl.coincidesMembers, Bool.and_eq_true] at hc
        rw [ih (m, t) (by simp) ha hb hx hc.1,
          ihr (fun g hg => ih g (List.mem_cons_of_mem _ hg)) as has bs hbs xs hxs hc.2]
    subst he
    rw [structAl_same hc.2]
  | hd t ih => simp [resolve] at h430
  | hu n t ih =>
    simp only [resolve, Option.map_eq_some_iff] at h430 h140
    obtain ⟨a, ha, rfl⟩ := h430
    obtain ⟨b, hb, rfl⟩ := h140
    rw [ih ha hb hg hc]
  | ho l' t ih =>
    simp only [resolve] at h430 h140
    split at h430
    · split at h140
      · simp only [Option.map_eq_some_iff] at h430 h140
        obtain ⟨a, ha, rfl⟩ := h430
        obtain ⟨b, hb, rfl⟩ := h140
        rw [ih ha hb hg hc]
      · cases h140
    · cases h430

end Crevice
