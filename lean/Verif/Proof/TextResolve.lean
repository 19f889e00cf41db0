import Verif.Proof.TextNames
import Verif.Proof.Conv
/-
What the text of the crate says about its types: trait resolution by the text and by the model.
-/
namespace Crevice.Tables
open RustCode RustTypes TypeNames

/-- `c` has an implementation, with `Output = O`. -/
def Good (env : ForeignEnv) (l : Layout) (c O : CTy) (i : Impl) : Prop :=
  ∃ N, ∀ n ≥ N, Conv env l c O i.asStd i.fromStd n ∧ OutOk env l O i.out i.alignment i.outDebug n ∧
    (G env n).candidates [mod l, asTrait l] [] O = some [blanketFound l O]

/-- `c` has no implementation. -/
def NoImpl (env : ForeignEnv) (l : Layout) (c : CTy) : Prop :=
  ∃ N, ∀ n ≥ N, (G env n).candidates [mod l, asTrait l] [] c = some []

/-- `t` stands for `c`. -/
def Norm (env : ForeignEnv) (t : RustCode.Ty) (c : Option CTy) : Prop :=
  ∃ N, ∀ n ≥ N, (G env n).norm topScope t = c

/-- The text and the model agree about a type. -/
def Agree (tg : Target) (env : ForeignEnv) (t : RustCode.Ty) (T : Crevice.Ty) : Prop :=
  (Norm env t none ∧ T.glslName = none ∧ ∀ l, resolve tg env l T = none ∧ T.outputName l = none) ∨
  ∃ c, Norm env t (some c) ∧ Name env c T.glslName ∧ ∃ O : Layout → CTy,
    (∀ l, (resolve tg env l T = none ∧ T.outputName l = none ∧ NoImpl env l c) ∨
      ∃ i, resolve tg env l T = some i ∧ Good env l c (O l) i ∧ Name env (O l) (T.outputName l) ∧
        (T.layoutFree = false → NoImpl env (other l) (O l))) ∧
    (T.layoutFree = true → O .std140 = O .std430)

theorem agree_none {tg : Target} {env : ForeignEnv} {t : RustCode.Ty} {T : Crevice.Ty} {c : CTy}
    (hn : Norm env t (some c)) (hname : Name env c T.glslName) (hr : ∀ l, resolve tg env l T = none)
    (ho : ∀ l, T.outputName l = none) (hc : ∀ l, NoImpl env l c) : Agree tg env t T :=
  .inr ⟨c, hn, hname, fun _ => boolCTy, fun l => .inl ⟨hr l, ho l, hc l⟩, fun _ => rfl⟩

theorem prims_noImpl {env : ForeignEnv} {l : Layout} {name : String} (hn : name ∈ primNames l) :
    NoImpl env (other l) (primCTy l name) := by
  refine ⟨3, fun n hn' => ?_⟩
  obtain ⟨k, rfl⟩ := le_split hn'
  exact forall_of_map (prims_as_other env k l) name hn

theorem prim_blanket {env : ForeignEnv} {l : Layout} {name : String} (hn : name ∈ primNames l) :
    ∀ m ≥ 3, (G env m).candidates [mod l, asTrait l] [] (primCTy l name) = some [blanketFound l (primCTy l name)] := by
  intro m hm
  obtain ⟨k, rfl⟩ := le_split hm
  exact forall_of_map (prims_as env k l) name hn

theorem simple_norm (env : ForeignEnv) (s : String) (hs : s ∈ ["f32", "f64", "i32", "u32", "u8", "bool"]) :
    Norm env (ty s) (some (simpleCTy s)) := by
  refine ⟨1, fun n hn => ?_⟩
  obtain ⟨k, rfl⟩ := le_split hn
  have : ["f32", "f64", "i32", "u32", "u8", "bool"].map (fun s => (G env (k + 1)).norm topScope (ty s)) =
      ["f32", "f64", "i32", "u32", "u8", "bool"].map fun s => some (simpleCTy s) := by kernel_rfl
  exact forall_of_map this s hs

theorem agree_scalar (tg : Target) (env : ForeignEnv) (s : Scalar) : Agree tg env (ty (scalarName s)) (.scalar s) := by
  have hn := simple_norm env (scalarName s) (by cases s <;> decide)
  by_cases hs : s ∈ scalars
  · refine .inr ⟨_, hn, scalar_name env s, fun _ => simpleCTy (scalarName s), fun l => .inr ?_, fun _ => rfl⟩
    have ha : ∃ a, l.scalarAlignment s = some a := by
      cases s <;> first | exact absurd hs (by decide) | (cases l <;> exact ⟨_, rfl⟩)
    obtain ⟨a, ha⟩ := ha
    refine ⟨blanketImpl (.scalar s) a true, by simp [resolve, scalarImpl, ha], ⟨7, fun n hn => ⟨?_, ?_, ?_⟩⟩,
      scalar_name env s, fun h => by cases h⟩
    · exact conv_blanket (scalar_blanket hs) n (by omega)
    · exact scalar_ok ha n (by omega)
    · exact scalar_blanket hs n (by omega)
  · cases s with
    | u8 =>
      refine agree_none hn (scalar_name env .u8) (fun l => by cases l <;> rfl) (fun l => rfl) (fun l => ⟨3, fun n hn => ?_⟩)
      obtain ⟨k, rfl⟩ := le_split hn
      exact u8_as env k l
    | _ => exact absurd (by decide) hs

theorem agree_bool (tg : Target) (env : ForeignEnv) : Agree tg env (ty "bool") .bool :=
  .inr ⟨_, simple_norm env "bool" (by decide), bool_name env, fun _ => boolCTy,
    fun l => .inr ⟨boolImpl l, rfl, ⟨12, fun n hn => ⟨conv_bool env l n hn, Bool_ok env l n (by omega),
      Bool_blanket env l n (by omega)⟩⟩, Bool_name env, fun h => by cases h⟩, fun _ => rfl⟩

theorem easyRow_of_math {l : Layout} {m : MathTy} (h : easyRow m = none) : mathImpl l m = none := by
  cases hm : mathImpl l m with
  | none => rfl
  | some i =>
    obtain ⟨row, hr, -⟩ := conv_math (env := ⟨fun _ _ => True, fun _ => some, fun _ => some, fun _ _ _ => True, fun _ _ => some, fun _ _ => some⟩) hm
    rw [h] at hr
    cases hr

theorem agree_math (tg : Target) (env : ForeignEnv) (m : MathTy) : Agree tg env (mathRustTy m) (.math m) := by
  have hn : Norm env (mathRustTy m) (some (mathCTy m)) := by
    refine ⟨2, fun n hn => ?_⟩
    obtain ⟨k, rfl⟩ := le_split hn
    exact math_norm env k m
  cases he : easyRow m with
  | none =>
    refine agree_none hn (math_name env m) (fun l => easyRow_of_math he)
      (fun l => by simp [Ty.outputName, outputGlslName, he]) (fun l => ⟨3, fun n hn => ?_⟩)
    obtain ⟨k, rfl⟩ := le_split hn
    exact math_none env k l m he
  | some r =>
    refine .inr ⟨_, hn, math_name env m, fun l => primCTy l r.stdName, fun l => .inr ?_, fun h => by cases h⟩
    cases hi : mathImpl l m with
    | none =>
      rw [mathImpl_none hi] at he
      cases he
    | some i =>
      obtain ⟨row, hr, hc⟩ := conv_math (env := env) hi
      rw [he] at hr
      injection hr with hr
      subst hr
      have hs := row_std l r (easyRow_mem he).1
      have ho : (Ty.math m).outputName l = (l.primitive r.stdName).map fun p => p.glsl := by
        simp [Ty.outputName, outputGlslName, he]
      exact ⟨i, hi, ⟨22, fun n hn => ⟨(hc n hn).1, (hc n hn).2, prim_blanket hs n (by omega)⟩⟩,
        ho ▸ prim_name env hs, fun _ => prims_noImpl hs⟩

theorem agree_foreign (tg : Target) (env : ForeignEnv) {lib name : String} {arg : Option String}
    (hl : lib = "glam" ∨ lib = "nalgebra") (hn : Ident name) (ha : ∀ a ∈ arg, Ident a) :
    Agree tg env (.path [lib, name] (argTys arg)) (.foreign (pathText [lib, name] arg.toList)) := by
  cases hm : mintyRow (pathText [lib, name] arg.toList) with
  | none =>
    have hr : ∀ l, resolve tg env l (.foreign (pathText [lib, name] arg.toList)) = none := by
      intro l
      simp only [resolve, hm]
      rfl
    have ho : ∀ l, (Ty.foreign (pathText [lib, name] arg.toList)).outputName l = none := by
      intro l
      simp only [Ty.outputName, hm]
      rfl
    have hg : (Ty.foreign (pathText [lib, name] arg.toList)).glslName = none := by
      simp only [Ty.glslName, hm]
      rfl
    rcases foreign_none (env := env) hl hm with h | ⟨cs, h, hc⟩
    · exact .inl ⟨⟨2, h⟩, hg, fun l => ⟨hr l, ho l⟩⟩
    · exact agree_none ⟨2, h⟩ (hg ▸ foreign_name env hl hc) hr ho fun l => ⟨3, foreign_candidates hl hc⟩
  | some row =>
    obtain ⟨hrow, hf⟩ := mintyRow_mem hm
    have hnorm : Norm env (.path [lib, name] (argTys arg)) (some (foreignCTy row.foreign)) := by
      refine ⟨2, fun n hn' => ?_⟩
      obtain ⟨k, rfl⟩ := le_split hn'
      rw [← foreignRustTy_pathText (ident_lib hl) hn ha, ← hf]
      exact forall_of_map (minty_norm env k) row hrow
    cases he : easyRow row.mint with
    | none =>
      exfalso
      have := List.all_eq_true.1 (minty_math .std140) row hrow
      rw [easyRow_of_math he] at this
      cases this
    | some r =>
      have hg : (Ty.foreign (pathText [lib, name] arg.toList)).glslName = mathGlslName row.mint := by
        simp only [Ty.glslName, hm, Option.bind_some]
      refine .inr ⟨_, hnorm, hg ▸ mint_name env hrow, fun l => primCTy l r.stdName, fun l => .inr ?_, fun h => by cases h⟩
      cases hi : mathImpl l row.mint with
      | none =>
        rw [mathImpl_none hi] at he
        cases he
      | some i =>
        obtain ⟨r', hr', hc⟩ := conv_foreign (env := env) hrow hi
        rw [he] at hr'
        injection hr' with hr'
        subst hr'
        have hs := row_std l r (easyRow_mem he).1
        refine ⟨mintyImpl env row.foreign i, ?_, ⟨27, fun n hn => ⟨(hc n hn).1, (hc n hn).2, prim_blanket hs n (by omega)⟩⟩,
          ?_, fun _ => prims_noImpl hs⟩
        rotate_left
        · have ho : (Ty.foreign (pathText [lib, name] arg.toList)).outputName l =
              (l.primitive r.stdName).map fun p => p.glsl := by
            simp only [Ty.outputName, hm, Option.bind_some, outputGlslName, he]
          exact ho ▸ prim_name env hs
        simp only [resolve, hm, hi, hf, Option.bind_some, Option.map_some]

theorem agree_dynamic (tg : Target) (env : ForeignEnv) {t : RustCode.Ty} {T : Crevice.Ty} (h : Agree tg env t T) :
    Agree tg env (.path ["crate", "std140", "DynamicUniform"] [t]) (.dynamic T) := by
  have hrule : ∀ n, (G env (n + 1)).norm topScope (.path ["crate", "std140", "DynamicUniform"] [t]) =
      ([t].mapM ((G env n).norm topScope)).map (.named ["std140", "DynamicUniform"]) := by
    intro n
    rw [norm_succ]
    kernel_rfl
  rcases h with ⟨⟨N, hN⟩, -, hr⟩ | ⟨c, ⟨N, hN⟩, -, O, hO, -⟩
  · refine .inl ⟨⟨N + 1, fun n hn => ?_⟩, rfl, fun l => ⟨?_, rfl⟩⟩
    · obtain ⟨k, rfl⟩ : ∃ k, n = k + 1 := ⟨n - 1, by omega⟩
      rw [hrule]
      simp [hN k (by omega)]
    · cases l with
      | std140 => simp [resolve, hr]
      | std430 => rfl
  · have hnorm : Norm env (.path ["crate", "std140", "DynamicUniform"] [t]) (some (dynCTy c)) := by
      refine ⟨N + 1, fun n hn => ?_⟩
      obtain ⟨k, rfl⟩ : ∃ k, n = k + 1 := ⟨n - 1, by omega⟩
      rw [hrule]
      simp [hN k (by omega), dynCTy]
    have h430 : NoImpl env .std430 (dynCTy c) := by
      refine ⟨4, fun n hn => ?_⟩
      obtain ⟨k, rfl⟩ := le_split hn
      exact dyn_as430 env k c
    rcases hO .std140 with ⟨hr, -, M, hM⟩ | ⟨i, hr, ⟨M, hM⟩, -⟩
    · refine agree_none hnorm (dyn_name env c) (fun l => ?_) (fun l => rfl) (fun l => ?_)
      · cases l with
        | std140 => simp [resolve, hr]
        | std430 => rfl
      · cases l with
        | std140 =>
          refine ⟨M + 4, fun n hn => ?_⟩
          obtain ⟨k, rfl⟩ : ∃ k, n = k + 4 := ⟨n - 4, by omega⟩
          exact dyn_as env k c (hM (k + 2) (by omega))
        | std430 => exact h430
    · refine .inr ⟨_, hnorm, dyn_name env c, fun _ => dynOut (O .std140), fun l => ?_, fun h => by cases h⟩
      cases l with
      | std430 => exact .inl ⟨rfl, rfl, h430⟩
      | std140 =>
        refine .inr ⟨dynamicImpl i, by simp [resolve, hr], ⟨M + 5, fun n hn => ⟨?_, ?_, ?_⟩⟩,
          dynOut_name env _, fun _ => ⟨4, fun n hn => ?_⟩⟩
        · exact dynamic_conv (fun m hm => (hM m hm).1) n hn
        · exact dynOut_ok (fun m hm => (hM m hm).2.1) n hn
        · exact dynOut_blanket (fun m hm => (hM m hm).2.1) n hn
        · obtain ⟨k, rfl⟩ := le_split hn
          exact dynOut_as430 env k _

theorem resolve_free_none {tg : Target} {env : ForeignEnv} {T : Crevice.Ty} (hf : T.layoutFree = true) {l : Layout}
    (h : resolve tg env l T = none) (l' : Layout) : resolve tg env l' T = none := by
  rw [resolve_layoutFree hf l' l, h]

theorem outputName_free {T : Crevice.Ty} (hf : T.layoutFree = true) (l l' : Layout) :
    T.outputName l = T.outputName l' := by
  induction T using Ty.ind with
  | hs s => simp only [Ty.outputName]
  | hb => simp only [Ty.outputName]
  | hu n t ih =>
    simp only [Ty.layoutFree] at hf
    simp only [Ty.outputName, ih hf]
  | ho m t ih =>
    simp only [Ty.layoutFree] at hf
    simp only [Ty.outputName, hf, or_true, if_true, ih hf]
  | hm | hf | hst | hd => simp [Ty.layoutFree] at hf

theorem agree_output (tg : Target) (env : ForeignEnv) (l : Layout) {t : RustCode.Ty} {T : Crevice.Ty}
    (h : Agree tg env t T) : Agree tg env (.proj t (inMod l (asTrait l)) ["Output"]) (.output l T) := by
  have hrule : ∀ n, (G env (n + 1)).norm topScope (.proj t (inMod l (asTrait l)) ["Output"]) =
      ((G env n).norm topScope t).bind fun c => (G env n).project [mod l, asTrait l] c "Output" := by
    intro n
    rw [norm_succ]
    simp only [normRule, resolve_asTrait, Option.bind_some]
  have hother : ∀ l' : Layout, l' ≠ l → l' = other l := by
    intro l' h
    cases l <;> cases l' <;> first | rfl | exact absurd rfl h
  rcases h with ⟨⟨N, hN⟩, -, hr⟩ | ⟨c, ⟨N, hN⟩, -, O, hO, hfree⟩
  · refine .inl ⟨⟨N + 1, fun n hn => ?_⟩, (hr l).2, fun l' => ?_⟩
    · obtain ⟨k, rfl⟩ : ∃ k, n = k + 1 := ⟨n - 1, by omega⟩
      rw [hrule, hN k (by omega)]
      rfl
    · simp [resolve, Ty.outputName, hr]
  · have hOeq : T.layoutFree = true → ∀ l', O l' = O l := by
      intro h l'
      have := hfree h
      cases l <;> cases l' <;> simp [this]
    have hfreeName : T.layoutFree = true → ∀ l', T.outputName l' = T.outputName l := by
      intro h l'
      exact outputName_free h l' l
    rcases hO l with ⟨hr, hon, M, hM⟩ | ⟨i, hr, ⟨M, hM⟩, hname, hno⟩
    · refine .inl ⟨⟨N + M + 1, fun n hn => ?_⟩, hon, fun l' => ⟨?_, ?_⟩⟩
      · obtain ⟨k, rfl⟩ : ∃ k, n = k + 1 := ⟨n - 1, by omega⟩
        rw [hrule, hN k (by omega)]
        simp only [Option.bind_some, Sem.project, Sem.find, hM k (by omega)]
        rfl
      · simp only [resolve]
        split
        · next h =>
          rcases h with rfl | h
          · simp [hr]
          · simp [resolve_free_none h hr l']
        · rfl
      · simp only [Ty.outputName]
        split
        · next h =>
          rcases h with rfl | h
          · exact hon
          · rw [hfreeName h l', hon]
        · rfl
    · refine .inr ⟨O l, ⟨N + M + 1, fun n hn => ?_⟩, hname, fun _ => O l, fun l' => ?_, fun _ => rfl⟩
      · obtain ⟨k, rfl⟩ : ∃ k, n = k + 1 := ⟨n - 1, by omega⟩
        rw [hrule, hN k (by omega)]
        obtain ⟨⟨_, _, h, _⟩, _⟩ := hM k (by omega)
        exact h
      · by_cases hl : l' = l
        · subst hl
          refine .inr ⟨blanketImpl i.out i.alignment i.outDebug, by simp [resolve, hr], ⟨M + 4, fun n hn => ⟨?_, ?_, ?_⟩⟩,
            by simpa [Ty.outputName] using hname, hno⟩
          · exact conv_blanket (fun m hm => (hM m hm).2.2) n hn
          · exact (hM n (by omega)).2.1
          · exact (hM n (by omega)).2.2
        · cases hf : T.layoutFree with
          | false =>
            left
            refine ⟨?_, ?_, ?_⟩
            · simp only [resolve, hf]
              rw [if_neg (by simp; exact fun h => hl h.symm)]
            · simp only [Ty.outputName, hf]
              rw [if_neg (by simp; exact fun h => hl h.symm)]
            · rw [hother l' hl]
              exact hno hf
          | true =>
            rcases hO l' with ⟨hr', -⟩ | ⟨i', hr', ⟨M', hM'⟩, -⟩
            · rw [resolve_free_none hf hr' l] at hr
              cases hr
            · right
              rw [hOeq hf l'] at hM'
              refine ⟨blanketImpl i'.out i'.alignment i'.outDebug, by simp [resolve, hr', hf],
                ⟨M' + 4, fun n hn => ⟨?_, ?_, ?_⟩⟩,
                by simpa [Ty.outputName, hf, hfreeName hf l'] using hname, fun h => by simp only [Ty.layoutFree, hf] at h; cases h⟩
              · exact conv_blanket (fun m hm => (hM' m hm).2.2) n hn
              · exact (hM' n (by omega)).2.1
              · exact (hM' n (by omega)).2.2

theorem agree (tg : Target) (env : ForeignEnv) {t : RustCode.Ty} {T : Crevice.Ty} (h : Writes t T) :
    Agree tg env t T := by
  induction h with
  | scalar s => exact agree_scalar tg env s
  | bool => exact agree_bool tg env
  | math m => exact agree_math tg env m
  | foreign lib name arg hl hn ha => exact agree_foreign tg env hl hn ha
  | dynamic _ ih => exact agree_dynamic tg env ih
  | output l _ ih => exact agree_output tg env l ih

end Crevice.Tables
