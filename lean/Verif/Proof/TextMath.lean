import Verif.Proof.TextOut
/-
What the text of the crate says about its types: mint and cgmath.
-/
namespace Crevice.Tables
open RustCode RustTypes TypeNames

/-! ### Components -/

theorem scalar_blanket {env : ForeignEnv} {l : Layout} {s : Scalar} (hs : s ∈ scalars) :
    ∀ m ≥ 3, (G env m).candidates [mod l, asTrait l] [] (simpleCTy (scalarName s)) =
      some [blanketFound l (simpleCTy (scalarName s))] := by
  intro m hm
  obtain ⟨k, rfl⟩ := le_split hm
  exact forall_of_map (scalars_as env k l) s hs

theorem Bool_blanket (env : ForeignEnv) (l : Layout) :
    ∀ m ≥ 3, (G env m).candidates [mod l, asTrait l] [] boolCTy = some [blanketFound l boolCTy] := by
  intro m hm
  obtain ⟨k, rfl⟩ := le_split hm
  exact Bool_as env k l

theorem conv_blanket {env : ForeignEnv} {l : Layout} {c : CTy} {N : Nat}
    (h : ∀ m ≥ N, (G env m).candidates [mod l, asTrait l] [] c = some [blanketFound l c]) :
    ∀ m ≥ N + 4, Conv env l c c some some m := by
  intro m hm
  obtain ⟨k, rfl⟩ : ∃ k, m = k + 4 := ⟨m - 4, by omega⟩
  exact blanket_conv (h _ (by omega))

theorem conv_bool (env : ForeignEnv) (l : Layout) :
    ∀ m ≥ 12, Conv env l (simpleCTy "bool") boolCTy (boolImpl l).asStd (boolImpl l).fromStd m := by
  intro m hm
  obtain ⟨k, rfl⟩ := le_split hm
  exact bool_conv env l k

theorem conv_mscalar {env : ForeignEnv} {l : Layout} {s : MScalar} {i : Impl} (h : mscalarImpl l s = some i) :
    ∀ m ≥ 12, Conv env l (simpleCTy (mscalarName s)) (outScalar s) i.asStd i.fromStd m := by
  have hsc : ∀ s : Scalar, s ∈ scalars → scalarImpl l s = some i →
      ∀ m ≥ 12, Conv env l (simpleCTy (scalarName s)) (simpleCTy (scalarName s)) i.asStd i.fromStd m := by
    intro s hs h m hm
    unfold scalarImpl at h
    rw [Option.map_eq_some_iff] at h
    obtain ⟨a, -, rfl⟩ := h
    exact conv_blanket (scalar_blanket hs) m (by omega)
  cases s with
  | f32 => exact hsc .f32 (by decide) h
  | f64 => exact hsc .f64 (by decide) h
  | i32 => exact hsc .i32 (by decide) h
  | u32 => exact hsc .u32 (by decide) h
  | bool =>
    injection h with h
    subst h
    exact conv_bool env l

/-! ### Rows -/

theorem row_std (l : Layout) : ∀ r ∈ easyRows, r.stdName ∈ primNames l := by
  cases l <;> decide +kernel

theorem row_fields : ∀ r ∈ easyRows, r.fields = r.ty.fieldNames ∧ "0" ∉ r.fields := by decide +kernel

theorem conv_easy {env : ForeignEnv} {l : Layout} {N : Nat} {row : EasyRow} {comp i : Impl} {dO : CTy}
    (hr : row ∈ easyRows) (hi : easyImpl l row comp = some i) (hN : 6 ≤ N)
    (hcomp : ∀ m ≥ N, Conv env l (compCTy row.ty) dO comp.asStd comp.fromStd m)
    (hdO : outComp l row.ty = some dO) :
    ∀ m ≥ N + 5, Conv env l (mathCTy row.ty) (primCTy l row.stdName) i.asStd i.fromStd m ∧
      OutOk env l (primCTy l row.stdName) i.out i.alignment i.outDebug m := by
  unfold easyImpl at hi
  rw [Option.map_eq_some_iff] at hi
  obtain ⟨p, hp, rfl⟩ := hi
  have hs := row_std l row hr
  obtain ⟨hfn, h0⟩ := row_fields row hr
  have hok := prim_ok (env := env) hs hp
  have hnames : (primFields l row.stdName).map Prod.fst = p.fields.map Prod.fst := by
    have := forall_of_map (prims_names l) row.stdName hs
    rw [hp] at this
    simpa using this
  intro m hm
  refine ⟨?_, hok m (by omega)⟩
  have := easy_conv (env := env) (l := l) (n := N) (c := mathCTy row.ty) (d := compCTy row.ty)
    (O := primCTy l row.stdName) (dO := dO) (stdName := row.stdName) (fields := row.fields)
    (a := comp.asStd) (b := comp.fromStd) (r := .struct p.fields) (fsO := primFields l row.stdName)
    (fsC := row.fields.map fun f => (f, compCTy row.ty)) ?_ ?_ ?_ ?_ ?_ ?_ h0 ?_ ?_ hcomp m hm
  · rw [hnames, List.map_map] at this
    have hid : List.map (Prod.fst ∘ fun f => (f, compCTy row.ty)) row.fields = row.ty.fieldNames := by
      rw [← hfn]
      simp [Function.comp_def]
    rw [hid] at this
    exact this
  · intro m hm
    obtain ⟨k, rfl⟩ : ∃ k, m = k + 3 := ⟨m - 3, by omega⟩
    exact forall_of_map (easy_as env k l) row hr
  · intro m hm s
    obtain ⟨k, rfl⟩ : ∃ k, m = k + 1 := ⟨m - 1, by omega⟩
    exact forall_of_map (prims_norm env k l s) row.stdName hs
  · intro m hm
    obtain ⟨k, rfl⟩ : ∃ k, m = k + 2 := ⟨m - 2, by omega⟩
    exact forall_of_map (prims_fields env k l) row.stdName hs
  · intro m hm
    exact forall_of_map (easy_fields env m) row hr
  · intro f hf
    rw [← hdO]
    exact forall_of_map (forall_of_map (easy_outFields l) row hr) f hf
  · intro f hf
    have : ∀ (fs : List String), f ∈ fs → (fs.map fun f => (f, compCTy row.ty)).lookup f = some (compCTy row.ty) := by
      intro fs
      induction fs with
      | nil => simp
      | cons x xs ih =>
        intro h
        by_cases hx : f = x
        · subst hx; simp
        · simp only [List.map_cons, List.lookup_cons, ih (by simpa [hx] using h)]
          split <;> rfl
    exact this _ hf
  · intro m hm
    exact (hok m (by omega)).zeroable
  · intro m hm
    exact (hok m (by omega)).layout

theorem easyRow_mem {m : MathTy} {r : EasyRow} (h : easyRow m = some r) : r ∈ easyRows ∧ r.ty = m :=
  ⟨List.mem_of_find?_eq_some h, by simpa using List.find?_some h⟩

theorem conv_vec {env : ForeignEnv} {l : Layout} {m : MathTy} {i : Impl} (hk : m.kind ≠ .matrix)
    (h : vecImpl l m = some i) : ∃ row, easyRow m = some row ∧ ∀ n ≥ 17,
      Conv env l (mathCTy m) (primCTy l row.stdName) i.asStd i.fromStd n ∧
      OutOk env l (primCTy l row.stdName) i.out i.alignment i.outDebug n := by
  unfold vecImpl at h
  rw [Option.bind_eq_some_iff] at h
  obtain ⟨row, hrow, h⟩ := h
  rw [Option.bind_eq_some_iff] at h
  obtain ⟨comp, hc, h⟩ := h
  obtain ⟨hmem, rfl⟩ := easyRow_mem hrow
  refine ⟨row, hrow, conv_easy (N := 12) hmem h (by omega) (dO := outScalar row.ty.scalar) ?_ ?_⟩
  · have : compCTy row.ty = simpleCTy (mscalarName row.ty.scalar) := by
      unfold compCTy
      split
      · next h => exact absurd h hk
      · rfl
    rw [this]
    exact conv_mscalar hc
  · unfold outComp
    split
    · next h => exact absurd h hk
    · rfl

theorem conv_math {env : ForeignEnv} {l : Layout} {m : MathTy} {i : Impl} (h : mathImpl l m = some i) :
    ∃ row, easyRow m = some row ∧ ∀ n ≥ 22,
      Conv env l (mathCTy m) (primCTy l row.stdName) i.asStd i.fromStd n ∧
      OutOk env l (primCTy l row.stdName) i.out i.alignment i.outDebug n := by
  unfold mathImpl at h
  split at h
  · next hk =>
    rw [Option.bind_eq_some_iff] at h
    obtain ⟨row, hrow, h⟩ := h
    rw [Option.bind_eq_some_iff] at h
    obtain ⟨comp, hc, h⟩ := h
    obtain ⟨hmem, rfl⟩ := easyRow_mem hrow
    obtain ⟨row', hrow', hcv⟩ := conv_vec (env := env) (m := row.ty.column) (by simp [MathTy.column]) hc
    refine ⟨row, hrow, conv_easy (N := 17) hmem h (by omega) (dO := primCTy l row'.stdName) ?_ ?_⟩
    · have : compCTy row.ty = mathCTy row.ty.column := by
        unfold compCTy
        rw [hk]
      rw [this]
      exact fun n hn => (hcv n hn).1
    · unfold outComp
      rw [hk]
      simp only [outMath, hrow', Option.map_some]
  · next hk =>
    obtain ⟨row, h1, h2⟩ := conv_vec (env := env) hk h
    exact ⟨row, h1, fun n hn => h2 n (by omega)⟩

theorem rows_math (l : Layout) : easyRows.all (fun r => (mathImpl l r.ty).isSome) = true := by
  cases l <;> decide +kernel

/-! ### No row -/

theorem noRow_as (env : ForeignEnv) (k : Nat) (l : Layout) :
    (allMath.filter fun x => !hasRow x).map (fun x => (G env (k + 3)).candidates [mod l, asTrait l] [] (rawMath x)) =
      (allMath.filter fun x => !hasRow x).map fun _ => some [] := by
  cases l <;> kernel_rfl

theorem suffix_mem (d : Nat) : suffix d ∈ suffixes := by
  unfold suffix
  split <;> decide

theorem mem_allMath (lib : Lib) (k : Kind) (s : MScalar) (d : Nat) : (lib, k, s, suffix d) ∈ allMath := by
  simp only [allMath, List.mem_flatMap, List.mem_map]
  refine ⟨lib, by cases lib <;> decide, k, by cases k <;> decide, s, by cases s <;> decide, suffix d, suffix_mem d, rfl⟩

theorem suffix_inj {d e : Nat} (hd : d = 2 ∨ d = 3 ∨ d = 4) (h : suffix d = suffix e) : d = e := by
  have he : suffix e = "2" → e = 2 := by unfold suffix; split <;> simp_all
  have he' : suffix e = "3" → e = 3 := by unfold suffix; split <;> simp_all
  have he'' : suffix e = "4" → e = 4 := by unfold suffix; split <;> simp_all
  rcases hd with rfl | rfl | rfl
  · exact (he h.symm).symm
  · exact (he' h.symm).symm
  · exact (he'' h.symm).symm

theorem row_dims : ∀ r ∈ easyRows, r.ty.dim = 2 ∨ r.ty.dim = 3 ∨ r.ty.dim = 4 := by decide +kernel

theorem mathName_eq (m : MathTy) : mathName m = baseName m.lib m.kind ++ suffix m.dim := rfl

theorem math_raw (m : MathTy) (h : easyRow m = none) :
    ∃ x ∈ allMath.filter (fun x => !hasRow x), rawMath x = mathCTy m := by
  have hmem := mem_allMath m.lib m.kind m.scalar m.dim
  have hno : hasRow (m.lib, m.kind, m.scalar, suffix m.dim) = false := by
    rw [Bool.eq_false_iff]
    intro hr
    simp only [hasRow, List.any_eq_true, Bool.and_eq_true, beq_iff_eq] at hr
    obtain ⟨r, hr, h1, h2, h3, h4⟩ := hr
    have h5 := suffix_inj (row_dims r hr) h4
    have : r.ty = m := by
      cases hm : m
      cases hrt : r.ty
      simp only [hm, hrt] at h1 h2 h3 h5
      simp [h1, h2, h3, h5]
    unfold easyRow at h
    rw [List.find?_eq_none] at h
    exact h r hr (by simp [this])
  refine ⟨_, List.mem_filter.2 ⟨hmem, by simp [hno]⟩, ?_⟩
  unfold rawMath
  rw [← mathName_eq]
  rfl

theorem math_none (env : ForeignEnv) (k : Nat) (l : Layout) (m : MathTy) (h : easyRow m = none) :
    (G env (k + 3)).candidates [mod l, asTrait l] [] (mathCTy m) = some [] := by
  obtain ⟨x, hx, he⟩ := math_raw m h
  rw [← he]
  exact forall_of_map (noRow_as env k l) x hx

theorem math_norm (env : ForeignEnv) (k : Nat) (m : MathTy) :
    (G env (k + 2)).norm topScope (mathRustTy m) = some (mathCTy m) := by
  unfold mathRustTy mathCTy
  generalize mathName m = x
  generalize m.lib = a
  generalize m.scalar = b
  cases a <;> cases b <;> kernel_rfl

theorem mathImpl_none {l : Layout} {m : MathTy} (h : mathImpl l m = none) : easyRow m = none := by
  cases he : easyRow m with
  | none => rfl
  | some r =>
    obtain ⟨hr, rfl⟩ := easyRow_mem he
    have := List.all_eq_true.1 (rows_math l) r hr
    rw [h] at this
    cases this

end Crevice.Tables
