import Verif.Proof.TextMinty
import Verif.Proof.TextNameFacts
/-
What the text of the crate says about its types: `Glsl::NAME`.
-/
namespace Crevice.Tables
open RustCode RustTypes TypeNames

theorem textName_eq (env : ForeignEnv) (n : Nat) (t : RustCode.Ty) :
    textName env n t = ((G env n).norm topScope t).bind (nameOf (G env n)) := by
  unfold textName
  rw [crateSem_eq]
  rfl

/-- The name of a type. -/
def Name (env : ForeignEnv) (c : CTy) (x : Option String) : Prop := ∃ N, ∀ n ≥ N, nameOf (G env n) c = x

theorem name_none {env : ForeignEnv} {c : CTy} {N : Nat}
    (h : ∀ n ≥ N, (G env n).candidates ["glsl", "Glsl"] [] c = some []) : Name env c none := by
  refine ⟨N, fun n hn => ?_⟩
  unfold nameOf Sem.find
  rw [h n hn]
  rfl

section
variable (env : ForeignEnv)

theorem bool_name : Name env (simpleCTy "bool") none := by
  refine name_none (N := 1) fun n hn => ?_
  obtain ⟨k, rfl⟩ := le_split hn
  kernel_rfl

theorem Bool_name : Name env boolCTy none := by
  refine name_none (N := 1) fun n hn => ?_
  obtain ⟨k, rfl⟩ := le_split hn
  kernel_rfl

theorem dyn_name (c : CTy) : Name env (dynCTy c) none := by
  refine name_none (N := 1) fun n hn => ?_
  obtain ⟨k, rfl⟩ := le_split hn
  kernel_rfl

theorem dynOut_name (c : CTy) : Name env (dynOut c) none := by
  refine name_none (N := 1) fun n hn => ?_
  obtain ⟨k, rfl⟩ := le_split hn
  kernel_rfl

theorem foreign_name {lib name : String} {cs : List CTy} (hl : lib = "glam" ∨ lib = "nalgebra")
    (hno : ∀ r ∈ mintyRows, matchTy jx.names "imp" [] (foreignRustTy r.foreign) (.named [lib, name] cs) = none) :
    Name env (.named [lib, name] cs) none := by
  refine name_none (N := 1) fun n hn => ?_
  obtain ⟨k, rfl⟩ := le_split hn
  have e : (G env (k + 1)).candidates ["glsl", "Glsl"] [] (.named [lib, name] cs) =
      filterMapM (applies jx (G env k) [] (.named [lib, name] cs))
        (glslDefs.take (glslDefs.length - mintyRows.length) ++
          mintyRows.map (fun r => plainDef "imp" (foreignRustTy r.foreign)
            (nameItems (.path (.proj (mathRustTy r.mint) .unit ["NAME"]))))) := by
    kernel_rfl
  rw [e, filterMapM_append, foreign_nameHead env k lib name cs hl, filterMapM_none]
  · rfl
  · intro d hd
    obtain ⟨r, hr, rfl⟩ := List.mem_map.1 hd
    unfold applies
    have := hno r hr
    simp only [plainDef]
    rw [this]

theorem math_name (m : MathTy) : Name env (mathCTy m) (mathGlslName m) := by
  cases h : easyRow m with
  | none =>
    have hg : mathGlslName m = none := by simp [mathGlslName, h]
    rw [hg]
    obtain ⟨x, hx, he⟩ := math_raw m h
    rw [← he]
    refine name_none (N := 1) fun n hn => ?_
    obtain ⟨k, rfl⟩ := le_split hn
    exact forall_of_map (noRow_name env k) x hx
  | some r =>
    obtain ⟨hr, rfl⟩ := easyRow_mem h
    refine ⟨4, fun n hn => ?_⟩
    obtain ⟨k, rfl⟩ := le_split hn
    exact forall_of_map (easy_name env k) r hr

theorem prim_name {l : Layout} {name : String} (hn : name ∈ primNames l) :
    Name env (primCTy l name) ((l.primitive name).map fun p => p.glsl) := by
  refine ⟨2, fun n hn' => ?_⟩
  obtain ⟨k, rfl⟩ := le_split hn'
  exact forall_of_map (prims_name env k l) name hn

theorem scalar_name (s : Scalar) : Name env (simpleCTy (scalarName s)) (scalarGlslName s) := by
  refine ⟨2, fun n hn => ?_⟩
  obtain ⟨k, rfl⟩ := le_split hn
  exact forall_of_map (scalars_name env k) s (by cases s <;> decide)

theorem mint_name {r : MintyRow} (hr : r ∈ mintyRows) : Name env (foreignCTy r.foreign) (mathGlslName r.mint) := by
  refine ⟨6, fun n hn => ?_⟩
  obtain ⟨k, rfl⟩ := le_split hn
  exact forall_of_map (minty_name env k) r hr

end

end Crevice.Tables
