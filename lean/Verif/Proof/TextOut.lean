import Verif.Proof.TextDynOut
/-
What the text of the crate says about its types: the types with implementations of `StdN`.
-/
namespace Crevice.Tables
open RustCode RustTypes TypeNames

theorem le_split {n a : Nat} (h : n ≥ a) : ∃ k, n = k + a := ⟨n - a, by omega⟩

theorem dynOut_ok {env : ForeignEnv} {N : Nat} {O : CTy} {r : RTy} {al : Nat} {dbg : Bool}
    (h : ∀ m ≥ N, OutOk env .std140 O r al dbg m) :
    ∀ m ≥ N + 5, OutOk env .std140 (dynOut O) (.newtype r) (constMax 256 al) false m := by
  intro m hm
  obtain ⟨k, rfl⟩ : ∃ k, m = k + 5 := ⟨m - 5, by omega⟩
  refine ⟨?_, ?_, ?_, ?_, ?_, ?_, ?_⟩
  · exact dynOut_layout env (k + 3) O (h _ (by omega)).layout
  · obtain ⟨f, hf, hal⟩ := (h (k + 3) (by omega)).std
    exact ⟨_, find_of_candidates (dynOut_std env (k + 3) O hf), dynOut_align env k O hf hal⟩
  · exact dynOut_debug env (k + 3) O
  · exact dynOut_pod env (k + 2) O _ (.inl rfl) (h _ (by omega)).zeroable
  · exact dynOut_pod env (k + 2) O _ (.inr rfl) (h _ (by omega)).pod
  · exact dynOut_copy env (k + 3) O _ (.inl rfl) (h _ (by omega)).copy
  · exact dynOut_copy env (k + 3) O _ (.inr rfl) (h _ (by omega)).clone

theorem dynOut_blanket {env : ForeignEnv} {N : Nat} {O : CTy} {r : RTy} {al : Nat} {dbg : Bool}
    (h : ∀ m ≥ N, OutOk env .std140 O r al dbg m) :
    ∀ m ≥ N + 5, (G env m).candidates [mod .std140, asTrait .std140] [] (dynOut O) =
      some [blanketFound .std140 (dynOut O)] := by
  intro m hm
  obtain ⟨k, rfl⟩ : ∃ k, m = k + 4 := ⟨m - 4, by omega⟩
  obtain ⟨f, hf, -⟩ := (h k (by omega)).std
  exact dynOut_as env k O ⟨f, hf⟩

/-- A constant of a plain implementation. -/
theorem stdFound_align (env : ForeignEnv) (k : Nat) (l : Layout) (c : CTy) (al : Nat) :
    (assocConst (stdFound l c al).items "ALIGNMENT").bind ((G env (k + 1)).const (stdFound l c al).scope []) =
      some (.nat al) := rfl

theorem prim_ok {env : ForeignEnv} {l : Layout} {name : String} {p : Primitive} (hn : name ∈ primNames l)
    (hp : l.primitive name = some p) :
    ∀ m ≥ 6, OutOk env l (primCTy l name) (.struct p.fields) p.alignment true m := by
  intro m hm
  obtain ⟨k, rfl⟩ := le_split hm
  have himp : ∀ t ∈ ["Debug", "Zeroable", "Pod", "Copy", "Clone"],
      (G env (k + 6)).implements [t] (primCTy l name) = some true := fun t ht =>
    forall_of_map (forall_of_map (prims_implements env k l) t ht) name hn
  refine ⟨?_, ?_, himp _ (by simp), himp _ (by simp), himp _ (by simp), himp _ (by simp), himp _ (by simp)⟩
  · rw [forall_of_map (prims_layout env (k + 2) l) name hn, hp]
    rfl
  · refine ⟨stdFound l (primCTy l name) p.alignment, find_of_candidates ?_, stdFound_align env (k + 5) l _ _⟩
    rw [forall_of_map (prims_std env (k + 5) l) name hn, hp]
    rfl

theorem scalar_mem {l : Layout} {s : Scalar} {a : Nat} (h : l.scalarAlignment s = some a) : s ∈ scalars := by
  cases s <;> first | decide | (cases l <;> cases h)

theorem scalar_ok {env : ForeignEnv} {l : Layout} {s : Scalar} {a : Nat} (h : l.scalarAlignment s = some a) :
    ∀ m ≥ 3, OutOk env l (simpleCTy (scalarName s)) (.scalar s) a true m := by
  intro m hm
  obtain ⟨k, rfl⟩ := le_split hm
  have hs := scalar_mem h
  have himp : ∀ t ∈ ["Debug", "Zeroable", "Pod", "Copy", "Clone"],
      (G env (k + 3)).implements [t] (simpleCTy (scalarName s)) = some true := fun t ht =>
    forall_of_map (forall_of_map (scalars_implements env k) t ht) s hs
  refine ⟨?_, ?_, himp _ (by simp), himp _ (by simp), himp _ (by simp), himp _ (by simp), himp _ (by simp)⟩
  · exact forall_of_map (scalars_layout env (k + 2)) s hs
  · refine ⟨stdFound l (simpleCTy (scalarName s)) a, find_of_candidates ?_, stdFound_align env (k + 2) l _ _⟩
    rw [forall_of_map (scalars_std env (k + 2) l) s hs, h]
    rfl

theorem Bool_ok (env : ForeignEnv) (l : Layout) : ∀ m ≥ 4, OutOk env l boolCTy boolTy l.boolAlignment true m := by
  intro m hm
  obtain ⟨k, rfl⟩ := le_split hm
  have himp := fun t ht => forall_of_map (Bool_implements env k) t ht
  exact ⟨Bool_layout env (k + 1), ⟨_, find_of_candidates (Bool_std env (k + 3) l), stdFound_align env (k + 3) l _ _⟩,
    himp _ (by simp), himp _ (by simp), himp _ (by simp), himp _ (by simp), himp _ (by simp)⟩

end Crevice.Tables
