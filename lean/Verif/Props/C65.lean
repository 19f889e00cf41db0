import Verif.Proof.Coherence
/-
C65. The implementations of `AsStd140`, `AsStd430` and `Glsl` that the macros of the crate expand to are the ones of the
model: for every type that can be written with the types of the crate, of the language and of the math crates, the
implementation that rustc finds in the text has the Output type, alignment, conversions and name of the model, there
is one iff there is one in the model, it is the only one, and no other type has one.
-/
namespace Crevice
open RustTypes TypeNames Tables

/-- What the text of the crate, with its macros expanded, says about a written type is what the model says: whether it
implements `AsStd140`/`AsStd430`, the memory layout and the alignment of its Output type, whether that has `Debug`, and
both conversions. -/
theorem C65_resolve (tg : Target) (env : ForeignEnv) {t : RustCode.Ty} {T : Ty} (h : Writes t T) (l : Layout) :
    ∃ N, ∀ n ≥ N, textImpl env n l t = resolve tg env l T := by
  rcases agree tg env h with ⟨⟨N, hN⟩, -, hr⟩ | ⟨c, ⟨N, hN⟩, -, O, hO, -⟩
  · exact ⟨N, fun n hn => by rw [textImpl_none_of_norm (hN n hn), (hr l).1]⟩
  · rcases hO l with ⟨hr, -, M, hM⟩ | ⟨i, hr, ⟨M, hM⟩, -⟩
    · exact ⟨N + M, fun n hn => by rw [textImpl_none (hN n (by omega)) (hM n (by omega)), hr]⟩
    · refine ⟨N + M, fun n hn => ?_⟩
      rw [hr]
      exact textImpl_some (hN n (by omega)) (hM n (by omega)).1 (hM n (by omega)).2.1

/-- The Output type of every implementation implements `StdN` and the traits that `StdN` asks for: it can be zeroed,
read as bytes and copied. -/
theorem C65_output (tg : Target) (env : ForeignEnv) {t : RustCode.Ty} {T : Ty} (h : Writes t T) (l : Layout) {i : Impl}
    (hi : resolve tg env l T = some i) :
    ∃ N O, ∀ n ≥ N, (crateSem env n).norm topScope (.proj t (inMod l (asTrait l)) ["Output"]) = some O ∧
      (crateSem env n).implements [mod l, stdTrait l] O = some true ∧
      ∀ tr ∈ ["Zeroable", "Pod", "Copy", "Clone"], (crateSem env n).implements [tr] O = some true := by
  rcases agree tg env h with ⟨-, -, hr⟩ | ⟨c, hc, -, O, hO, -⟩
  · rw [(hr l).1] at hi
    cases hi
  · rcases hO l with ⟨hr, -⟩ | ⟨j, hj, ⟨M, hM⟩, -⟩
    · rw [hr] at hi
      cases hi
    · obtain ⟨N, hN⟩ := out_norm hc fun n hn => (hM n hn).1
      refine ⟨N + M + 1, O l, fun n hn => ?_⟩
      simp only [crateSem_eq]
      have ho := (hM n (by omega)).2.1
      refine ⟨hN n (by omega), ?_, ?_⟩
      · obtain ⟨k, rfl⟩ : ∃ k, n = k + 1 := ⟨n - 1, by omega⟩
        obtain ⟨f, hf, -⟩ := (hM k (by omega)).2.1.std
        exact implements_of_candidates (candidates_of_find hf) rfl
      · intro tr htr
        simp only [List.mem_cons, List.not_mem_nil, or_false] at htr
        rcases htr with rfl | rfl | rfl | rfl
        · exact ho.zeroable
        · exact ho.pod
        · exact ho.copy
        · exact ho.clone

/-- `Glsl::NAME` of a written type is what the model says, and there is one iff there is one in the model. -/
theorem C65_name (env : ForeignEnv) {t : RustCode.Ty} {T : Ty} (h : Writes t T) :
    ∃ N, ∀ n ≥ N, textName env n t = T.glslName := by
  rcases agree ⟨.little, Scalar.size⟩ env h with ⟨⟨N, hN⟩, hg, -⟩ | ⟨c, ⟨N, hN⟩, ⟨M, hM⟩, -⟩
  · exact ⟨N, fun n hn => by rw [textName_eq, hN n hn, hg]; rfl⟩
  · refine ⟨N + M, fun n hn => ?_⟩
    rw [textName_eq, hN n (by omega)]
    exact hM n (by omega)

/-- No type has an implementation besides the ones that can be written and have an implementation in the model. -/
theorem C65_only (tg : Target) (env : ForeignEnv) (l : Layout) {n : Nat} {c : CTy} {f : Found}
    (h : (crateSem env n).find [mod l, asTrait l] [] c = some f) :
    ∃ t T i, Writes t T ∧ resolve tg env l T = some i ∧ ∃ N, ∀ m ≥ N, (crateSem env m).norm topScope t = some c := by
  rw [crateSem_eq] at h
  obtain ⟨t, T, i, hw, hr, N, hN⟩ := as_only (tg := tg) n (candidates_of_find h)
  exact ⟨t, T, i, hw, hr, N, fun m hm => by rw [crateSem_eq]; exact hN m hm⟩

/-- Whenever an implementation applies to a type, it is the only one that does. -/
theorem C65_coherent (env : ForeignEnv) (l : Layout) {n : Nat} {c : CTy} {f : Found} {fs : List Found}
    (h : (crateSem env n).candidates [mod l, asTrait l] [] c = some (f :: fs)) :
    ∃ N, ∀ m ≥ N, ∃ g, (crateSem env m).candidates [mod l, asTrait l] [] c = some [g] := by
  rw [crateSem_eq] at h
  obtain ⟨t, T, i, hw, hr, hn⟩ := as_only (tg := ⟨.little, Scalar.size⟩) n h
  rcases agree ⟨.little, Scalar.size⟩ env hw with ⟨-, -, hr'⟩ | ⟨c', hc', -, O, hO, -⟩
  · rw [(hr' l).1] at hr
    cases hr
  · rcases hO l with ⟨hr', -⟩ | ⟨j, -, ⟨M, hM⟩, -⟩
    · rw [hr'] at hr
      cases hr
    · have := norm_unique hn hc'
      injection this with this
      subst this
      refine ⟨M, fun m hm => ?_⟩
      obtain ⟨⟨g, hg, -⟩, -⟩ := hM m hm
      exact ⟨g, by rw [crateSem_eq]; exact candidates_of_find hg⟩

/-- At most one implementation of `Std140`, `Std430`, `Glsl`, `Zeroable` or `Pod` applies to any type. -/
theorem C65_at_most_one (env : ForeignEnv) {t : List String}
    (ht : t ∈ [["std140", "Std140"], ["std430", "Std430"], ["glsl", "Glsl"], ["Zeroable"], ["Pod"]]) {n : Nat} {c : CTy}
    {fs : List Found} (h : (crateSem env n).candidates t [] c = some fs) : fs.length ≤ 1 := by
  rw [crateSem_eq] at h
  exact rooted_one ht n h

end Crevice
