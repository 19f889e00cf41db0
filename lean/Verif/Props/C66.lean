import Verif.Proof.FeatureTypes
import Verif.Props.C65
/-
C66. Cargo features are additive: with any set of features the text of the crate gives every supported type whose features
are on the implementation of the model, gives no implementation to types of libraries that are off, and turning features
on changes nothing about what was there before.
-/
namespace Crevice
open RustTypes TypeNames Tables

/-- With any set of features, the implementation of `AsStdN` for a written type is the one of the model, and there is
none if a part of the type asks for a feature that is off. -/
theorem C66_resolve (tg : Target) (env : ForeignEnv) (f : Features) {t : RustCode.Ty} {T : Ty} (h : Writes t T)
    (l : Layout) : ∃ N, ∀ n ≥ N,
      (T.Enabled f → textImplWith f env n l t = resolve tg env l T) ∧
      (¬T.Enabled f → textImplWith f env n l t = none) := by
  obtain ⟨N, hN⟩ := C65_resolve tg env h l
  refine ⟨N, fun n hn => ⟨fun he => ?_, fun he => impl_absent env n l h fun ht => he (enabled_of_ok h ht)⟩⟩
  by_cases ht : TyOk (view f) "" t
  · rw [impl_same env n l ht, hN n hn]
  · rw [impl_absent env n l h ht, ((none_of_not_ok tg env h he ht).1 l).1]

/-- The same for `Glsl::NAME`. -/
theorem C66_name (env : ForeignEnv) (f : Features) {t : RustCode.Ty} {T : Ty} (h : Writes t T) : ∃ N, ∀ n ≥ N,
      (T.Enabled f → textNameWith f env n t = T.glslName) ∧ (¬T.Enabled f → textNameWith f env n t = none) := by
  obtain ⟨N, hN⟩ := C65_name env h
  refine ⟨N, fun n hn => ⟨fun he => ?_, fun he => name_absent env n h fun ht => he (enabled_of_ok h ht)⟩⟩
  by_cases ht : TyOk (view f) "" t
  · rw [name_same env n ht, hN n hn]
  · rw [name_absent env n h ht, (none_of_not_ok ⟨.little, Scalar.size⟩ env h he ht).2]

/-- Turning features on keeps every implementation of `AsStdN` and every name as it is, whatever the type: with a feature
on, a type has the same Output, alignment and conversions as without it. -/
theorem C66_additive (env : ForeignEnv) {f f' : Features} (hf : f.le f') (n : Nat) (c : CTy) :
    (∀ l i, semImpl (crateSemWith f env n) l c = some i → semImpl (crateSemWith f' env n) l c = some i) ∧
    ∀ x, semName (crateSemWith f env n) c = some x → semName (crateSemWith f' env n) c = some x := by
  have key : COk (view f) c → COk (view f') c := ok_mono hf c
  refine ⟨fun l i hi => ?_, fun x hx => ?_⟩
  · have hc : COk (view f) c := by
      by_cases hc : COk (view f) c
      · exact hc
      · rw [show semImpl (crateSemWith f env n) l c = none from absent_impl env n l hc] at hi
        cases hi
    have e1 : semImpl (crateSemWith f env n) l c = _ := semImpl_same (same f env n) l hc
    have e2 : semImpl (crateSemWith f' env n) l c = _ := semImpl_same (same f' env n) l (key hc)
    rw [e2, ← e1, hi]
  · have hc : COk (view f) c := by
      by_cases hc : COk (view f) c
      · exact hc
      · rw [show semName (crateSemWith f env n) c = none from absent_name env n hc] at hx
        cases hx
    have e1 : semName (crateSemWith f env n) c = _ := semName_same (same f env n) hc
    have e2 : semName (crateSemWith f' env n) c = _ := semName_same (same f' env n) (key hc)
    rw [e2, ← e1, hx]

/-- With all features on, it is the crate of `C65`. -/
theorem C66_all (env : ForeignEnv) (n : Nat) (c : CTy) :
    (∀ l, semImpl (crateSemWith ⟨true, true, true, true⟩ env n) l c = semImpl (crateSem env n) l c) ∧
    semName (crateSemWith ⟨true, true, true, true⟩ env n) c = semName (crateSem env n) c := by
  have hc : COk (view ⟨true, true, true, true⟩) c := ok_all c
  rw [crateSem_eq]
  exact ⟨fun l => semImpl_same (same _ env n) l hc, semName_same (same _ env n) hc⟩

/-- Whatever the features, whenever an implementation of `AsStdN` applies to a type it is the only one that does. -/
theorem C66_coherent (env : ForeignEnv) (f : Features) (l : Layout) {n : Nat} {c : CTy} {g : Found} {gs : List Found}
    (h : (crateSemWith f env n).candidates [mod l, asTrait l] [] c = some (g :: gs)) :
    ∃ N, ∀ m ≥ N, ∃ g, (crateSemWith f env m).candidates [mod l, asTrait l] [] c = some [g] := by
  have nil : COks (view f) [] := by unfold COks; trivial
  have hc : COk (view f) c := by
    by_cases hc : COk (view f) c
    · exact hc
    · cases (absent env n c hc l).1 _ h
  have e : ∀ m, (crateSemWith f env m).candidates [mod l, asTrait l] [] c =
      (crateSem env m).candidates [mod l, asTrait l] [] c := by
    intro m
    rw [crateSem_eq]
    exact ((same f env m).candidates (as_core l) nil hc).1
  rw [e] at h
  obtain ⟨N, hN⟩ := C65_coherent env l h
  exact ⟨N, fun m hm => by rw [e]; exact hN m hm⟩

/-- At most one implementation of `Std140`, `Std430` or `Glsl` applies to any type, with any set of features. -/
theorem C66_at_most_one (env : ForeignEnv) (f : Features) {t : List String}
    (ht : t ∈ [["std140", "Std140"], ["std430", "Std430"], ["glsl", "Glsl"]]) {n : Nat} {c : CTy} {fs : List Found}
    (h : (crateSemWith f env n).candidates t [] c = some fs) : fs.length ≤ 1 := by
  have nil : COks (view f) [] := by unfold COks; trivial
  by_cases hc : COk (view f) c
  · have e : ∀ {t}, (view f).trait t → (crateSemWith f env n).candidates t [] c = (crateSem env n).candidates t [] c := by
      intro t hv
      rw [crateSem_eq]
      exact ((same f env n).candidates hv nil hc).1
    refine C65_at_most_one env (t := t) (n := n) (c := c) ?_ (by
      rw [← e]
      · exact h
      · simp only [List.mem_cons, List.not_mem_nil, or_false] at ht
        rcases ht with rfl | rfl | rfl
        · exact std_core .std140
        · exact std_core .std430
        · exact glsl_core)
    simp only [List.mem_cons, List.not_mem_nil, or_false] at ht ⊢
    rcases ht with h | h | h <;> simp [h]
  · have : fs = [] := by
      simp only [List.mem_cons, List.not_mem_nil, or_false] at ht
      rcases ht with rfl | rfl | rfl
      · exact (absent env n c hc .std140).2 _ h
      · exact (absent env n c hc .std430).2 _ h
      · exact absent_glsl env n hc _ h
    simp [this]

/-- What the modules of the crate declare does not depend on the features, except that `WriteStd140`, `WriteStd430`, the
two `Writer`s and `GlslStruct` are only there with `std`. -/
theorem C66_std (f : Features) (m : String) (x : String) :
    (∃ is ∈ (crateModulesWith f).lookup m, x ∈ is.filterMap declared) ↔
      (∃ is ∈ crateModules.lookup m, x ∈ is.filterMap declared) ∧
        (x ∈ ["WriteStd140", "WriteStd430", "Writer", "GlslStruct"] → f.std = true) := by
  have key : ∀ (ms : List (String × List RustCode.Item)), (∃ is ∈ ms.lookup m, x ∈ is.filterMap declared) ↔
      ∃ xs ∈ (ms.map fun m => (m.1, m.2.filterMap declared)).lookup m, x ∈ xs := by
    intro ms
    rw [lookup_map ms (List.filterMap declared) m]
    cases ms.lookup m with
    | none => simp
    | some is => simp
  have e1 : (crateModulesWith f).map (fun m => (m.1, m.2.filterMap declared)) = namesWith f.std := with_names f
  have e2 : crateModules.map (fun m => (m.1, m.2.filterMap declared)) = theNames :=
    (congrArg Index.names ix_eq : (indexItems crateModules).names = jx.names)
  rw [key, key, e1, e2]
  unfold namesWith
  rw [lookup_map]
  cases theNames.lookup m with
  | none => simp
  | some xs =>
    simp only [Option.map_some, Option.mem_some_iff, exists_eq_left', List.mem_filter]
    refine and_congr_right fun _ => ?_
    unfold gone
    cases f.std
    · simp [and_assoc, not_or]
    · simp

end Crevice
