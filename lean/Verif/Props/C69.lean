import Verif.Proof.ClientWithCoherence
import Verif.Props.C68
/-
C69. A crate that uses crevice with any set of Cargo features, as text: the derives need no more features than the types of
the fields do, and what they say does not depend on other features. Only `GlslStruct` needs `std`.
-/
namespace Crevice
open RustTypes TypeNames ClientText ClientProof

/-- What the text says about a type that is used in the crate is what the model says, with any features with which the parts
of the type are there. -/
theorem C69_resolve (tg : Target) (env : ForeignEnv) {k : Client} (hk : k.Ok) (f : Features) {l : Layout} {t : RustCode.Ty} {T : Ty}
    (h : Uses k l t T) (he : T.Enabled f) {i : Impl} (hi : resolve tg env l T = some i) :
    ∃ N, ∀ n ≥ N, k.implWith f tg env n l t = some i := by
  obtain ⟨N, hN⟩ := C67_resolve tg env hk h hi
  refine ⟨N, fun n hn => ?_⟩
  rw [implWith_same hk (uses_ok hk h he (by rw [hi]; rfl)), hN n hn]

/-- `C67_output` with any features: the Output type implements `StdN` and the traits that it asks for. -/
theorem C69_output (tg : Target) (env : ForeignEnv) {k : Client} (hk : k.Ok) (f : Features) {l : Layout} {t : RustCode.Ty} {T : Ty}
    (h : Uses k l t T) (he : T.Enabled f) {i : Impl} (hi : resolve tg env l T = some i) :
    ∃ N O, ∀ n ≥ N, (k.semWith f tg env n).norm topScope (.proj t (inMod l (asTrait l)) ["Output"]) = some O ∧
      (k.semWith f tg env n).implements [mod l, stdTrait l] O = some true ∧
      ∀ tr ∈ ["Zeroable", "Pod", "Copy", "Clone"], (k.semWith f tg env n).implements [tr] O = some true := by
  obtain ⟨N, O, hN⟩ := C67_output tg env hk h hi
  have ht := uses_ok (tg := tg) (env := env) hk h he (by rw [hi]; rfl)
  refine ⟨N, O, fun n hn => ?_⟩
  obtain ⟨h1, h2, h3⟩ := hN n hn
  rw [sem_eq hk] at h1 h2 h3
  rw [sem_eqF hk]
  obtain ⟨n1, n2⟩ := (sameF hk f tg env n).norm (t := .proj t (inMod l (asTrait l)) ["Output"]) topF
    (by unfold TyOk; exact ⟨ht, by cases l <;> exact core_via (by decide)⟩)
  have hO := n2 O h1
  refine ⟨n1.trans h1, ((sameF hk f tg env n).implements (.inl (by cases l <;> decide)) hO).trans h2, fun tr htr => ?_⟩
  refine ((sameF hk f tg env n).implements (.inl ?_) hO).trans (h3 tr htr)
  simp only [List.mem_cons, List.not_mem_nil, or_false] at htr
  rcases htr with rfl | rfl | rfl | rfl <;> decide

/-- A struct with a field of a library whose feature is off has no implementation of `AsStdN` and no `FIELDS`:
rustc rejects the derives. -/
theorem C69_absent (tg : Target) (env : ForeignEnv) {k : Client} (hk : k.Ok) (f : Features) {c : ClientStruct} (hc : c ∈ k.cs)
    {x : String × RustCode.Ty} (hx : x ∈ c.fields) {T : Ty} (h : Writes x.2 T) {l : Layout} (hr : (resolve tg env l T).isSome)
    (he : ¬T.Enabled f) (n : Nat) :
    (∀ l, k.implWith f tg env n l (ty c.name) = none) ∧ k.glslFieldsWith f tg env n (ty c.name) = none :=
  have hlib := writes_lib (tg := tg) (env := env) h ⟨l, hr⟩
  ⟨fun _ => impl_without hk hc hx h hlib he n, fields_without hk hc hx h hlib he n⟩

/-- `C69_resolve` for `Glsl::NAME`, which does not need `std` either. -/
theorem C69_name (tg : Target) (env : ForeignEnv) {k : Client} (hk : k.Ok) (f : Features) {t : RustCode.Ty} {T : Ty}
    (h : GlslUses k t T) (he : T.Enabled f) {x : String} (hx : T.glslName = some x) :
    ∃ N, ∀ n ≥ N, k.glslNameWith f tg env n t = some x := by
  obtain ⟨N, hN⟩ := C68_name tg env hk h hx
  refine ⟨N, fun n hn => ?_⟩
  rw [nameWith_same hk (glslUses_ok hk h he (by rw [hx]; rfl)), hN n hn]

/-- With `std`, `FIELDS` of a struct of the crate. -/
theorem C69_fields (tg : Target) (env : ForeignEnv) {k : Client} (hk : k.Ok) {f : Features} (hf : f.std = true) {c : ClientStruct}
    (hc : c ∈ k.gs) {fs : List (String × Ty)} (h : GlslUsesFields k c.fields fs) (he : FieldsEnabled f fs)
    {r : String × List GlslField} (hr : glslStruct c.name fs = some r) :
    ∃ N, ∀ n ≥ N, k.glslFieldsWith f tg env n (ty c.name) = some r.2 := by
  obtain ⟨N, hN⟩ := C68_struct tg env hk hc h hr
  refine ⟨N, fun n hn => ?_⟩
  rw [fieldsWith_same hk hf hc (.inr ⟨fs, hc, h, he, names_of_struct hr⟩), hN n hn]
  rfl

/-- Without `std`, nothing implements `GlslStruct`: the derive is an error, whatever the struct is. -/
theorem C69_no_std (tg : Target) (env : ForeignEnv) {k : Client} (hk : k.Ok) {f : Features} (hf : f.std = false) (n : Nat)
    (t : RustCode.Ty) : k.glslFieldsWith f tg env n t = none :=
  no_std hk hf n t

/-- From the text of the crate to the shader, with any features with which the type is there. -/
theorem C69_shader {tg : Target} (htg : tg.Valid) {env : ForeignEnv} (henv : env.Lawful tg) {k : Client} (hk : k.Ok) (f : Features)
    {l : Layout} {t : RustCode.Ty} {T : Ty} (h : Uses k l t T) (he : T.Enabled f) (hi : (resolve tg env l T).isSome) {g : Glsl.Ty}
    (hg : T.glsl = some g) {v : RVal} (hv : T.HasVal tg env v) :
    ∃ N, ∀ n ≥ N, ∃ i o bs x, k.implWith f tg env n l t = some i ∧ i.asStd v = some o ∧ bytesOf tg i.out o = some bs ∧
      T.denote env v = some x ∧ Glsl.read tg.endian l g bs 0 = some x := by
  obtain ⟨N, hN⟩ := C67_shader htg henv hk h hi hg hv
  refine ⟨N, fun n hn => ?_⟩
  rw [implWith_same hk (uses_ok hk h he hi)]
  exact hN n hn

/-- Coherence with any set of features: at most one implementation of each of the traits applies to any type. -/
theorem C69_at_most_one (tg : Target) (env : ForeignEnv) {k : Client} (hk : k.Ok) (f : Features) {t : List String}
    (ht : t ∈ [["std140", "AsStd140"], ["std430", "AsStd430"], ["std140", "Std140"], ["std430", "Std430"], ["Zeroable"], ["Pod"],
      ["glsl", "Glsl"]]) {n : Nat} {c : CTy} {fs : List Found}
    (h : (k.semWith f tg env n).candidates t [] c = some fs) : fs.length ≤ 1 := by
  rw [sem_eqF hk] at h
  exact client_oneF hk ht n h

end Crevice
