import Verif.Proof.ClientUses
import Verif.Proof.ClientCoherence
import Verif.Props.C06_C12
/-
C67. A crate that uses crevice, as text: the text of the derive macros is run on the structs of the crate, the tokens that
come out are read as Rust and stand next to the structs, and in the program that consists of the crate and crevice every
struct has the implementation of the model.
-/
namespace Crevice
open RustTypes TypeNames ClientText ClientProof

/-- The derives accept every struct with named fields: for all structs and derives there is such a crate. -/
theorem C67_client (cs : List ClientStruct) (ds : List (ClientStruct × Layout)) (gs : List ClientStruct)
    (h : ∀ d ∈ ds, d.1 ∈ cs) (hg : ∀ c ∈ gs, c ∈ cs) : ∃ k : Client, k.cs = cs ∧ k.ds = ds ∧ k.gs = gs := by
  obtain ⟨items, hi⟩ := derived_exists ds
  obtain ⟨glslItems, hj⟩ := glsl_exists gs
  exact ⟨⟨cs, ds, gs, items, glslItems, h, hg, hi, hj⟩, rfl, rfl, rfl⟩

/-- What the text says about a type that is used in the crate is what the model says: memory layout and alignment of its
Output type, whether that has `Debug`, and both conversions. -/
theorem C67_resolve (tg : Target) (env : ForeignEnv) {k : Client} (hk : k.Ok) {l : Layout} {t : RustCode.Ty} {T : Ty}
    (h : Uses k l t T) {i : Impl} (hi : resolve tg env l T = some i) : ∃ N, ∀ n ≥ N, k.impl tg env n l t = some i := by
  obtain ⟨c, O, N, hN⟩ := uses_fits hk h hi
  refine ⟨N, fun n hn => ?_⟩
  have hf := hN n hn
  unfold Client.impl
  rw [sem_eq hk, hf.norm _ home_top]
  exact hf.fit.impl

/-- The Output type implements `StdN` and the traits that it asks for: it can be zeroed, read as bytes and copied. -/
theorem C67_output (tg : Target) (env : ForeignEnv) {k : Client} (hk : k.Ok) {l : Layout} {t : RustCode.Ty} {T : Ty}
    (h : Uses k l t T) {i : Impl} (hi : resolve tg env l T = some i) :
    ∃ N O, ∀ n ≥ N, (k.sem tg env n).norm topScope (.proj t (inMod l (asTrait l)) ["Output"]) = some O ∧
      (k.sem tg env n).implements [mod l, stdTrait l] O = some true ∧
      ∀ tr ∈ ["Zeroable", "Pod", "Copy", "Clone"], (k.sem tg env n).implements [tr] O = some true := by
  obtain ⟨c, O, hf⟩ := uses_fits (tg := tg) (env := env) hk h hi
  obtain ⟨M, hM⟩ := out_norm (k := k) ⟨"", t, c, O, i, hf⟩
  obtain ⟨N, hN⟩ := hf
  refine ⟨N + M + 1, O, fun n hn => ?_⟩
  rw [sem_eq hk]
  have ho := (hN n (by omega)).fit
  refine ⟨hM n (by omega) _ home_top, ?_, ?_⟩
  · obtain ⟨m, rfl⟩ : ∃ m, n = m + 1 := ⟨n - 1, by omega⟩
    obtain ⟨f, hf, -⟩ := (hN m (by omega)).fit.std
    rw [implements_next]
    unfold implementsRule
    rw [Tables.candidates_of_find hf]
    rfl
  · intro tr htr
    simp only [List.mem_cons, List.not_mem_nil, or_false] at htr
    rcases htr with rfl | rfl | rfl | rfl
    · exact ho.zeroable
    · exact ho.pod
    · exact ho.copy
    · exact ho.clone

/-- A struct without the derive has no implementation. -/
theorem C67_underived (tg : Target) (env : ForeignEnv) {k : Client} (hk : k.Ok) {l : Layout} {c : ClientStruct} (hc : c ∈ k.cs)
    (hd : (c, l) ∉ k.ds) (n : Nat) : k.impl tg env n l (ty c.name) = none :=
  underived hk hc hd n

/-- From the text of the crate to the shader: if the model accepts a struct of the crate, then `as_stdN` as the derive wrote
it makes of every value bytes in which a shader finds that value. -/
theorem C67_shader {tg : Target} (htg : tg.Valid) {env : ForeignEnv} (henv : env.Lawful tg) {k : Client} (hk : k.Ok) {l : Layout}
    {t : RustCode.Ty} {T : Ty} (h : Uses k l t T) (hi : (resolve tg env l T).isSome) {g : Glsl.Ty} (hg : T.glsl = some g)
    {v : RVal} (hv : T.HasVal tg env v) :
    ∃ N, ∀ n ≥ N, ∃ i o bs x, k.impl tg env n l t = some i ∧ i.asStd v = some o ∧ bytesOf tg i.out o = some bs ∧
      T.denote env v = some x ∧ Glsl.read tg.endian l g bs 0 = some x := by
  obtain ⟨i, hi⟩ := Option.isSome_iff_exists.1 hi
  obtain ⟨N, hN⟩ := C67_resolve tg env hk h hi
  obtain ⟨o, bs, x, h1, h2, h3, h4⟩ := C06_shader_reads_value htg henv hi hg hv
  exact ⟨N, fun n hn => ⟨i, o, bs, x, hN n hn, h1, h2, h3, h4⟩⟩

/-- Coherence: in the program of crevice and the crate, at most one implementation of each of the traits applies to any
type, whether it is a type of the crate, of crevice or of neither. -/
theorem C67_at_most_one (tg : Target) (env : ForeignEnv) {k : Client} (hk : k.Ok) {t : List String}
    (ht : t ∈ [["std140", "AsStd140"], ["std430", "AsStd430"], ["std140", "Std140"], ["std430", "Std430"], ["Zeroable"], ["Pod"],
      ["glsl", "Glsl"], ["glsl", "GlslStruct"]]) {n : Nat} {c : CTy} {fs : List Found}
    (h : (k.sem tg env n).candidates t [] c = some fs) : fs.length ≤ 1 := by
  rw [sem_eq hk] at h
  simp only [List.mem_cons, List.not_mem_nil, or_false] at ht
  rcases ht with rfl | rfl | ht
  · exact as_one hk .std140 n h
  · exact as_one hk .std430 n h
  · exact client_one hk (by simpa using ht) n h

end Crevice
