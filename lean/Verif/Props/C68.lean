import Verif.Proof.ClientGlsl
import Verif.Props.C28_C29
import Verif.Props.C63
import Verif.Props.C67
/-
C68. `#[derive(GlslStruct)]` in a crate that uses crevice, as text: what the text of the derive writes, read as Rust beside
the structs and beside crevice, gives every struct the name and the fields of the model, and the buffers that `as_stdN`
fills are those a shader with the definitions expects.
-/
namespace Crevice
open RustTypes TypeNames ClientText ClientProof

/-- `<T as Glsl>::NAME` of a type that is used in the crate is the name that the model says. -/
theorem C68_name (tg : Target) (env : ForeignEnv) {k : Client} (hk : k.Ok) {t : RustCode.Ty} {T : Ty} (h : GlslUses k t T)
    {x : String} (hx : T.glslName = some x) : ∃ N, ∀ n ≥ N, k.glslName tg env n t = some x := by
  obtain ⟨c, N, hN⟩ := uses_shows (tg := tg) (env := env) hk h hx
  exact ⟨N, fun n hn => shows_name hk (hN n hn)⟩

/-- `NAME` and `FIELDS` of a struct of the crate. -/
theorem C68_struct (tg : Target) (env : ForeignEnv) {k : Client} (hk : k.Ok) {c : ClientStruct} (hc : c ∈ k.gs)
    {fs : List (String × Ty)} (h : GlslUsesFields k c.fields fs) {r : String × List GlslField} (hr : glslStruct c.name fs = some r) :
    ∃ N, ∀ n ≥ N, k.glslStruct tg env n (ty c.name) = some r :=
  uses_struct hk hc h hr

/-- A struct without the derive has neither. -/
theorem C68_underived (tg : Target) (env : ForeignEnv) {k : Client} (hk : k.Ok) {c : ClientStruct} (hc : c ∈ k.cs) (hg : c ∉ k.gs)
    (n : Nat) : k.glslName tg env n (ty c.name) = none ∧ k.glslStruct tg env n (ty c.name) = none :=
  underived_glsl hk hc hg n

/-- A type without a GLSL name, such as `bool` and `DynamicUniform`, has none in the crate, and a struct with a field of it
has no `FIELDS`: rustc rejects the derive. -/
theorem C68_unnamed (tg : Target) (env : ForeignEnv) {k : Client} (hk : k.Ok) {c : ClientStruct} (hc : c ∈ k.gs)
    {f : String × RustCode.Ty} (hf : f ∈ c.fields) {T : Ty} (h : Writes f.2 T) {l : Layout} (hr : (resolve tg env l T).isSome)
    (hn : T.glslName = none) :
    ∃ N, ∀ n ≥ N, k.glslName tg env n f.2 = none ∧ k.glslStruct tg env n (ty c.name) = none := by
  obtain ⟨d, hd⟩ := unnamed_shows hk h hr hn
  obtain ⟨M, hM⟩ := unnamed_struct hk hc hf hd
  obtain ⟨N, hN⟩ := hd
  exact ⟨N + M, fun n hn => ⟨shows_name hk (hN n (by omega)), hM n (by omega)⟩⟩

/-- The types that a definition mentions, known by their GLSL names. -/
def glslTypes (r : String × List GlslField) : List (String × String) :=
  (r.1 :: r.2.map GlslField.ty).map fun x => ("::" ++ x, x)

theorem glslTypes_lookup {xs : List String} {x : String} (h : x ∈ xs) :
    (glslNames (xs.map fun x => ("::" ++ x, x))).lookup ("::" ++ x) = some x := by
  have no : ∀ y : String, y.toList.head? ≠ some ':' → ("::" ++ x == y) = false := by
    intro y hy
    refine beq_eq_false_iff_ne.2 fun e => hy ?_
    rw [← e, String.toList_append]
    rfl
  unfold glslNames
  simp only [List.cons_append, List.nil_append, List.lookup_cons, no "f32" (by decide), no "f64" (by decide), no "i32" (by decide),
    no "u32" (by decide)]
  induction xs with
  | nil => cases h
  | cons y ys ih =>
    rw [List.map_cons, List.lookup_cons]
    by_cases e : x = y
    · subst e
      simp
    · have : ("::" ++ x == "::" ++ y) = false := by
        refine beq_eq_false_iff_ne.2 fun e' => e ?_
        have h1 := congrArg String.toList e'
        rw [String.toList_append, String.toList_append] at h1
        exact String.toList_inj.1 (List.append_cancel_left h1)
      rw [this]
      rcases List.mem_cons.1 h with h | h
      · exact absurd h e
      · exact ih h

/-- `glsl_definition()` of a struct of the crate: the text of `src/glsl.rs`, run with the `NAME` and the `FIELDS` that the text
of the crate says, returns the definition of the model. The types of the fields are known by their names. -/
theorem C68_definition (tg : Target) (env : ForeignEnv) {k : Client} (hk : k.Ok) {c : ClientStruct} (hc : c ∈ k.gs)
    {fs : List (String × Ty)} (h : GlslUsesFields k c.fields fs) {text : String} (ht : (Ty.struct c.name fs).glslDefinition = some text)
    {S : RustCode.Setting} (vars : RustCode.Env S) (world : S.World) :
    ∃ N, ∀ n ≥ N, ∃ r, k.glslStruct tg env n (ty c.name) = some r ∧
      RustCode.Runs (glslProgram (glslTypes r) ("::" ++ r.1) (r.2.map fun f => (f.name, "::" ++ f.ty)))
        (.call (.path (.path ["::" ++ r.1, "glsl_definition"] [])) []) vars world (.val (.str text)) vars world := by
  simp only [Ty.glslDefinition, Option.map_eq_some_iff] at ht
  obtain ⟨r, hr, rfl⟩ := ht
  obtain ⟨N, hN⟩ := C68_struct tg env hk hc h hr
  refine ⟨N, fun n hn => ⟨r, hN n hn, ?_⟩⟩
  have hns : (r.2.map fun f => (f.name, "::" ++ f.ty)).mapM (fun f => (glslNames (glslTypes r)).lookup f.2) =
      some (r.2.map GlslField.ty) := by
    rw [mapM_map]
    have key : ∀ fs : List GlslField, (∀ f ∈ fs, f.ty ∈ r.1 :: r.2.map GlslField.ty) →
        (fs.mapM fun f => (glslNames (glslTypes r)).lookup ("::" ++ f.ty)) = some (fs.map GlslField.ty) := by
      intro fs hfs
      induction fs with
      | nil => rfl
      | cons f fs ih =>
        rw [mapM_option_cons, show (glslNames (glslTypes r)).lookup ("::" ++ f.ty) = some f.ty from
          glslTypes_lookup (hfs f List.mem_cons_self), ih fun g hg => hfs g (List.mem_cons_of_mem _ hg)]
        rfl
    exact key r.2 fun f hf => List.mem_cons_of_mem _ (List.mem_map_of_mem hf)
  have hself : ∀ f ∈ r.2.map (fun f => (f.name, "::" ++ f.ty)), f.2 ≠ "Self" := by
    intro f hf e
    obtain ⟨g, -, rfl⟩ := List.mem_map.1 hf
    have h1 := congrArg (fun s : String => s.toList.head?) e
    simp only [String.toList_append] at h1
    exact absurd (Option.some.inj h1) (by decide)
  have := C63_glsl_definition (glslTypes r) ("::" ++ r.1) (r.2.map fun f => (f.name, "::" ++ f.ty)) (name := r.1)
    (glslTypes_lookup List.mem_cons_self) hself hns vars world
  have e : ∀ fs : List GlslField, (((fs.map GlslField.ty).zip ((fs.map fun f => (f.name, "::" ++ f.ty)).map (·.1))).map
      fun p => (⟨p.1, p.2⟩ : GlslField)) = fs := by
    intro fs
    induction fs with
    | nil => rfl
    | cons f fs ih =>
      simp only [List.map_cons, List.zip_cons_cons, ih]
  rw [e r.2] at this
  exact this

/-- From the text of the crate to the text of the shader and the bytes of the buffer: take structs of the crate that derive
`GlslStruct` in an order in which GLSL accepts them, put their `glsl_definition()`s together, and let one of them derive
`AsStdN`. A shader compiler finds its type in that text, laid out like the Output type that the derive wrote, and reads in
the bytes that `as_stdN` as the derive wrote it makes of a value that value. -/
theorem C68_shader {ds : List (String × List (String × Ty))} (hem : Emittable ds) {k : Client} (hk : k.Ok)
    (hds : ∀ d ∈ ds, ∃ c ∈ k.gs, c.name = d.1 ∧ GlslUsesFields k c.fields d.2 ∧ ∀ f ∈ d.2, ∃ x, f.2.glslName = some x)
    {sep : String} (hsep : ∀ c ∈ sep.toList, Glsl.isSpace c = true)
    {tg : Target} (htg : tg.Valid) {env : ForeignEnv} (henv : env.Lawful tg) {l : Layout}
    {name : String} {fs : List (String × Ty)} (hd : (name, fs) ∈ ds) (hu : Uses k l (ty name) (.struct name fs))
    (hr : (resolve tg env l (.struct name fs)).isSome) :
    ∃ N, ∀ n ≥ N, ∃ texts defs g i,
      ds.mapM (fun d => (k.glslStruct tg env n (ty d.1)).map fun s => glslDefinition s.1 s.2) = some texts ∧
      Glsl.definitions (Glsl.shaderText sep texts) = some defs ∧ defs.lookup name = some g ∧
      k.impl tg env n l (ty name) = some i ∧ LaidOutAs tg l i g ∧
      ∀ v, (Ty.struct name fs).HasVal tg env v →
        ∃ o bs x, i.asStd v = some o ∧ bytesOf tg i.out o = some bs ∧
          (Ty.struct name fs).denote env v = some x ∧ Glsl.read tg.endian l g bs 0 = some x := by
  obtain ⟨i, hi⟩ := Option.isSome_iff_exists.1 hr
  obtain ⟨N, hN⟩ := C67_resolve tg env hk hu hi
  have texts : ∀ es : List (String × List (String × Ty)), (∀ e ∈ es, e ∈ ds) → ∃ M ts,
      es.mapM (fun d => (Ty.struct d.1 d.2).glslDefinition) = some ts ∧ ∀ n ≥ M,
      es.mapM (fun d => (k.glslStruct tg env n (ty d.1)).map fun s => glslDefinition s.1 s.2) = some ts := by
    intro es hes
    induction es with
    | nil => exact ⟨0, [], rfl, fun _ _ => rfl⟩
    | cons d es ih =>
      obtain ⟨M, ts, h1, h2⟩ := ih fun e he => hes e (List.mem_cons_of_mem _ he)
      obtain ⟨c, hc, hn, hf, hx⟩ := hds d (hes d List.mem_cons_self)
      obtain ⟨text, ht⟩ := (C28_exists d.1 d.2).2 hx
      have ht' := ht
      simp only [Ty.glslDefinition, Option.map_eq_some_iff] at ht'
      obtain ⟨s, hs, hst⟩ := ht'
      obtain ⟨M', hM'⟩ := C68_struct tg env hk hc hf (hn ▸ hs)
      refine ⟨M + M', text :: ts, by rw [mapM_option_cons, ht, h1]; rfl, fun n hn' => ?_⟩
      rw [mapM_option_cons, ← hn, hM' n (by omega), h2 n (by omega), Option.map_some, hst]
      rfl
  obtain ⟨M, ts, h1, h2⟩ := texts ds fun _ h => h
  obtain ⟨defs, g, e1, e2, e3, e4⟩ := C29_bytes hem h1 hsep htg henv hd hi
  exact ⟨N + M, fun n hn => ⟨ts, defs, g, i, h2 n (by omega), e1, e2, hN n (by omega), e3, e4⟩⟩

end Crevice
