import Verif.Proof.TypingCrate
import Verif.Props.C58
import Verif.Props.C69
/-
C74: a crate that the model accepts is accepted by the type checker. The crate is that of C67 and C69: any structs, any derives;
`Returned` and `GlslReturned` (`Model/TextProgram.lean`) are what the text of the derive macros returns for them.
-/
namespace Crevice
open RustTyping TypingProof

/-- The derives return something for all structs, and these items are those of the program of C67 to C70. -/
theorem C74_items (k : Client) : ∃ is js, Returned k.ds is ∧ GlslReturned k.gs js ∧
    (∀ is js, Returned k.ds is → GlslReturned k.gs js → k.allItems = (crateProgram k.cs is js).map ClientText.codeItem) := by
  have h1 : ∀ {ds items}, Derived ds items → ∃ is, Returned ds is := by
    intro ds items h
    induction h with
    | nil => exact ⟨[], .nil⟩
    | cons h r ih =>
      obtain ⟨rest, ih⟩ := ih
      exact ⟨_, .cons h ih⟩
  have h2 : ∀ {gs items}, GlslDerived gs items → ∃ is, GlslReturned gs is := by
    intro gs items h
    induction h with
    | nil => exact ⟨[], .nil⟩
    | cons h r ih =>
      obtain ⟨rest, ih⟩ := ih
      exact ⟨_, .cons h ih⟩
  have h3 : ∀ {ds items}, Derived ds items → ∀ {is}, Returned ds is → items = is.map ClientText.codeItem := by
    intro ds items h
    induction h with
    | nil => intro is h; cases h; rfl
    | cons h r ih =>
      intro is h'
      cases h' with
      | cons h' r' => rw [List.map_append, ← ih r', ClientProof.expansion_items h, ClientProof.expansion_items h']
  have h4 : ∀ {gs items}, GlslDerived gs items → ∀ {is}, GlslReturned gs is → items = is.map ClientText.codeItem := by
    intro gs items h
    induction h with
    | nil => intro is h; cases h; rfl
    | cons h r ih =>
      intro is h'
      cases h' with
      | cons h' r' => rw [List.map_append, ← ih r', ClientProof.glslExpansion_items h, ClientProof.glslExpansion_items h']
  obtain ⟨is, hi⟩ := h1 k.derived
  obtain ⟨js, hj⟩ := h2 k.glslDerived
  refine ⟨is, js, hi, hj, fun is js hi hj => ?_⟩
  rw [Client.allItems, crateProgram, List.map_append, List.map_append, ← h3 k.derived hi, ← h4 k.glslDerived hj, List.map_map]
  congr 1
  refine List.map_congr_left fun c _ => ?_
  simp [ClientStruct.item, inputItem, ClientText.codeItem, ClientText.codeTy, ClientText.noGenerics, Function.comp_def]

/-- A crate with any structs and any derives next to crevice with any features, in which nothing is known of the types of the
fields but what `u` says of them: it is well typed exactly if
* the structs, and the structs that the derives add, have different names, and so have the fields of each struct;
* no struct has the name `u8` or `usize` if there is a derive of a layout, or `str` if there is a `GlslStruct`;
* there is at most one `GlslStruct` for each struct, and crevice has the feature `std` if there is any;
* for each derive of a layout: no field has the name of a padding field, the field types implement the trait, with outputs that
  are `Debug`, the trait is in scope (unless there are no fields), and no field type has another method of that name;
* for each `GlslStruct`: the field types implement `Glsl`.
(`Self` is no name that a struct can have.) -/
theorem C74_types (f : Features) (u : User RustCode.Ty) {k : Client} (hself : ∀ c ∈ k.cs, c.name ≠ "Self")
    {is js : List (RustSyntax.Item RustCode.Ty)} (h : Returned k.ds is) (hj : GlslReturned k.gs js) :
    let program := crateProgram k.cs is js
    WellTyped (typingEnv f u) program ↔
      ((k.cs.map ClientStruct.name ++ k.ds.map fun d => generatedName d.2 d.1.name).map plainName).Nodup ∧
      (∀ c ∈ k.cs, (c.fields.map fun x => plainName x.1).Nodup) ∧
      (∀ c ∈ k.cs, (k.ds ≠ [] → plainName c.name ∉ ["u8", "usize"]) ∧ (k.gs ≠ [] → plainName c.name ≠ "str")) ∧
      k.gs.Nodup ∧ (k.gs ≠ [] → f.std = true) ∧
      (∀ d ∈ k.ds, (∀ x ∈ d.1.fields, plainName x.1 ∉ reservedNames d.1.fields.length) ∧
        (∀ x ∈ d.1.fields, Implements (typingEnv f u) program (.given x.2) (asTraitName d.2)) ∧
        (∀ x ∈ d.1.fields, Implements (typingEnv f u) program (outputTy d.2 x.2) "Debug") ∧
        (d.1.fields ≠ [] → u.scope (asTraitName d.2)) ∧
        ∀ x ∈ d.1.fields, ¬ u.otherMethod (.given x.2) (Expand.asStdMethod d.2)) ∧
      ∀ c ∈ k.gs, ∀ x ∈ c.fields, Implements (typingEnv f u) program (.given x.2) "Glsl" := by
  refine ⟨fun hw => ?_, fun ⟨h1, h2, h3, h4, h5, h6, h7⟩ => ?_⟩
  · obtain ⟨n1, n2, n3, n4, n5, n6, n7⟩ := crate_needs h hj k.known hself hw
    exact ⟨n3, n5, n4, n1, n2, n6, n7⟩
  · exact crate_typed h hj k.known k.glslKnown h4 h5 h1 h3 h2 (fun d hd => (h6 d hd).1) (fun d hd => (h6 d hd).2.1)
      (fun d hd => (h6 d hd).2.2.1) (fun d hd => (h6 d hd).2.2.2.1) (fun d hd => (h6 d hd).2.2.2.2) h7

theorem fields_found {k : Client} {l : Layout} {f : Features} {tg : Target} {env : ForeignEnv} :
    ∀ {cfs : List (String × RustCode.Ty)} {fs : List (String × Ty)} {is : List (String × Impl)}, UsesFields k l cfs fs →
    FieldsEnabled f fs → resolveFields tg env l fs = some is → is.map Prod.fst = cfs.map Prod.fst ∧
      ∀ x ∈ cfs, ∃ T i, Uses k l x.2 T ∧ T.Enabled f ∧ resolve tg env l T = some i ∧ (x.1, i) ∈ is
  | _, _, is, .nil, _, hi => by
    injection hi with hi
    subst hi
    exact ⟨rfl, fun x hx => nomatch hx⟩
  | _, _, is, .cons (T := T) h r, he, hi => by
    rw [FieldsEnabled] at he
    rw [resolveFields] at hi
    obtain ⟨i, h1, hi⟩ := Option.bind_eq_some_iff.1 hi
    obtain ⟨js, h2, rfl⟩ := Option.map_eq_some_iff.1 hi
    obtain ⟨e1, e2⟩ := fields_found r he.2 h2
    refine ⟨by simp [e1], fun x hx => ?_⟩
    rcases List.mem_cons.1 hx with rfl | hx
    · exact ⟨T, i, h, he.1, h1, List.mem_cons_self ..⟩
    · obtain ⟨T', j, a, b, c, d⟩ := e2 x hx
      exact ⟨T', j, a, b, c, List.mem_cons_of_mem _ d⟩

theorem glsl_found {k : Client} {f : Features} :
    ∀ {cfs : List (String × RustCode.Ty)} {fs : List (String × Ty)}, GlslUsesFields k cfs fs → FieldsEnabled f fs →
    (∀ x ∈ fs, x.2.glslName.isSome = true) → ∀ x ∈ cfs, ∃ T, GlslUses k x.2 T ∧ T.Enabled f ∧ T.glslName.isSome = true
  | _, _, .nil, _, _ => fun x hx => nomatch hx
  | _, _, .cons (T := T) h r, he, hi => by
    rw [FieldsEnabled] at he
    intro x hx
    rcases List.mem_cons.1 hx with rfl | hx
    · exact ⟨T, h, he.1, hi _ (List.mem_cons_self ..)⟩
    · exact glsl_found r he.2 (fun y hy => hi y (List.mem_cons_of_mem _ hy)) x hx

/-- The crate of C69: if the model accepts every struct with a derive, with the types of its fields, and the names do not clash,
then the type checker accepts the crate. What types implement is what the text of the crate and of crevice says. -/
theorem C74_crate (tg : Target) (env : ForeignEnv) {k : Client} (hk : k.Ok) (hn : k.NamesOk) (f : Features)
    {is js : List (RustSyntax.Item RustCode.Ty)} (h : Returned k.ds is) (hj : GlslReturned k.gs js)
    (hd : ∀ d ∈ k.ds, ∃ fs, UsesFields k d.2 d.1.fields fs ∧ FieldsEnabled f fs ∧
      (resolve tg env d.2 (.struct d.1.name fs)).isSome = true)
    (hstd : k.gs ≠ [] → f.std = true)
    (hg : ∀ c ∈ k.gs, ∃ fs, GlslUsesFields k c.fields fs ∧ FieldsEnabled f fs ∧ ∀ x ∈ fs, x.2.glslName.isSome = true) :
    WellTyped (typingEnv f (k.user f tg env)) (crateProgram k.cs is js) := by
  have key : ∀ d ∈ k.ds, (∀ x ∈ d.1.fields, plainName x.1 ∉ reservedNames d.1.fields.length) ∧
      ∀ x ∈ d.1.fields, ∃ i N, i.outDebug = true ∧ ∀ n ≥ N, k.implWith f tg env n d.2 x.2 = some i := by
    intro d hdm
    obtain ⟨fs, h1, h2, h3⟩ := hd d hdm
    obtain ⟨i, hi⟩ := Option.isSome_iff_exists.1 h3
    rw [resolve] at hi
    obtain ⟨is, h4, h5⟩ := Option.bind_eq_some_iff.1 hi
    obtain ⟨c1, -, c3⟩ := (C58_compiles tg d.2 d.1.name is).1 ⟨i, h5⟩
    obtain ⟨e1, e2⟩ := fields_found h1 h2 h4
    have hlen : is.length = d.1.fields.length := by simpa using congrArg List.length e1
    refine ⟨fun x hx hm => ?_, fun x hx => ?_⟩
    · obtain ⟨T, j, -, -, -, hj⟩ := e2 x hx
      obtain ⟨m, hm, e⟩ := List.mem_map.1 hm
      exact c3 _ hj m (by rw [hlen]; exact List.mem_range.1 hm) e.symm
    · obtain ⟨T, j, a, b, c, hj⟩ := e2 x hx
      obtain ⟨N, hN⟩ := C69_resolve tg env hk f a b c
      exact ⟨j, N, c1 _ hj, hN⟩
  refine crate_typed h hj k.known k.glslKnown hk.glslOnce hstd hn.distinct (fun c hc => ?_) hn.fields (fun d hd => (key d hd).1)
    (fun d hd x hx => .known ?_) (fun d hd x hx => .known ?_) (fun _ _ _ => trivial) (fun _ _ _ _ => id) fun c hc x hx => .known ?_
  · have := hn.free c hc
    simp only [List.mem_cons, List.not_mem_nil, or_false, not_or] at this
    exact ⟨fun _ => by simp [this], fun _ => this.2.2⟩
  · obtain ⟨i, N, h1, h2⟩ := (key d hd).2 x hx
    exact .inl ⟨d.2, rfl, N, fun n hn => by rw [h2 n hn]; rfl⟩
  · obtain ⟨i, N, h1, h2⟩ := (key d hd).2 x hx
    exact ⟨rfl, rfl, d.2, rfl, N, fun n hn => ⟨i, h2 n hn, h1⟩⟩
  · obtain ⟨fs, h1, h2, h3⟩ := hg c hc
    obtain ⟨T, a, b, c⟩ := glsl_found h1 h2 h3 x hx
    obtain ⟨s, hs⟩ := Option.isSome_iff_exists.1 c
    obtain ⟨N, hN⟩ := C69_name tg env hk f a b hs
    exact .inr ⟨rfl, N, fun n hn => by rw [hN n hn]; rfl⟩

end Crevice
