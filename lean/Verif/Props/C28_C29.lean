import Verif.Proof.GlslConverse
import Verif.Props.C06_C12
/-
C28: the text of `glsl_definition` is GLSL and unambiguous.
C29: the generated GLSL text and the generated bytes agree.
-/
namespace Crevice

/-! ## C28 -/

/-- `fs` and `ms` are the same members: same names, and each member's type is the GLSL name of the
field's type. -/
def SameMembers : List (String × Ty) → List Glsl.Member → Prop
  | [], [] => True
  | (n, t) :: fs, m :: ms => m.name = n ∧ t.glslName = some m.ty ∧ SameMembers fs ms
  | _, _ => False

theorem sameMembers_of_all2 {fs : List (String × Ty)} {fields : List GlslField}
    (h : All2 (fun f (d : GlslField) => d.name = f.1 ∧ f.2.glslName = some d.ty) fs fields) :
    SameMembers fs (declOf "" fields).members := by
  induction h with
  | nil => trivial
  | @cons f d _ _ hr _ ih => exact ⟨hr.1, hr.2, ih⟩

theorem sameMembers_inj {fs : List (String × Ty)} {ms ms' : List Glsl.Member}
    (h : SameMembers fs ms) (h' : SameMembers fs ms') : ms = ms' := by
  induction fs generalizing ms ms' with
  | nil => cases ms <;> cases ms' <;> simp_all [SameMembers]
  | cons f r ih =>
    cases ms with
    | nil => exact absurd h (by simp [SameMembers])
    | cons m ms =>
      cases ms' with
      | nil => exact absurd h' (by simp [SameMembers])
      | cons m' ms' =>
        obtain ⟨h1, h2, h3⟩ := h
        obtain ⟨h1', h2', h3'⟩ := h'
        obtain ⟨a, b⟩ := m
        obtain ⟨a', b'⟩ := m'
        simp only at h1 h2 h1' h2'
        rw [h2] at h2'
        injection h2' with h2'
        rw [ih h3 h3', h2', h1, h1']

/-- A user struct all of whose names are GLSL identifiers: the struct itself, its fields (at least
one) and the structs its fields have as types. -/
structure GlslSpelled (name : String) (fs : List (String × Ty)) : Prop where
  name : Glsl.isIdentifier name = true
  nonempty : fs ≠ []
  fields : ∀ f ∈ fs, Glsl.isIdentifier f.1 = true
  nested : ∀ f ∈ fs, ∀ n gs, f.2 = .struct n gs → Glsl.isIdentifier n = true

theorem glslDefinition_some {name : String} {fs : List (String × Ty)} {text : String}
    (h : (Ty.struct name fs).glslDefinition = some text) :
    ∃ fields, text = glslDefinition name fields ∧
      All2 (fun f (d : GlslField) => d.name = f.1 ∧ f.2.glslName = some d.ty) fs fields := by
  simp only [Ty.glslDefinition, Option.map_eq_some_iff] at h
  obtain ⟨x, hx, rfl⟩ := h
  obtain ⟨h1, h2⟩ := glslStruct_eq hx
  exact ⟨x.2, by rw [h1], h2⟩

theorem declOf_ok' {name : String} {fs : List (String × Ty)} (h : GlslSpelled name fs)
    {fields : List GlslField}
    (h2 : All2 (fun f (y : GlslField) => y.name = f.1 ∧ f.2.glslName = some y.ty) fs fields) :
    (declOf name fields).Ok := by
  refine ⟨h.name, ?_, ?_⟩
  · have hf := h.fields
    have hn := h.nested
    clear h
    rw [declOf_members]
    induction h2 with
    | nil => simp [declOf]
    | @cons f y fs ys hr _ ih =>
      intro m hm
      simp only [declOf, List.map_cons, List.mem_cons] at hm
      rcases hm with rfl | hm
      · refine ⟨?_, by rw [hr.1]; exact hf f (by simp)⟩
        by_cases hs : ∃ m gs, f.2 = .struct m gs
        · obtain ⟨m, gs, hm⟩ := hs
          have hty : y.ty = m := glslName_struct (hm ▸ hr.2)
          simp [Glsl.isTypeName, hty, hn f (by simp) m gs hm]
        · obtain ⟨g, hb, hg⟩ := glslName_builtin hr.2 fun m gs hm => hs ⟨m, gs, hm⟩
          simp [Glsl.isTypeName, hb]
      · exact ih (fun f hf' => hf f (by simp [hf'])) (fun f hf' => hn f (by simp [hf'])) m hm
  · intro hc
    have := all2_names h2
    rw [← declOf_members name, hc] at this
    exact h.nonempty (List.map_eq_nil_iff.1 this.symm)

/-- C28: the text of `glsl_definition` parses as one GLSL structure definition, with the struct's
name and its fields' types and names in order. -/
theorem C28_parses {name : String} {fs : List (String × Ty)} {text : String}
    (h : (Ty.struct name fs).glslDefinition = some text) (hid : GlslSpelled name fs) :
    ∃ ms, Glsl.parse text = some [⟨name, ms⟩] ∧ SameMembers fs ms := by
  obtain ⟨fields, rfl, h2⟩ := glslDefinition_some h
  refine ⟨(declOf name fields).members, ?_, by rw [declOf_members]; exact sameMembers_of_all2 h2⟩
  have := parse_definitions (ds := [(name, fields)]) (by simpa using declOf_ok' hid h2) (sep := "")
    (by simp)
  simp only [Glsl.shaderText, List.map_cons, List.map_nil, List.foldr_cons, List.foldr_nil,
    String.append_empty] at this
  exact this

/-- The names that occur in the definition of a struct — its own, those of its fields and those of
the structs it has as field types — contain no white space, braces and semicolons. True of all Rust
identifiers, including non-ASCII and raw ones. -/
structure Named (name : String) (fs : List (String × Ty)) : Prop where
  name : Glsl.isName name = true
  fields : ∀ f ∈ fs, Glsl.isName f.1 = true
  nested : ∀ f ∈ fs, ∀ n gs, f.2 = .struct n gs → Glsl.isName n = true

theorem GlslSpelled.named {name : String} {fs : List (String × Ty)} (h : GlslSpelled name fs) :
    Named name fs :=
  ⟨Glsl.wellSpelled_isName (Glsl.isIdentifier_spelled h.name),
    fun f hf => Glsl.wellSpelled_isName (Glsl.isIdentifier_spelled (h.fields f hf)),
    fun f hf n gs hn => Glsl.wellSpelled_isName (Glsl.isIdentifier_spelled (h.nested f hf n gs hn))⟩

theorem Named.fieldsNamed {name : String} {fs : List (String × Ty)} (h : Named name fs)
    {fields : List GlslField}
    (h2 : All2 (fun f (d : GlslField) => d.name = f.1 ∧ f.2.glslName = some d.ty) fs fields) :
    ∀ d ∈ fields, Glsl.isName d.ty = true ∧ Glsl.isName d.name = true := by
  intro d hd
  obtain ⟨f, hf, h1, h2⟩ := h2.mem_right hd
  refine ⟨?_, by rw [h1]; exact h.fields f hf⟩
  by_cases hs : ∃ m gs, f.2 = .struct m gs
  · obtain ⟨m, gs, hm⟩ := hs
    have hty : d.ty = m := glslName_struct (hm ▸ h2)
    rw [hty]
    exact h.nested f hf m gs hm
  · obtain ⟨g, hb, hg⟩ := glslName_builtin h2 fun m gs hm => hs ⟨m, gs, hm⟩
    exact Glsl.builtin_isName (by rw [hb]; rfl)

/-- C28, unambiguity: structs with the same text have the same name and the same members, whatever
their names are spelled with. -/
theorem C28_injective {name name' : String} {fs fs' : List (String × Ty)} {text : String}
    (h : (Ty.struct name fs).glslDefinition = some text)
    (h' : (Ty.struct name' fs').glslDefinition = some text)
    (hid : Named name fs) (hid' : Named name' fs') :
    name = name' ∧ fs.map (fun f => (f.1, f.2.glslName)) = fs'.map (fun f => (f.1, f.2.glslName)) := by
  obtain ⟨fields, ht, h2⟩ := glslDefinition_some h
  obtain ⟨fields', ht', h2'⟩ := glslDefinition_some h'
  obtain ⟨e1, rfl⟩ := glslDefinition_inj hid.name hid'.name (hid.fieldsNamed h2) (hid'.fieldsNamed h2')
    (ht.symm.trans ht')
  refine ⟨e1, ?_⟩
  have key : ∀ (fs : List (String × Ty)) (fields : List GlslField),
      All2 (fun f (d : GlslField) => d.name = f.1 ∧ f.2.glslName = some d.ty) fs fields →
      fs.map (fun f => (f.1, f.2.glslName)) = fields.map fun d => (d.name, some d.ty) := by
    intro fs fields h
    induction h with
    | nil => rfl
    | cons hr _ ih => simp [ih, hr.1, hr.2]
  rw [key fs _ h2, key fs' _ h2']

/-- C28, exactly when the text is GLSL: the struct has a field, its name and its fields' names are
GLSL identifiers, and its fields' types have names of GLSL types. -/
theorem C28_valid_iff {name : String} {fs : List (String × Ty)} {text : String}
    (h : (Ty.struct name fs).glslDefinition = some text) (hid : Named name fs) :
    (∃ ds, Glsl.parse text = some ds) ↔
      Glsl.isIdentifier name = true ∧ fs ≠ [] ∧
      ∀ f ∈ fs, Glsl.isIdentifier f.1 = true ∧
        ∀ n, f.2.glslName = some n → Glsl.isTypeName n = true := by
  obtain ⟨fields, rfl, h2⟩ := glslDefinition_some h
  have hok : (declOf name fields).Ok ↔ Glsl.isIdentifier name = true ∧ fs ≠ [] ∧
      ∀ f ∈ fs, Glsl.isIdentifier f.1 = true ∧
        ∀ n, f.2.glslName = some n → Glsl.isTypeName n = true := by
    constructor
    · rintro ⟨o1, o2, o3⟩
      refine ⟨o1, ?_, ?_⟩
      · rintro rfl
        cases h2
        exact o3 rfl
      · intro f hf
        obtain ⟨d, hd, e1, e2⟩ := h2.mem_left hf
        have := o2 ⟨d.ty, d.name⟩
          (List.mem_map_of_mem (f := fun f : GlslField => Glsl.Member.mk f.ty f.name) hd)
        refine ⟨by rw [← e1]; exact this.2, fun n hn => ?_⟩
        rw [e2] at hn
        injection hn with hn
        rw [← hn]
        exact this.1
    · rintro ⟨o1, o2, o3⟩
      refine ⟨o1, ?_, ?_⟩
      · intro m hm
        obtain ⟨d, hd, rfl⟩ := List.mem_map.1 hm
        obtain ⟨f, hf, e1, e2⟩ := h2.mem_right hd
        exact ⟨(o3 f hf).2 _ e2, by rw [e1]; exact (o3 f hf).1⟩
      · intro hc
        have := all2_names h2
        rw [← declOf_members name, hc] at this
        exact o2 (List.map_eq_nil_iff.1 this.symm)
  rw [← hok]
  constructor
  · rintro ⟨ds, hp⟩
    exact parse_definition_conv hid.name (hid.fieldsNamed h2) hp
  · intro ho
    have := parse_definitions (ds := [(name, fields)]) (by simpa using ho) (sep := "") (by simp)
    simp only [Glsl.shaderText, List.map_cons, List.map_nil, List.foldr_cons, List.foldr_nil,
      String.append_empty] at this
    exact ⟨_, this⟩

-- non-vacuity: names that are Rust but not GLSL identifiers
example : Named "größe" [("r#type", .scalar .f32), ("sample", .struct "Straße" [])] := by
  refine ⟨by decide, by decide, ?_⟩
  intro f hf n gs h
  simp only [List.mem_cons, List.not_mem_nil, or_false] at hf
  rcases hf with rfl | rfl <;> simp at h
  rw [← h.1]
  decide

/-- C28, which structs have a definition: exactly those all of whose fields have a GLSL name. -/
theorem C28_exists (name : String) (fs : List (String × Ty)) :
    (∃ text, (Ty.struct name fs).glslDefinition = some text) ↔
      ∀ f ∈ fs, ∃ n, f.2.glslName = some n := by
  simp only [Ty.glslDefinition, glslStruct, emitGlsl, Bind.bind, Except.bind, pure, Except.pure,
    Option.map_map, Option.map_eq_some_iff]
  rw [mapM_map]
  constructor
  · rintro ⟨text, fields, hf, -⟩
    clear text
    induction fs generalizing fields with
    | nil => simp
    | cons f r ih =>
      rw [mapM_option_cons] at hf
      simp only [Option.bind_eq_some_iff, Option.map_eq_some_iff] at hf
      obtain ⟨d, ⟨ty, hty, rfl⟩, ds, hds, rfl⟩ := hf
      intro g hg
      rcases List.mem_cons.1 hg with rfl | hg
      · exact ⟨ty, hty⟩
      · exact ih _ hds g hg
  · intro h
    have : ∃ fields, (fs.mapM fun f => f.2.glslName.map fun ty => GlslField.mk ty f.1) = some fields := by
      induction fs with
      | nil => exact ⟨[], rfl⟩
      | cons f r ih =>
        obtain ⟨n, hn⟩ := h f (by simp)
        obtain ⟨fields, hf⟩ := ih fun g hg => h g (by simp [hg])
        exact ⟨_, by rw [mapM_option_cons, hn, hf]; rfl⟩
    obtain ⟨fields, hf⟩ := this
    exact ⟨_, fields, hf, rfl⟩

/-- Not every Rust identifier is a GLSL identifier, and nothing checks it: a raw identifier and a
GLSL keyword both give text that is not GLSL, and so does a struct without fields. -/
theorem C28_exception :
    (∃ text, (Ty.struct "S" [("r#type", .scalar .f32)]).glslDefinition = some text ∧
      text = "struct S {\n\tfloat r#type;\n};" ∧ Glsl.parse text = none) ∧
    (∃ text, (Ty.struct "S" [("sample", .scalar .f32)]).glslDefinition = some text ∧
      text = "struct S {\n\tfloat sample;\n};" ∧ Glsl.parse text = none) ∧
    (∃ text, (Ty.struct "S" []).glslDefinition = some text ∧
      text = "struct S {\n};" ∧ Glsl.parse text = none) := by
  refine ⟨⟨_, rfl, ?_, ?_⟩, ⟨_, rfl, ?_, ?_⟩, ⟨_, rfl, ?_, ?_⟩⟩ <;> decide

/-- `bool` and `DynamicUniform<T>` are convertible but have no GLSL name, so a struct with such a
field cannot derive `GlslStruct`. -/
theorem C28_no_bool (t : Ty) : Ty.bool.glslName = none ∧ (Ty.dynamic t).glslName = none :=
  ⟨rfl, rfl⟩

/-- The struct of the documentation (`src/glsl.rs:16-24`). -/
def Ex.spot : List (String × Ty) :=
  [("transform", .math ⟨.mint, .matrix, .f32, 4⟩), ("color", Ex.vec3), ("intensity", Ex.f32)]

/-- Its text is the documented one. -/
example : (Ty.struct "SpotLight" Ex.spot).glslDefinition =
    some "struct SpotLight {\n\tmat4 transform;\n\tvec3 color;\n\tfloat intensity;\n};" := by decide

theorem Ex.spot_spelled : GlslSpelled "SpotLight" Ex.spot := by
  refine ⟨by decide, by decide, by decide, ?_⟩
  intro f hf n gs h
  simp only [Ex.spot, List.mem_cons, List.not_mem_nil, or_false] at hf
  rcases hf with rfl | rfl | rfl <;> simp at h

example : Glsl.parse "struct SpotLight {\n\tmat4 transform;\n\tvec3 color;\n\tfloat intensity;\n};" =
    some [⟨"SpotLight", [⟨"mat4", "transform"⟩, ⟨"vec3", "color"⟩, ⟨"float", "intensity"⟩]⟩] := by
  decide

/-! ## C29 -/

/-- The structs `ds` can be emitted in this order: all names are GLSL identifiers, every struct has
a field, field names are distinct, and every struct used as a field type comes earlier. -/
structure Emittable (ds : List (String × List (String × Ty))) : Prop where
  spelled : ∀ d ∈ ds, Glsl.isIdentifier d.1 = true ∧ d.2 ≠ [] ∧ (d.2.map Prod.fst).Nodup ∧
    ∀ f ∈ d.2, Glsl.isIdentifier f.1 = true
  distinct : (ds.map Prod.fst).Nodup
  ordered : ∀ a d b, ds = a ++ d :: b → ∀ f ∈ d.2, ∀ n gs, f.2 = .struct n gs → (n, gs) ∈ a

/-- C29: concatenate the `glsl_definition()`s of some structs, with any white space in between.
Parsing the result and resolving the type names as GLSL does gives, for each struct, the GLSL type
that corresponds to it member by member. -/
theorem C29_text {ds : List (String × List (String × Ty))} (hem : Emittable ds)
    {texts : List String}
    (ht : ds.mapM (fun d => (Ty.struct d.1 d.2).glslDefinition) = some texts)
    {sep : String} (hsep : ∀ c ∈ sep.toList, Glsl.isSpace c = true) :
    ∃ defs, Glsl.definitions (Glsl.shaderText sep texts) = some defs ∧
      ∀ d ∈ ds, ∃ g, defs.lookup d.1 = some g ∧ (Ty.struct d.1 d.2).glsl = some g := by
  have hready : ∀ a d b, ds = a ++ d :: b → StructReady ([] ++ a) d := by
    intro a d b h
    have := hem.spelled d (by rw [h]; simp)
    exact ⟨this.1, this.2.1, this.2.2.1, this.2.2.2, by simpa using hem.ordered a d b h⟩
  have hx : ∃ fss : List (String × List GlslField),
      texts = fss.map (fun x => glslDefinition x.1 x.2) ∧
      All2 (fun d x => x.1 = d.1 ∧
        All2 (fun f (y : GlslField) => y.name = f.1 ∧ f.2.glslName = some y.ty) d.2 x.2) ds fss := by
    clear hready hem hsep
    induction ds generalizing texts with
    | nil =>
      simp at ht
      subst ht
      exact ⟨[], rfl, .nil⟩
    | cons d r ih =>
      rw [mapM_option_cons] at ht
      simp only [Option.bind_eq_some_iff, Option.map_eq_some_iff] at ht
      obtain ⟨text, h1, ts, h2, rfl⟩ := ht
      obtain ⟨fss, rfl, h3⟩ := ih h2
      obtain ⟨fields, rfl, h4⟩ := glslDefinition_some h1
      exact ⟨(d.1, fields) :: fss, rfl, .cons ⟨rfl, h4⟩ h3⟩
  obtain ⟨fss, rfl, hall⟩ := hx
  have hids : ∀ d ∈ ds, Glsl.isIdentifier d.1 = true := fun d hd => (hem.spelled d hd).1
  have hok : ∀ x ∈ fss, (declOf x.1 x.2).Ok := by
    have : ∀ {bs : List (String × List (String × Ty))} {xs : List (String × List GlslField)},
        (∀ d ∈ bs, StructReady ds d) →
        All2 (fun d x => x.1 = d.1 ∧
          All2 (fun f (y : GlslField) => y.name = f.1 ∧ f.2.glslName = some y.ty) d.2 x.2) bs xs →
        ∀ x ∈ xs, (declOf x.1 x.2).Ok := by
      intro bs xs hb h
      induction h with
      | nil => simp
      | cons hr _ ih =>
        intro x hx
        rcases List.mem_cons.1 hx with rfl | hx
        · exact declOf_ok hids (hb _ (by simp)) hr.1 hr.2
        · exact ih (fun d hd => hb d (by simp [hd])) x hx
    refine this ?_ hall
    intro d hd
    obtain ⟨a, b, hab⟩ := List.append_of_mem hd
    have := hready a d b hab
    exact ⟨this.name, this.nonempty, this.nodup, this.fields, fun f hf n gs h => by
      have := this.nested f hf n gs h
      rw [hab]
      simp only [List.nil_append] at this
      simp [this]⟩
  obtain ⟨defs, h1, h2⟩ := resolveDecls_ok (pre := []) (env := [])
    ⟨by simp, by simp, by simp⟩ hready (by simpa using hem.distinct) hall
  refine ⟨defs, ?_, fun d hd => h2.found d (by simpa using hd)⟩
  rw [Glsl.definitions, parse_definitions hok hsep]
  exact h1

/-- C29: the struct type a shader compiler finds in the generated text has, in both layouts, the
alignment, the size and all member offsets of the Output type, and a shader that declares a buffer
with that type reads the converted value. -/
theorem C29_bytes {ds : List (String × List (String × Ty))} (hem : Emittable ds)
    {texts : List String}
    (ht : ds.mapM (fun d => (Ty.struct d.1 d.2).glslDefinition) = some texts)
    {sep : String} (hsep : ∀ c ∈ sep.toList, Glsl.isSpace c = true)
    {tg : Target} (htg : tg.Valid) {env : ForeignEnv} (henv : env.Lawful tg) {l : Layout}
    {name : String} {fs : List (String × Ty)} (hd : (name, fs) ∈ ds) {i : Impl}
    (hi : resolve tg env l (.struct name fs) = some i) :
    ∃ defs g, Glsl.definitions (Glsl.shaderText sep texts) = some defs ∧
      defs.lookup name = some g ∧ LaidOutAs tg l i g ∧
      ∀ v, (Ty.struct name fs).HasVal tg env v →
        ∃ o bs x, i.asStd v = some o ∧ bytesOf tg i.out o = some bs ∧
          (Ty.struct name fs).denote env v = some x ∧ Glsl.read tg.endian l g bs 0 = some x := by
  obtain ⟨defs, h1, h2⟩ := C29_text hem ht hsep
  obtain ⟨g, hg1, hg2⟩ := h2 _ hd
  exact ⟨defs, g, h1, hg1, laidOut htg hi hg2, fun v hv => C06_shader_reads_value htg henv hi hg2 hv⟩

/-- Two structs, one inside the other. -/
def Ex.two : List (String × List (String × Ty)) :=
  [("Attenuation", [("k", .scalar .f64), ("v", .foreign "glam::Vec2")]),
   ("Light", [("position", Ex.vec3), ("basis", Ex.mat3), ("inner", Ex.atten),
     ("raw", .output .std140 Ex.vec2)])]

theorem Ex.two_emittable : Emittable Ex.two := by
  refine ⟨?_, by decide, ?_⟩
  · intro d hd
    simp only [Ex.two, List.mem_cons, List.not_mem_nil, or_false] at hd
    rcases hd with rfl | rfl <;> refine ⟨by decide, by simp, by decide, by decide⟩
  · intro a d b h f hf n gs hs
    cases a with
    | nil =>
      simp only [Ex.two, List.nil_append, List.cons.injEq] at h
      obtain ⟨rfl, -⟩ := h
      simp only [List.mem_cons, List.not_mem_nil, or_false] at hf
      rcases hf with rfl | rfl <;> simp at hs
    | cons x a =>
      cases a with
      | nil =>
        simp only [Ex.two, List.cons_append, List.nil_append, List.cons.injEq] at h
        obtain ⟨rfl, rfl, -⟩ := h
        simp only [List.mem_cons, List.not_mem_nil, or_false] at hf
        rcases hf with rfl | rfl | rfl | rfl
        · simp at hs
        · simp at hs
        · simp only [Ex.atten, Ty.struct.injEq] at hs
          obtain ⟨rfl, rfl⟩ := hs
          simp
        · simp at hs
      | cons y a =>
        have := congrArg List.length h
        simp [Ex.two] at this

example : ∃ texts, Ex.two.mapM (fun d => (Ty.struct d.1 d.2).glslDefinition) = some texts ∧
    Glsl.shaderText "\n" texts =
      "struct Attenuation {\n\tdouble k;\n\tvec2 v;\n};\nstruct Light {\n\tvec3 position;\n\tmat3 basis;\n\tAttenuation inner;\n\tvec2 raw;\n};\n" :=
  ⟨_, rfl, by decide⟩

end Crevice
