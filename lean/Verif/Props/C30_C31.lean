import Verif.Proof.Names
import Verif.Model.Glsl
import Verif.Props.Examples
/-
C30: what the derives accept, and that the generated const functions terminate.
C31: generated names do not collide.
-/
namespace Crevice

/-- C30, the layout derives as macros: they expand exactly the structs with named fields, whatever
the types of the fields are, and panic on everything else with the message for that kind of item.
In particular they never panic with an index out of bounds. -/
theorem C30_macro {α : Type} (l : Layout) (input : DeriveInput α) :
    (∀ fs, input.data = .structNamed fs → ∃ g, emitLayout l input = .ok g) ∧
    (∀ ts, input.data = .structUnnamed ts → emitLayout l input = .error .tupleStruct) ∧
    (input.data = .structUnit → emitLayout l input = .error .unitStruct) ∧
    (input.data = .enum ∨ input.data = .union → emitLayout l input = .error .notStruct) := by
  obtain ⟨n, ps, d⟩ := input
  refine ⟨?_, ?_, ?_, ?_⟩
  · rintro fs rfl
    obtain ⟨g, hg, -⟩ := emitLayout_ok l n fs ps
    exact ⟨g, hg⟩
  · rintro ts rfl
    rfl
  · rintro rfl
    rfl
  · rintro (rfl | rfl) <;> rfl

/-- C30, the same for the GLSL derive. -/
theorem C30_macro_glsl {α : Type} (input : DeriveInput α) :
    (∀ fs, input.data = .structNamed fs → ∃ g, emitGlsl input = .ok g) ∧
    (∀ ts, input.data = .structUnnamed ts → emitGlsl input = .error .tupleStruct) ∧
    (input.data = .structUnit → emitGlsl input = .error .unitStruct) ∧
    (input.data = .enum ∨ input.data = .union → emitGlsl input = .error .notStruct) := by
  obtain ⟨n, ps, d⟩ := input
  refine ⟨?_, ?_, ?_, ?_⟩
  · rintro fs rfl
    exact ⟨_, rfl⟩
  · rintro ts rfl
    rfl
  · rintro rfl
    rfl
  · rintro (rfl | rfl) <;> rfl

/-- C30: the derives agree on what they accept. -/
theorem C30_derives_agree {α : Type} (input : DeriveInput α) (e : DeriveError) :
    (emitLayout .std140 input = .error e ↔ emitGlsl input = .error e) ∧
    (emitLayout .std430 input = .error e ↔ emitGlsl input = .error e) := by
  obtain ⟨n, ps, d⟩ := input
  cases d with
  | structNamed fs =>
    obtain ⟨g, hg, -⟩ := emitLayout_ok .std140 n fs ps
    obtain ⟨k, hk, -⟩ := emitLayout_ok .std430 n fs ps
    rw [hg, hk]
    exact ⟨⟨fun h => (by cases h), fun h => (by cases h)⟩, ⟨fun h => (by cases h), fun h => (by cases h)⟩⟩
  | _ => simp [emitLayout, emitGlsl, Bind.bind, Except.bind]

/-- C30, no recursion: every function called in the body of a generated function is a generated
function that comes strictly before it. -/
theorem C30_no_recursion {α : Type} {l : Layout} {input : DeriveInput α} {g : Generated α}
    (hg : emitLayout l input = .ok g) (i : Nat) (hi : i < g.padFns.length) :
    ∀ f ∈ g.padFns[i].2.calls, ∃ (j : Nat) (hj : j < g.padFns.length), j < i ∧ g.padFns[j].1 = f := by
  obtain ⟨fs, -, -, h2, -⟩ := emitLayout_inv hg
  have hlen : g.padFns.length = fs.length := by simp [h2]
  have hif : i < fs.length := by omega
  intro f hf
  have hgi : g.padFns[i] = (padFnName l input.ident i,
      padBody l fs (padFnNames l input.ident fs.length) i hif) := by
    simp [h2, hif]
  rw [hgi, calls_padBody] at hf
  obtain ⟨j, hj, rfl⟩ := List.mem_map.1 hf
  rw [List.mem_range] at hj
  refine ⟨j, by omega, hj, ?_⟩
  simp [h2]

/-- C30: every generated function evaluates to a value at compile time, and there is one for every
field. -/
theorem C30_terminates {tg : Target} {l : Layout} {name : String} {ps : List String} {fs : List (String × Impl)}
    {g : Generated Impl} (hg : emitLayout l ⟨name, ps, .structNamed fs⟩ = .ok g) :
    g.padFns.length = fs.length ∧
    ∀ f ∈ g.padFns, ∃ n, g.call tg f.1 = some n := by
  obtain ⟨fs', he, -, h2, -⟩ := emitLayout_inv hg
  injection he with he
  subst he
  refine ⟨by simp [h2], fun f hf => ?_⟩
  rw [h2] at hf
  obtain ⟨i, hi, rfl⟩ := List.mem_map.1 hf
  exact ⟨_, call_pad hg (List.mem_range.1 hi)⟩

/-- C30, the whole program: a derived struct compiles exactly when its field types are convertible,
no field is a `DynamicUniform` (see `C30_no_dynamic_field`), its field names are distinct and none of
them is `_pad<k>` for some `k` smaller than the number of fields. An identifier and its raw form
`r#..` are the same name. -/
theorem C30_compiles (tg : Target) (env : ForeignEnv) (l : Layout) (name : String)
    (fs : List (String × Ty)) :
    (∃ i, resolve tg env l (.struct name fs) = some i) ↔
      (∀ f ∈ fs, ∃ i, resolve tg env l f.2 = some i) ∧
      (∀ f ∈ fs, f.2.isDynamic = false) ∧
      (fs.map fun f => plainName f.1).Nodup ∧
      ∀ f ∈ fs, ∀ k, k < fs.length → plainName f.1 ≠ "_pad" ++ toString k := by
  rw [resolve_isSome_iff]
  have hall : ∀ fs : List (String × Ty), acceptedFields l fs = true ↔
      (∀ f ∈ fs, ∃ i, resolve tg env l f.2 = some i) ∧ ∀ f ∈ fs, f.2.isDynamic = false := by
    intro fs
    induction fs with
    | nil => simp [acceptedFields]
    | cons f r ih =>
      simp only [acceptedFields, Bool.and_eq_true, ih, List.forall_mem_cons, Bool.not_eq_true']
      rw [resolve_isSome_iff]
      exact ⟨fun ⟨⟨a, b⟩, c, d⟩ => ⟨⟨a, c⟩, b, d⟩, fun ⟨⟨a, c⟩, b, d⟩ => ⟨⟨a, b⟩, c, d⟩⟩
  simp only [Ty.accepted, Bool.and_eq_true, decide_eq_true_eq, hall, List.all_eq_true, and_assoc]
  constructor
  · rintro ⟨h1, h0, h2, h3⟩
    refine ⟨h1, h0, h2, fun f hf k hk he => ?_⟩
    have := h3 (plainName f.1) (List.mem_map_of_mem (f := fun f => plainName f.1) hf)
    simp only [Bool.not_eq_true', ← Bool.not_eq_true, List.contains_iff_mem] at this
    exact this (List.mem_map.2 ⟨k, List.mem_range.2 hk, he.symm⟩)
  · rintro ⟨h1, h0, h2, h3⟩
    refine ⟨h1, h0, h2, fun n hn => ?_⟩
    obtain ⟨f, hf, rfl⟩ := List.mem_map.1 hn
    simp only [Bool.not_eq_true', ← Bool.not_eq_true, List.contains_iff_mem]
    intro hm
    obtain ⟨k, hk, he⟩ := List.mem_map.1 hm
    exact h3 f hf k (List.mem_range.1 hk) he.symm

/-- C30, generics: the layout derives expand a struct with generic parameters without complaint, but
the expansion never compiles, because `type Output = Std140Foo;` leaves out the parameters. -/
theorem C30_generics {tg : Target} (l : Layout) (input : DeriveInput Impl) {fs : List (String × Impl)}
    (hd : input.data = .structNamed fs) (hp : input.generics ≠ []) (self : List String) :
    ∃ g, emitLayout l input = .ok g ∧ g.toImpl tg self = none := by
  obtain ⟨n, ps, d⟩ := input
  subst hd
  obtain ⟨g, hg, -⟩ := emitLayout_ok l n fs ps
  refine ⟨g, hg, ?_⟩
  obtain ⟨-, -, -, -, -, -, h1, h2⟩ := emitLayout_inv hg
  have hne : ¬ g.outputArgs.length = g.structParams.length := by
    rw [h1, h2]
    intro h
    exact hp (List.eq_nil_of_length_eq_zero h.symm)
  unfold Generated.toImpl
  cases g.rustFields tg with
  | none => rfl
  | some fs =>
    rw [Option.bind_some]
    cases g.alignment.evalWith tg (g.call tg) with
    | none => rfl
    | some al =>
      rw [Option.bind_some, if_neg fun h => hne h.2.2]

/-- `struct S<T> { a: f32 }`. -/
example : (⟨"S", ["T"], .structNamed [("a", boolImpl .std140)]⟩ : DeriveInput Impl).generics ≠ [] := by
  decide

/-- C30: which types are convertible at all, by shape. -/
theorem C30_convertible (tg : Target) (env : ForeignEnv) (l : Layout) (t : Ty) :
    (∃ i, resolve tg env l t = some i) ↔ t.accepted l = true :=
  resolve_isSome_iff tg env l t

/-- A field called `_pad0` (or `r#_pad0`) makes the derive's output fail to compile; `_pad1` in a
struct with one field does not. -/
theorem C30_reserved_name (tg : Target) (env : ForeignEnv) (l : Layout) :
    (¬ ∃ i, resolve tg env l (.struct "S" [("_pad0", .scalar .f32)]) = some i) ∧
    (¬ ∃ i, resolve tg env l (.struct "S" [("r#_pad0", .scalar .f32)]) = some i) ∧
    ∃ i, resolve tg env l (.struct "S" [("_pad1", .scalar .f32)]) = some i := by
  rw [resolve_isSome_iff, resolve_isSome_iff, resolve_isSome_iff]
  cases l <;> decide

/-- A struct with a `DynamicUniform` field never compiles, although `DynamicUniform<T>` is
convertible whenever `T` is: the generated struct derives `Debug`, which `DynamicUniformStd140` does
not implement. -/
theorem C30_no_dynamic_field (tg : Target) (env : ForeignEnv) (l : Layout) (name : String)
    (fs : List (String × Ty)) (x : String) (t : Ty) (h : (x, Ty.dynamic t) ∈ fs) :
    resolve tg env l (.struct name fs) = none := by
  cases hr : resolve tg env l (.struct name fs) with
  | none => rfl
  | some i =>
    have := ((C30_compiles tg env l name fs).1 ⟨i, hr⟩).2.1 _ h
    simp [Ty.isDynamic] at this

example : (∃ i, resolve x86_64 Ex.env .std140 (.dynamic (.scalar .f32)) = some i) ∧
    resolve x86_64 Ex.env .std140 (.struct "S" [("d", .dynamic (.scalar .f32))]) = none := by
  exact ⟨(C30_convertible _ _ _ _).2 (by decide), C30_no_dynamic_field _ _ _ _ _ "d" (.scalar .f32) (by simp)⟩

-- `Bool` is an Output of both layouts, so `<bool as AsStd140>::Output` can be a field of a struct
-- that derives `AsStd430`; `<mint::Vector2<f32> as AsStd140>::Output` cannot
example : (∃ i, resolve x86_64 Ex.env .std430 (.struct "S" [("b", .output .std140 .bool)]) = some i) ∧
    ¬ ∃ i, resolve x86_64 Ex.env .std430
      (.struct "S" [("v", .output .std140 (.math ⟨.mint, .vector, .f32, 2⟩))]) = some i := by
  rw [C30_convertible, C30_convertible]; decide

-- non-vacuity: an expansion with three functions, the last of which calls the other two
example : ∃ g, emitLayout .std140 (α := Unit) ⟨"S", [], .structNamed [("a", ()), ("b", ()), ("c", ())]⟩
    = .ok g ∧ g.padFns.map (fun f => (f.1, f.2.calls)) =
      [("_S__Std140Pad0", []), ("_S__Std140Pad1", ["_S__Std140Pad0"]),
       ("_S__Std140Pad2", ["_S__Std140Pad0", "_S__Std140Pad1"])] := ⟨_, rfl, by decide⟩

example : ∃ i, resolve x86_64 Ex.env .std140 Ex.light = some i :=
  (C30_convertible _ _ _ _).2 (by decide)

/-! ### C31 -/

/-- C31: take any set of structs with distinct names, each deriving one or both layouts. The items
added to the module (generated structs and padding functions) have pairwise distinct names. An
identifier and its raw form `r#..` are the same name. -/
theorem C31_items_distinct {α : Type} (ds : List (Layout × DeriveInput α × Generated α))
    (hok : ∀ d ∈ ds, emitLayout d.1 d.2.1 = .ok d.2.2)
    (hnames : (ds.map fun d => (d.1, unraw d.2.1.ident)).Nodup) :
    (ds.flatMap fun d => d.2.2.itemNames).Nodup := by
  induction ds with
  | nil => simp
  | cons d r ih =>
    rw [List.map_cons, List.nodup_cons] at hnames
    rw [List.flatMap_cons, List.nodup_append]
    refine ⟨itemNames_nodup (hok d (by simp)), ih (fun x hx => hok x (by simp [hx])) hnames.2, ?_⟩
    intro a ha b hb hab
    subst hab
    obtain ⟨e, he, hae⟩ := List.mem_flatMap.1 hb
    refine itemNames_disjoint (hok d (by simp)) (hok e (by simp [he])) ?_ a ha hae
    intro hc
    exact hnames.1 (hc ▸ List.mem_map_of_mem (f := fun d => (d.1, unraw d.2.1.ident)) he)

/-- C31: the generated struct has distinct field names exactly when the user's field names are
distinct and none is `_pad<k>`, `k` smaller than the number of fields. -/
theorem C31_fields_distinct {α : Type} {l : Layout} {name : String} {ps : List String} {fs : List (String × α)}
    {g : Generated α} (h : emitLayout l ⟨name, ps, .structNamed fs⟩ = .ok g) :
    (g.fields.map fun f => plainName f.1).Nodup ↔
      (fs.map fun f => plainName f.1).Nodup ∧
        ∀ f ∈ fs, ∀ k, k < fs.length → plainName f.1 ≠ "_pad" ++ toString k := by
  rw [genFieldNames_nodup h]
  refine and_congr Iff.rfl ⟨fun h f hf k hk he => ?_, fun h n hn hm => ?_⟩
  · exact h (plainName f.1) (List.mem_map_of_mem (f := fun f => plainName f.1) hf) (List.mem_map.2 ⟨k, List.mem_range.2 hk, he.symm⟩)
  · obtain ⟨f, hf, rfl⟩ := List.mem_map.1 hn
    obtain ⟨k, hk, he⟩ := List.mem_map.1 hm
    exact h f hf k (List.mem_range.1 hk) he.symm

/-- C31, what is not guaranteed: a user struct called `Std140Foo` has the name of the struct
generated for `Foo`. -/
theorem C31_user_collision (l : Layout) (name : String) (ps : List String) (h : unraw name = name) :
    (∀ {α : Type} {fs : List (String × α)} {g : Generated α},
      emitLayout l ⟨name, ps, .structNamed fs⟩ = .ok g → g.structName = l.traitName ++ name) := by
  intro α fs g hg
  obtain ⟨-, -, h1, -⟩ := emitLayout_inv hg
  rw [h1, generatedName, h]

-- non-vacuity: two structs, one deriving both layouts; eight items
example : ∃ a b c : Generated Unit,
    emitLayout .std140 ⟨"Light", [], .structNamed [("a", ()), ("b", ())]⟩ = .ok a ∧
    emitLayout .std430 ⟨"Light", [], .structNamed [("a", ()), ("b", ())]⟩ = .ok b ∧
    emitLayout .std140 ⟨"Light1", [], .structNamed [("a", ())]⟩ = .ok c ∧
    (a.itemNames ++ b.itemNames ++ c.itemNames) =
      ["Std140Light", "_Light__Std140Pad0", "_Light__Std140Pad1",
       "Std430Light", "_Light__Std430Pad0", "_Light__Std430Pad1",
       "Std140Light1", "_Light1__Std140Pad0"] := ⟨_, _, _, rfl, rfl, rfl, by decide⟩

example : ∃ g : Generated Unit,
    emitLayout .std140 ⟨"Foo", [], .structNamed []⟩ = .ok g ∧ g.structName = "Std140Foo" :=
  ⟨_, rfl, by decide⟩

end Crevice
