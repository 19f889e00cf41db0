import Verif.Proof.ExpandEq
import Verif.Proof.SyntaxGlsl
/-
C62: the text the derive macros emit. Read with Rust's grammar (`Spec/RustSyntax.lean`), the tokens of
`#[derive(AsStd140)]`, `#[derive(AsStd430)]` and `#[derive(GlslStruct)]` are items that compile to the implementation
all other properties are about.
-/
namespace Crevice
open RustSyntax Tokens

theorem Reads.unique {α : Type} {ts : List (Tok α)} {is js : List (Item α)} (h : Reads ts is) (k : Reads ts js) :
    is = js := by
  obtain ⟨a, h⟩ := h
  obtain ⟨b, k⟩ := k
  have h1 := h (max a b) (by omega)
  have h2 := k (max a b) (by omega)
  rw [h1] at h2
  injection h2 with h2
  exact (Prod.mk.inj h2).1

theorem padFnItem_fn {α : Type} (l : Layout) (f : String × CExpr α) : ∃ fn, padFnItem l f = .fn fn := by
  unfold padFnItem
  split <;> exact ⟨_, rfl⟩

theorem emitTokens_named {α : Type} {l : Layout} {vis : Vis} {input : DeriveInput α} {ts : List (Tok α)}
    (h : emitTokens l vis input = .ok ts) : ∃ fields g, input.data = .structNamed fields ∧
      emitLayout l input = .ok g ∧ Reads ts (ast l vis input.ident input.generics fields g) := by
  rcases emit_sim l vis input with ⟨ts', fields, g, pads, str, h1, h2, h3, -, -, h4, -⟩ | ⟨e, h1, -⟩
  · rw [h1] at h
    injection h with h
    subst h
    exact ⟨fields, g, h2, h3, h4⟩
  · rw [h1] at h
    cases h

/-- For every layout, visibility, struct name and fields, the macro emits a text; the text is a sequence of
Rust items; and what these items implement is `deriveImpl`. -/
theorem C62_expansion (tg : Target) (l : Layout) (vis : Vis) (name : String) (fields : List (String × Impl)) :
    ∃ ts, emitTokens l vis { ident := name, data := .structNamed fields } = .ok ts ∧
      (∃ items, Reads ts items) ∧
      ∀ items, Reads ts items →
        Expand.compile tg l ⟨name, [], fields⟩ items = deriveImpl tg l name fields := by
  obtain ⟨g, hg, -⟩ := emitLayout_ok l name fields []
  rcases emit_sim l vis { ident := name, data := .structNamed fields } with
    ⟨ts, fields', g', pads, str, h1, h2, h3, -, -, h4, -⟩ | ⟨e, -, h1⟩
  · injection h2 with h2
    subst h2
    refine ⟨ts, h1, ⟨_, h4⟩, fun items hi => ?_⟩
    rw [Reads.unique hi h4, deriveImpl, h3]
    exact compile_ast tg vis h3
  · rw [hg] at h1
    cases h1

/-- With the types of the fields resolved: what rustc makes of `#[derive(AsStdN)] struct name { fs }` by
expanding, reading and compiling is the implementation that `resolve` gives the type. -/
theorem C62_resolve {tg : Target} {env : ForeignEnv} {l : Layout} (vis : Vis) {name : String}
    {fs : List (String × Ty)} {is : List (String × Impl)} (h : resolveFields tg env l fs = some is)
    {ts : List (Tok Impl)} (hts : emitTokens l vis { ident := name, data := .structNamed is } = .ok ts)
    {items : List (Item Impl)} (hr : Reads ts items) :
    Expand.compile tg l ⟨name, [], is⟩ items = resolve tg env l (.struct name fs) := by
  obtain ⟨ts', h1, -, h2⟩ := C62_expansion tg l vis name is
  rw [hts] at h1
  injection h1 with h1
  subst h1
  rw [h2 items hr, resolve, h]
  rfl

/-- With generic parameters the items never compile: `type Output` is written without arguments. -/
theorem C62_generics (tg : Target) (l : Layout) (vis : Vis) (name p : String) (ps : List String)
    (fields : List (String × Impl)) {ts : List (Tok Impl)}
    (hts : emitTokens l vis ⟨name, p :: ps, .structNamed fields⟩ = .ok ts) {items : List (Item Impl)}
    (hr : Reads ts items) : Expand.compile tg l ⟨name, p :: ps, fields⟩ items = none := by
  obtain ⟨fields', g, h1, h2, h3⟩ := emitTokens_named hts
  injection h1 with h1
  subst h1
  rw [Reads.unique hr h3, compile_ast tg vis h2]
  obtain ⟨-, -, -, -, -, -, h4, h5⟩ := emitLayout_inv h2
  unfold Generated.toImpl
  rw [h4, h5]
  cases g.rustFields tg with
  | none => rfl
  | some fs =>
    cases g.alignment.evalWith tg (g.call tg) with
    | none => rfl
    | some al => simp

/-- The macro panics on exactly the inputs that are not structs with named fields, with the message for the kind
of input. -/
theorem C62_errors {α : Type} (l : Layout) (vis : Vis) (input : DeriveInput α) (e : DeriveError) :
    emitTokens l vis input = .error e ↔
      (e = .tupleStruct ∧ ∃ fs, input.data = .structUnnamed fs) ∨ (e = .unitStruct ∧ input.data = .structUnit) ∨
      (e = .notStruct ∧ (input.data = .enum ∨ input.data = .union)) := by
  obtain ⟨name, gs, data⟩ := input
  cases data with
  | structNamed fields =>
    obtain ⟨g, hg, -⟩ := emitLayout_ok l name fields gs
    rcases emit_sim l vis ⟨name, gs, .structNamed fields⟩ with ⟨ts, -, -, -, -, h1, -⟩ | ⟨e', -, h1⟩
    · rw [h1]
      simp
    · rw [hg] at h1
      cases h1
  | structUnnamed fs =>
    show Except.error DeriveError.tupleStruct = Except.error e ↔ _
    simp [eq_comm]
  | structUnit =>
    show Except.error DeriveError.unitStruct = Except.error e ↔ _
    simp [eq_comm]
  | enum =>
    show Except.error DeriveError.notStruct = Except.error e ↔ _
    simp [eq_comm]
  | union =>
    show Except.error DeriveError.notStruct = Except.error e ↔ _
    simp [eq_comm]

/-- The struct the macro defines is `#[repr(C)]` and has the visibility of the input and its generic parameters; its fields are
private, and the fields of the input come in order, each followed by a padding field. There is no other
struct. -/
theorem C62_struct {α : Type} {l : Layout} {vis : Vis} {input : DeriveInput α} {fields : List (String × α)}
    (hd : input.data = .structNamed fields) {ts : List (Tok α)} (hts : emitTokens l vis input = .ok ts)
    {items : List (Item α)} (hr : Reads ts items) :
    ∃ attrs fs, (items.filterMap fun i => match i with
        | .struct attrs v n gs fs => some (attrs, v, n, gs, fs)
        | _ => none) = [(attrs, vis, generatedName l input.ident, input.generics, fs)] ∧
      [.ident "repr", .punct .lparen, .ident "C", .punct .rparen] ∈ attrs ∧
      (∀ f ∈ fs, f.vis = .inherited) ∧
      fs.map Field.name = (fields.zipIdx.map fun x => [x.1.1, padFieldName x.2]).flatten := by
  obtain ⟨fields', g, h1, h2, h3⟩ := emitTokens_named hts
  rw [hd] at h1
  injection h1 with h1
  subst h1
  obtain ⟨fs', hfs, h4, -, h5, -, h6, -⟩ := emitLayout_inv h2
  rw [hd] at hfs
  injection hfs with hfs
  subst hfs
  rw [Reads.unique hr h3]
  refine ⟨[[.ident "derive", .punct .lparen, .ident "Debug", .punct .comma,
      .ident "Clone", .punct .comma, .ident "Copy", .punct .rparen],
     [.ident "repr", .punct .lparen, .ident "C", .punct .rparen],
     [.ident "doc", .punct .lparen, .ident "hidden", .punct .rparen],
     [.ident "allow", .punct .lparen, .ident "warnings", .punct .rparen]], g.fields.map (fieldAst l), ?_,
     by simp, ?_, ?_⟩
  · rw [ast, List.filterMap_append]
    have : ((g.padFns.map (padFnItem l)).filterMap fun i => match i with
        | .struct attrs v n gs fs => some (attrs, v, n, gs, fs)
        | _ => none) = [] := by
      rw [List.filterMap_eq_nil_iff]
      intro i hi
      obtain ⟨f, -, rfl⟩ := List.mem_map.1 hi
      obtain ⟨fn, hf⟩ := padFnItem_fn l f
      rw [hf]
    rw [this, ← h4, ← h6]
    rfl
  · intro f hf
    obtain ⟨x, -, rfl⟩ := List.mem_map.1 hf
    rfl
  · rw [h5, List.map_map, List.map_flatten, List.map_map]
    rfl

/-- The struct has a public method `as_bytes` that calls the one of its layout trait. -/
theorem C62_as_bytes {α : Type} {l : Layout} {vis : Vis} {input : DeriveInput α} {ts : List (Tok α)}
    (hts : emitTokens l vis input = .ok ts) {items : List (Item α)} (hr : Reads ts items) :
    ∃ f : Fn α, Item.impl false input.generics none
        (.path ⟨false, [generatedName l input.ident]⟩ input.generics) [.fn f] ∈ items ∧
      f.name = "as_bytes" ∧ f.vis = .everywhere ∧ f.params = [.refSelf] ∧
      f.ret = .ref none (.slice (.path ⟨false, ["u8"]⟩ [])) ∧ f.lets = [] ∧
      f.value = .call (.assoc (.path ⟨false, [generatedName l input.ident]⟩ input.generics)
        ⟨true, ["crevice", l.modName, l.traitName]⟩ "as_bytes") [.path ⟨false, ["self"]⟩] := by
  obtain ⟨fields, g, h1, h2, h3⟩ := emitTokens_named hts
  obtain ⟨-, -, h4, -⟩ := emitLayout_inv h2
  rw [Reads.unique hr h3, ← h4]
  refine ⟨{ attrs := [[.ident "allow", .punct .lparen, .ident "warnings", .punct .rparen]]
            vis := .everywhere
            const := false
            name := "as_bytes"
            params := [.refSelf]
            ret := .ref none (.slice (.path ⟨false, ["u8"]⟩ []))
            lets := []
            value := .call (.assoc (.path ⟨false, [g.structName]⟩ input.generics) (Expand.stdTrait l) "as_bytes")
              [.path ⟨false, ["self"]⟩] }, ?_, rfl, rfl, rfl, rfl, rfl, rfl⟩
  simp [ast, asBytesAst]

/-- What `debug_definitions()` shows (feature `debug-methods`) is what is compiled: the struct and the
padding functions, unchanged. -/
theorem C62_debug_definitions {α : Type} {l : Layout} {vis : Vis} {input : DeriveInput α} {ts : List (Tok α)}
    (hts : emitTokens l vis input = .ok ts) {items : List (Item α)} (hr : Reads ts items) :
    ∃ ds, debugDefinitions l vis input = .ok ds ∧
      Reads ds ((items.filter fun i => match i with | .struct .. => true | _ => false) ++
        items.filter fun i => match i with | .fn _ => true | _ => false) := by
  rcases emit_sim l vis input with ⟨ts', fields, g, pads, str, h1, h2, h3, h4, h5, h6, h7⟩ | ⟨e, h1, -⟩
  case inr =>
    rw [h1] at hts
    cases hts
  rw [h1] at hts
  injection hts with hts
  subst hts
  refine ⟨str ++ pads, by simp [debugDefinitions, h4, h5, bind, Except.bind, pure, Except.pure], ?_⟩
  rw [Reads.unique hr h6, ast, List.filter_append, List.filter_append]
  have a1 : ((g.padFns.map (padFnItem l)).filter fun i => match i with | .struct .. => true | _ => false) = [] := by
    rw [List.filter_eq_nil_iff]
    intro i hi
    obtain ⟨f, -, rfl⟩ := List.mem_map.1 hi
    obtain ⟨fn, hf⟩ := padFnItem_fn l f
    rw [hf]
    simp
  have a2 : ((g.padFns.map (padFnItem l)).filter fun i => match i with | .fn _ => true | _ => false) =
      g.padFns.map (padFnItem l) := by
    rw [List.filter_eq_self]
    intro i hi
    obtain ⟨f, -, rfl⟩ := List.mem_map.1 hi
    obtain ⟨fn, hf⟩ := padFnItem_fn l f
    rw [hf]
  rw [a1, a2]
  have a3 : ∀ r : List (Item α), ([structAst l vis g, asBytesAst l g.structName input.generics,
     .impl true input.generics (some (Expand.bytemuckTrait "Zeroable")) (.path ⟨false, [g.structName]⟩ input.generics) [],
     .impl true input.generics (some (Expand.bytemuckTrait "Pod")) (.path ⟨false, [g.structName]⟩ input.generics) [],
     .impl true input.generics (some (Expand.stdTrait l)) (.path ⟨false, [g.structName]⟩ input.generics)
       [.const "ALIGNMENT" (.path ⟨false, ["usize"]⟩ []) (rust l g.alignment)],
     asTraitAst l input.ident g.structName input.generics fields].filter fun i =>
       match i with | .fn _ => true | _ => false) = [] := fun _ => rfl
  rw [a3 [], List.append_nil]
  exact h7

/-- `#[derive(GlslStruct)]`: the emitted text is a sequence of items, which give the struct the name and fields
of `glslStruct`. -/
theorem C62_glsl (name : String) (fs : List (String × Ty)) :
    ∃ ts, emitGlslTokens { ident := name, data := .structNamed fs } = .ok ts ∧
      (∃ items, Reads ts items) ∧
      ∀ items, Reads ts items → Expand.compileGlsl name 0 items = glslStruct name fs := by
  refine ⟨_, rfl, ?_⟩
  obtain ⟨fields, h1, h2⟩ := glsl_reads { ident := name, data := .structNamed fs } rfl
  injection h1 with h1
  subst h1
  refine ⟨⟨_, h2⟩, fun items hi => ?_⟩
  rw [Reads.unique hi h2]
  exact glsl_compile name [] fs

end Crevice
