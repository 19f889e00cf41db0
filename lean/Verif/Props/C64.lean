import Verif.Proof.RunDeriveEntry
import Verif.Props.C62
/-
C64: the program text of the derive macros. `deriveProgram` are the tokens of `crevice-derive/src/{lib,layout,glsl}.rs`
(`Source/Derive.lean`), read with the grammar of `Spec/RustCode.lean`; `RustMacro.exec` runs a function of it
(`Spec/MacroRun.lean`). What it returns is Rust text; C62 says how it is read.
-/
namespace Crevice
open RustSyntax RustMacro Tokens

/-- Running the text of `#[derive(AsStdN)]` gives the tokens of `emitAll`, or panics with the message of its error. Five
nested calls are enough for every input. -/
theorem C64_layout {α : Type} (debug : Bool) (l : Layout) (vis : Vis) (input : DeriveInput α) {n : Nat} (hn : 5 ≤ n) :
    exec (deriveProgram debug) n "lib" (deriveEntry l) [synInput vis input] =
      match emitAll l debug vis input with
      | .ok ts => .val (.toks ts)
      | .error e => .panic e.message := by
  obtain ⟨n, rfl⟩ : ∃ m, n = m + 5 := ⟨n - 5, by omega⟩
  rw [Expand.derive_exec]
  cases emitAll l debug vis input <;> rfl

/-- Running the text of `#[derive(GlslStruct)]` gives the tokens of `emitGlslTokens`. -/
theorem C64_glsl {α : Type} (debug : Bool) (vis : Vis) (input : DeriveInput α) {n : Nat} (hn : 3 ≤ n) :
    exec (deriveProgram debug) n "lib" "derive_glsl_struct" [synInput vis input] =
      match emitGlslTokens input with
      | .ok ts => .val (.toks ts)
      | .error e => .panic e.message := by
  obtain ⟨n, rfl⟩ : ∃ m, n = m + 3 := ⟨n - 3, by omega⟩
  rw [Expand.glsl_exec]
  cases emitGlslTokens input <;> rfl

theorem emitAll_false {α : Type} (l : Layout) (vis : Vis) (input : DeriveInput α) :
    emitAll l false vis input = emitTokens l vis input := by
  unfold emitAll
  cases emitTokens l vis input with
  | error e => rfl
  | ok ts => exact congrArg Except.ok (List.append_nil ts)

/-- For every layout, visibility, struct name and fields: the macro returns Rust text, which is a sequence of items that
implement what `deriveImpl` says. -/
theorem C64_expansion (tg : Target) (l : Layout) (vis : Vis) (name : String) (fields : List (String × Impl)) :
    ∃ ts, (∀ n ≥ 5, exec (deriveProgram false) n "lib" (deriveEntry l)
        [synInput vis { ident := name, data := .structNamed fields }] = .val (.toks ts)) ∧
      (∃ items, Reads ts items) ∧
      ∀ items, Reads ts items → Expand.compile tg l ⟨name, [], fields⟩ items = deriveImpl tg l name fields := by
  obtain ⟨ts, h1, h2, h3⟩ := C62_expansion tg l vis name fields
  refine ⟨ts, fun n hn => ?_, h2, h3⟩
  rw [C64_layout false l vis _ hn, emitAll_false, h1]

/-- With the types of the fields resolved: running the macro on `struct name { fs }`, reading what it returns and compiling it
gives the implementation that `resolve` gives the type. -/
theorem C64_resolve {tg : Target} {env : ForeignEnv} {l : Layout} (vis : Vis) {name : String}
    {fs : List (String × Ty)} {is : List (String × Impl)} (h : resolveFields tg env l fs = some is)
    {n : Nat} (hn : 5 ≤ n) {ts : List (Tok Impl)}
    (hts : exec (deriveProgram false) n "lib" (deriveEntry l)
      [synInput vis { ident := name, data := .structNamed is }] = .val (.toks ts))
    {items : List (Item Impl)} (hr : Reads ts items) :
    Expand.compile tg l ⟨name, [], is⟩ items = resolve tg env l (.struct name fs) := by
  obtain ⟨ts', h1, -, h2⟩ := C62_expansion tg l vis name is
  rw [C64_layout false l vis _ hn, emitAll_false, h1] at hts
  injection hts with hts
  injection hts with hts
  subst hts
  exact C62_resolve vis h h1 hr

/-- The macros return text for every struct with named fields, and panic on all other inputs, with a message for the kind of
input. Indexing a field or padding function never panics. -/
theorem C64_outcome {α : Type} (debug : Bool) (l : Layout) (vis : Vis) (name : String) (generics : List String)
    (data : Data α) {n : Nat} (hn : 5 ≤ n) :
    (∀ fs, data = .structNamed fs →
      (∃ ts, exec (deriveProgram debug) n "lib" (deriveEntry l) [synInput vis ⟨name, generics, data⟩] = .val (.toks ts)) ∧
      ∃ ts, exec (deriveProgram debug) n "lib" "derive_glsl_struct" [synInput vis ⟨name, generics, data⟩] =
        .val (.toks ts)) ∧
    ∀ f ∈ [deriveEntry l, "derive_glsl_struct"],
      (∀ ts, data = .structUnnamed ts → exec (deriveProgram debug) n "lib" f [synInput vis ⟨name, generics, data⟩] =
        .panic (some "Tuple structs are not supported")) ∧
      (data = .structUnit → exec (deriveProgram debug) n "lib" f [synInput vis ⟨name, generics, data⟩] =
        .panic (some "Unit structs are not supported")) ∧
      (data = .enum ∨ data = .union → exec (deriveProgram debug) n "lib" f [synInput vis ⟨name, generics, data⟩] =
        .panic (some "Only structs are supported")) := by
  have h3 : 3 ≤ n := by omega
  refine ⟨fun fs hd => ?_, fun f hf => ?_⟩
  · subst hd
    constructor
    · rw [C64_layout debug l vis _ hn]
      rcases emit_sim l vis ⟨name, generics, .structNamed fs⟩ with ⟨ts, fields, g, pads, str, h1, h2, -, h4, h5, -⟩ | ⟨e, h1, -⟩
      · have hD : ∃ D, debugMethods l debug vis ⟨name, generics, .structNamed fs⟩ = .ok D := by
          cases debug with
          | false => exact ⟨_, rfl⟩
          | true => exact ⟨_, by
              simp [debugMethods, debugImpl, namedFields, debugDefinitions, h4, h5, bind, Except.bind, pure, Except.pure]; rfl⟩
        obtain ⟨D, hD⟩ := hD
        exact ⟨ts ++ D, by simp [emitAll, h1, hD, bind, Except.bind, pure, Except.pure]⟩
      · rcases (C62_errors l vis _ e).1 h1 with ⟨-, x, hx⟩ | ⟨-, hx⟩ | ⟨-, hx | hx⟩ <;> cases hx
    · rw [C64_glsl debug vis _ h3]
      exact ⟨_, rfl⟩
  · simp only [List.mem_cons, List.not_mem_nil, or_false] at hf
    rcases hf with rfl | rfl
    · simp only [C64_layout debug l vis _ hn]
      exact ⟨fun ts h => by subst h; rfl, fun h => by subst h; rfl, fun h => by rcases h with h | h <;> subst h <;> rfl⟩
    · simp only [C64_glsl debug vis _ h3]
      exact ⟨fun ts h => by subst h; rfl, fun h => by subst h; rfl, fun h => by rcases h with h | h <;> subst h <;> rfl⟩

/-- The feature `debug-methods` adds one inherent `impl` at the end and changes nothing else. Its `debug_definitions` is
`stringify!` of the struct and the padding functions among the items before it. -/
theorem C64_debug {α : Type} {l : Layout} {vis : Vis} {input : DeriveInput α} {n : Nat} (hn : 5 ≤ n) {ts : List (Tok α)}
    (hts : exec (deriveProgram false) n "lib" (deriveEntry l) [synInput vis input] = .val (.toks ts))
    {items : List (Item α)} (hr : Reads ts items) :
    ∃ metrics definitions, exec (deriveProgram true) n "lib" (deriveEntry l) [synInput vis input] =
        .val (.toks (ts ++ ([.kw .kImpl] ++ genericsTokens input.generics ++ [.ident (generatedName l input.ident)] ++
          genericsTokens input.generics ++ [.punct .lbrace] ++ metrics ++
          [.kw .kFn, .ident "debug_definitions", .punct .lparen, .punct .rparen, .punct .arrow, .punct .amp,
            .lifetime "static", .ident "str", .punct .lbrace, .ident "stringify", .punct .bang, .punct .lparen] ++
          definitions ++ [.punct .rparen, .punct .rbrace, .punct .rbrace]))) ∧
      Reads definitions ((items.filter fun i => match i with | .struct .. => true | _ => false) ++
        items.filter fun i => match i with | .fn _ => true | _ => false) := by
  have he : emitTokens l vis input = .ok ts := by
    rw [C64_layout false l vis _ hn, emitAll_false] at hts
    cases h : emitTokens l vis input with
    | error e => rw [h] at hts; cases hts
    | ok us =>
      rw [h] at hts
      injection hts with hts
      injection hts with hts
      rw [hts]
  obtain ⟨ds, h1, h2⟩ := C62_debug_definitions he hr
  obtain ⟨fields, g, h3, -⟩ := emitTokens_named he
  refine ⟨debugMetrics l fields, ds, ?_, h2⟩
  rw [C64_layout true l vis _ hn]
  simp [emitAll, he, debugMethods, debugImpl, namedFields, h3, h1, bind, Except.bind, pure, Except.pure]

/-- Running `#[derive(GlslStruct)]` on a struct returns a sequence of items that give it the name and fields of
`glslStruct`. -/
theorem C64_glsl_expansion (vis : Vis) (name : String) (fs : List (String × Ty)) :
    ∃ ts, (∀ n ≥ 3, ∀ debug, exec (deriveProgram debug) n "lib" "derive_glsl_struct"
        [synInput vis { ident := name, data := .structNamed fs }] = .val (.toks ts)) ∧
      (∃ items, Reads ts items) ∧
      ∀ items, Reads ts items → Expand.compileGlsl name 0 items = glslStruct name fs := by
  obtain ⟨ts, h1, h2, h3⟩ := C62_glsl name fs
  refine ⟨ts, fun n hn debug => ?_, h2, h3⟩
  rw [C64_glsl debug vis _ hn, h1]

end Crevice
