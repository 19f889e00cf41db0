import Verif.Proof.TypingNeeds
import Verif.Proof.TypingGlsl
import Verif.Props.C64
/-
C73: derived code type-checks. `WellTyped` (`Spec/Typing.lean`) are the rules of Rust for the forms that derived code is made of;
`typingEnv f u` (`Model/TextTyping.lean`) is what derived code can use: the traits, functions and structs that crevice makes
public with features `f`, with the types that its text declares (`Spec/Signatures.lean`), and what `u` says of the user's crate.
-/
namespace Crevice
open RustSyntax RustMacro RustCode RustTyping

/-- Running the text of `#[derive(AsStdN)]` on a struct without type parameters and reading what it returns: the items, next to
the struct, are well typed exactly if the struct is not called `u8` or `usize`, no two of its fields have the same name, none
has the name of a padding field, every field type implements `AsStdN` with an `Output` that is `Debug`, the trait `AsStdN` is in
scope (unless there are no fields), and no field type has another method of the name `as_stdN`. -/
theorem C73_layout {α : Type} (f : Features) (u : User α) (l : Layout) (vis : Vis) (name : String) (hself : name ≠ "Self")
    (fields : List (String × α)) {n : Nat} (hn : 5 ≤ n) {ts : List (RustSyntax.Tok α)}
    (hts : exec (deriveProgram false) n "lib" (deriveEntry l) [synInput vis ⟨name, [], .structNamed fields⟩] = .val (.toks ts))
    {is : List (RustSyntax.Item α)} (hr : Reads ts is) :
    let program := inputItem vis name [] fields :: is
    WellTyped (typingEnv f u) program ↔
      plainName name ∉ ["u8", "usize"] ∧ (fields.map fun x => plainName x.1).Nodup ∧
      (∀ x ∈ fields, plainName x.1 ∉ reservedNames fields.length) ∧
      (∀ x ∈ fields, Implements (typingEnv f u) program (.given x.2) (asTraitName l)) ∧
      (∀ x ∈ fields, Implements (typingEnv f u) program (outputTy l x.2) "Debug") ∧
      (fields ≠ [] → u.scope (asTraitName l)) ∧ ∀ x ∈ fields, ¬ u.otherMethod (.given x.2) (Expand.asStdMethod l) := by
  rw [C64_layout false l vis _ hn, emitAll_false] at hts
  rcases Tokens.emit_sim l vis ⟨name, [], .structNamed fields⟩ with ⟨ts', fields', g, -, -, k1, k2, k3, -, -, k4, -⟩ | ⟨e, k1, -⟩
  case inr => rw [k1] at hts; cases hts
  rw [k1] at hts
  injection hts with hts
  injection hts with hts
  subst hts
  injection k2 with k2
  subst k2
  rw [Reads.unique hr k4]
  exact ⟨TypingProof.needs k3 hself, fun ⟨h1, h2, h3, h4, h5, h6, h7⟩ => TypingProof.typed k3 h1 h2 h3 h4 h5 h6 h7⟩

/-- A struct with type parameters cannot have the derive: what it returns is never well typed. -/
theorem C73_generic {α : Type} (f : Features) (u : User α) (l : Layout) (vis : Vis) (name : String) {generics : List String}
    (hg : generics ≠ []) (fields : List (String × α)) {n : Nat} (hn : 5 ≤ n) {ts : List (RustSyntax.Tok α)}
    (hts : exec (deriveProgram false) n "lib" (deriveEntry l) [synInput vis ⟨name, generics, .structNamed fields⟩] =
      .val (.toks ts)) {is : List (RustSyntax.Item α)} (hr : Reads ts is) :
    ¬ WellTyped (typingEnv f u) (inputItem vis name generics fields :: is) := by
  rw [C64_layout false l vis _ hn, emitAll_false] at hts
  rcases Tokens.emit_sim l vis ⟨name, generics, .structNamed fields⟩ with
    ⟨ts', fields', g, -, -, k1, k2, k3, -, -, k4, -⟩ | ⟨e, k1, -⟩
  case inr => rw [k1] at hts; cases hts
  rw [k1] at hts
  injection hts with hts
  injection hts with hts
  subst hts
  injection k2 with k2
  subst k2
  rw [Reads.unique hr k4]
  exact TypingProof.not_generic k3 hg

/-- The same for `#[derive(GlslStruct)]`: the items are well typed exactly if crevice has the feature `std`, the struct is not
called `str`, no two fields have the same name, and every field type implements `Glsl`. -/
theorem C73_glsl {α : Type} (f : Features) (u : User α) (vis : Vis) (name : String) (fields : List (String × α)) {n : Nat}
    (hn : 3 ≤ n) {ts : List (RustSyntax.Tok α)}
    (hts : exec (deriveProgram false) n "lib" "derive_glsl_struct" [synInput vis ⟨name, [], .structNamed fields⟩] =
      .val (.toks ts)) {is : List (RustSyntax.Item α)} (hr : Reads ts is) :
    let program := inputItem vis name [] fields :: is
    WellTyped (typingEnv f u) program ↔
      f.std = true ∧ plainName name ≠ "str" ∧ (fields.map fun x => plainName x.1).Nodup ∧
      ∀ x ∈ fields, Implements (typingEnv f u) program (.given x.2) "Glsl" := by
  rw [C64_glsl false vis _ hn] at hts
  cases h : Tokens.emitGlslTokens ⟨name, [], .structNamed fields⟩ with
  | error e => rw [h] at hts; cases hts
  | ok ts' =>
    rw [h] at hts
    injection hts with hts
    injection hts with hts
    subst hts
    obtain ⟨fields', e, k⟩ := Tokens.glsl_reads _ h
    injection e with e
    subst e
    rw [Reads.unique hr k]
    exact ⟨TypingProof.glsl_needs, fun ⟨h1, h2, h3, h4⟩ => TypingProof.glsl_typed h1 h2 h3 h4⟩

end Crevice
