import Verif.Proof.Hygiene
import Verif.Proof.Imports
import Verif.Props.C64
/-
C71: the names that derived code and the library itself refer to. `refs` (`Spec/Refs.lean`) are the names that items refer to
and do not bind; `provided` (`Spec/TextNames.lean`) says that a path beginning with `::` leads to what it is used as, by the
`mod`, `pub` and `use` of crevice's text (`Spec/Exports.lean`) with a given set of Cargo features.
-/
namespace Crevice
open RustSyntax RustMacro RustCode

/-- Running the text of `#[derive(AsStdN)]` on any struct and reading what it returns: with any features of crevice, every name
in the items is public where the path says and is what it is used as, or is one of the few that are taken from the scope of the
derive: the struct itself, items of the derive, primitive types, and the derives of the prelude. -/
theorem C71_layout {α : Type} (f : Features) (l : Layout) (vis : Vis) (input : DeriveInput α) {n : Nat} (hn : 5 ≤ n)
    {ts : List (RustSyntax.Tok α)}
    (hts : exec (deriveProgram false) n "lib" (deriveEntry l) [synInput vis input] = .val (.toks ts))
    {is : List (RustSyntax.Item α)} (hr : Reads ts is) :
    ∀ r ∈ refs is, provided f r = true ∨ fromScope input.ident is r := by
  rw [C64_layout false l vis _ hn, emitAll_false] at hts
  rcases Tokens.emit_sim l vis input with ⟨ts', fields, g, -, -, k1, k2, k3, -, -, k4, -⟩ | ⟨e, k1, -⟩
  case inr => rw [k1] at hts; cases hts
  rw [k1] at hts
  injection hts with hts
  injection hts with hts
  subst hts
  rw [Reads.unique hr k4]
  exact NameProof.derived_ok f k3 k2

/-- The same for `#[derive(GlslStruct)]`, with the feature `std`. -/
theorem C71_glsl {α : Type} (f : Features) (hs : f.std = true) (vis : Vis) (input : DeriveInput α) {n : Nat} (hn : 3 ≤ n)
    {ts : List (RustSyntax.Tok α)}
    (hts : exec (deriveProgram false) n "lib" "derive_glsl_struct" [synInput vis input] = .val (.toks ts))
    {is : List (RustSyntax.Item α)} (hr : Reads ts is) :
    ∀ r ∈ refs is, provided f r = true ∨ fromScope input.ident is r := by
  rw [C64_glsl false vis _ hn] at hts
  cases h : Tokens.emitGlslTokens input with
  | error e => rw [h] at hts; cases hts
  | ok ts' =>
    rw [h] at hts
    injection hts with hts
    injection hts with hts
    subst hts
    obtain ⟨fields, -, k⟩ := Tokens.glsl_reads input h
    rw [Reads.unique hr k]
    exact NameProof.glsl_ok f hs _ _ _

/-- Without the feature `std`, `#[derive(GlslStruct)]` refers to a trait that is not there: the derive is offered but what it
returns does not compile. -/
theorem C71_glsl_needs_std {α : Type} (f : Features) (hs : f.std = false) (vis : Vis) (input : DeriveInput α) {n : Nat}
    (hn : 3 ≤ n) {ts : List (RustSyntax.Tok α)}
    (hts : exec (deriveProgram false) n "lib" "derive_glsl_struct" [synInput vis input] = .val (.toks ts))
    {is : List (RustSyntax.Item α)} (hr : Reads ts is) :
    "GlslStruct" ∈ (creviceNames f ["glsl"]).map Prod.fst ∧
    ∃ r ∈ refs is, r = .trait ⟨true, ["crevice", "glsl", "GlslStruct"]⟩ ∧ provided f r = false := by
  refine ⟨?_, ?_⟩
  · rw [NameProof.names_std f (by decide), hs]
    decide
  rw [C64_glsl false vis _ hn] at hts
  cases h : Tokens.emitGlslTokens input with
  | error e => rw [h] at hts; cases hts
  | ok ts' =>
    rw [h] at hts
    injection hts with hts
    injection hts with hts
    subst hts
    obtain ⟨fields, -, k⟩ := Tokens.glsl_reads input h
    rw [Reads.unique hr k]
    refine ⟨_, ?_, rfl, (NameProof.glsl_struct f).1.trans hs⟩
    simp [refs, Tokens.glslAst, itemRefs, Expand.glslItem]

/-- With any features: the public modules are `glsl`, `std140`, `std430` and (hidden from the documentation) `internal`; the
modules of the layouts make exactly these names public. -/
theorem C71_exports (f : Features) :
    (creviceNames f []).map Prod.fst = ["glsl", "std140", "std430", "internal"] ∧
    (∀ l x, x ∈ (creviceNames f [TypeNames.mod l]).map Prod.fst ↔
      x ∈ alwaysPublic l ∨ f.std = true ∧ x ∈ publicWithStd l) ∧
    (∀ x, x ∈ (creviceNames f ["glsl"]).map Prod.fst ↔ x ∈ ["Glsl", "GlslField", "GlslStruct"]) ∧
    (creviceNames f ["internal"]).map Prod.fst = ["bytemuck", "align_offset", "max", "max_arr"] := by
  have h1 := NameProof.names_std f (m := []) (by decide)
  have h2 := NameProof.names_std f (m := ["glsl"]) (by decide)
  have h3 := NameProof.names_std f (m := ["internal"]) (by decide)
  rw [h1, h2, h3]
  refine ⟨rfl, fun l x => ?_, fun x => ?_, rfl⟩
  · rw [NameProof.names_std f (m := [TypeNames.mod l]) (by cases l <;> decide)]
    have key : ∀ (s : Bool) (l : Layout),
        (∀ y ∈ (NameProof.nameTable s [TypeNames.mod l]).map Prod.fst, y ∈ alwaysPublic l ∨ s = true ∧ y ∈ publicWithStd l) ∧
        (∀ y ∈ alwaysPublic l, y ∈ (NameProof.nameTable s [TypeNames.mod l]).map Prod.fst) ∧
        (s = true → ∀ y ∈ publicWithStd l, y ∈ (NameProof.nameTable s [TypeNames.mod l]).map Prod.fst) := by
      intro s l
      cases s <;> cases l <;> decide +kernel
    obtain ⟨k1, k2, k3⟩ := key f.std l
    exact ⟨k1 x, fun h => h.elim (k2 x) fun h => k3 h.1 x h.2⟩
  · have key : ∀ s : Bool, (∀ y ∈ (NameProof.nameTable s ["glsl"]).map Prod.fst, y ∈ ["Glsl", "GlslField", "GlslStruct"]) ∧
        ∀ y ∈ ["Glsl", "GlslField", "GlslStruct"], y ∈ (NameProof.nameTable s ["glsl"]).map Prod.fst := by
      intro s
      cases s <;> decide +kernel
    exact ⟨(key f.std).1 x, (key f.std).2 x⟩

/-- Features only add names: what a path means with some features it also means with more. -/
theorem C71_additive {f f' : Features} (h : f.le f') (p : List String) :
    ∀ t ∈ crevicePath f p, t ∈ crevicePath f' p :=
  NameProof.path_le h p (by decide)

/-- With any features: every `use` of crevice's own names, in any module that is compiled, finds them; all modules are of the
forms that `Spec/Exports.lean` covers. -/
theorem C71_imports (f : Features) : ∀ m ∈ compiledModules f, ∀ d ∈ declsWith f m, declOk (declsWith f) 5 m d = true := by
  have h := NameProof.imports_ok f
  rw [List.all_eq_true] at h
  intro m hm d hd
  exact List.all_eq_true.1 (h m hm) d hd

/-- What is compiled without a feature does not mention the crate that the feature brings: the standard library, or a math
library. -/
theorem C71_crates (f : Features) : ∀ m ∈ compiledModules f, ∀ w ∈ words, f.on w.2 = false →
    RustCode.Tok.id w.1 ∉ configure f.on (moduleText m) :=
  NameProof.words_ok f

end Crevice
