import Verif.Spec.RustSyntax
/-
The grammar of `Spec/RustSyntax.lean` on small texts that have nothing to do with crevice.
-/
namespace RustSyntax.Check

/-- `const fn f() -> usize { let a = 1usize + g() + 2usize; a }`. -/
def good : List (Tok Unit) :=
  [.kw .kConst, .kw .kFn, .ident "f", .punct .lparen, .punct .rparen, .punct .arrow, .ident "usize",
   .punct .lbrace, .kw .kLet, .ident "a", .punct .eq, .int 1 "usize", .punct .plus, .ident "g", .punct .lparen,
   .punct .rparen, .punct .plus, .int 2 "usize", .punct .semi, .ident "a", .punct .rbrace]

example : Reads good
    [.fn ⟨[], .inherited, true, "f", [], .path ⟨false, ["usize"]⟩ [],
      [("a", .add (.add (.int 1 "usize") (.call (.path ⟨false, ["g"]⟩) [])) (.int 2 "usize"))],
      .path ⟨false, ["a"]⟩⟩] :=
  ⟨9, fun m hm => by
    obtain ⟨k, rfl⟩ : ∃ k, m = k + 9 := ⟨m - 9, by omega⟩
    rfl⟩

/-- The same without the semicolon. -/
def bad : List (Tok Unit) :=
  [.kw .kConst, .kw .kFn, .ident "f", .punct .lparen, .punct .rparen, .punct .arrow, .ident "usize",
   .punct .lbrace, .kw .kLet, .ident "a", .punct .eq, .int 1 "usize", .ident "a", .punct .rbrace]

example : ¬ ∃ items, Reads bad items := by
  rintro ⟨items, n, h⟩
  have h1 := h (n + 9) (by omega)
  have h2 : (parsers (n + 9)).items bad = none := rfl
  rw [h2] at h1
  cases h1

/-- `&a.b() + c`: `&` binds tighter than `+` and looser than `.`. -/
example (n : Nat) : (parsers (n + 9)).expr
    ([.punct .amp, .ident "a", .punct .dot, .ident "b", .punct .lparen, .punct .rparen, .punct .plus, .ident "c",
      .punct .semi] : List (Tok Unit)) =
    some (.add (.ref (.method (.path ⟨false, ["a"]⟩) "b" [])) (.path ⟨false, ["c"]⟩), [.punct .semi]) := rfl

/-- `<[u8; 4usize] as ::a::T>::X`. -/
example (n : Nat) : (parsers (n + 9)).ty
    ([.punct .lt, .punct .lbracket, .ident "u8", .punct .semi, .int 4 "usize", .punct .rbracket, .kw .kAs,
      .punct .colon2, .ident "a", .punct .colon2, .ident "T", .punct .gt, .punct .colon2, .ident "X"] :
      List (Tok Unit)) =
    some (.proj (.array (.path ⟨false, ["u8"]⟩ []) (.int 4 "usize")) ⟨true, ["a", "T"]⟩ "X", []) := rfl

/-- `pub(crate) struct P<A, B> { x: u8, pub y: u8 }`. -/
example : Reads
    ([.kw .kPub, .punct .lparen, .kw .kCrate, .punct .rparen, .kw .kStruct, .ident "P", .punct .lt, .ident "A",
      .punct .comma, .ident "B", .punct .gt, .punct .lbrace, .ident "x", .punct .colon, .ident "u8", .punct .comma,
      .kw .kPub, .ident "y", .punct .colon, .ident "u8", .punct .rbrace] : List (Tok Unit))
    [.struct [] .inCrate "P" ["A", "B"]
      [⟨.inherited, "x", .path ⟨false, ["u8"]⟩ []⟩, ⟨.everywhere, "y", .path ⟨false, ["u8"]⟩ []⟩]] :=
  ⟨9, fun m hm => by
    obtain ⟨k, rfl⟩ : ∃ k, m = k + 9 := ⟨m - 9, by omega⟩
    rfl⟩

end RustSyntax.Check
