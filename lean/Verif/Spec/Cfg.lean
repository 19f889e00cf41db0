import Verif.Spec.RustCode
/-
Specification: conditional compilation (The Rust Reference, "Conditional compilation", "Modules"). Written without
reference to crevice.

Covered: the attributes `#[cfg(feature = "x")]` and `#[cfg(test)]` on items.
-/
namespace RustCode

/-- What follows the item at the beginning of a text. An item ends with the semicolon outside of brackets, or with the
brace that closes its body; a `use` has braces but no body. -/
def afterItem (use : Bool) : Nat → List Tok → List Tok
  | _, [] => []
  | depth, t :: r =>
    if t = .op .lparen ∨ t = .op .lbracket ∨ t = .op .lbrace then afterItem use (depth + 1) r
    else if t = .op .rparen ∨ t = .op .rbracket then afterItem use (depth - 1) r
    else if t = .op .rbrace then
      if depth = 1 ∧ use = false then r else afterItem use (depth - 1) r
    else if t = .op .semi ∧ depth = 0 then r
    else afterItem use depth r

/-- Whether the item at the beginning of a text is a `use`. -/
def isUse : List Tok → Bool
  | .kw .kUse :: _ => true
  | .kw .kPub :: .kw .kUse :: _ => true
  | _ => false

/-- A text without the items that are configured out. The bound is on the number of tokens. -/
def configured (features : String → Bool) : Nat → List Tok → List Tok
  | 0, _ => []
  | _, [] => []
  | n + 1, .op .hash :: .op .lbracket :: .id "cfg" :: .op .lparen :: .id "feature" :: .op .eq :: .str x :: .op .rparen ::
      .op .rbracket :: r =>
    if features x then configured features n r else configured features n (afterItem (isUse r) 0 r)
  | n + 1, .op .hash :: .op .lbracket :: .id "cfg" :: .op .lparen :: .id "test" :: .op .rparen :: .op .rbracket :: r =>
    configured features n (afterItem (isUse r) 0 r)
  | n + 1, t :: r => t :: configured features n r

/-- A text without the items that are configured out. -/
def configure (features : String → Bool) (ts : List Tok) : List Tok := configured features (ts.length + 1) ts

/-- The modules that a text declares to be in files of their own: `mod x;`. -/
def modDecls : List Tok → List String
  | .kw .kMod :: .id x :: .op .semi :: r => x :: modDecls r
  | _ :: r => modDecls r
  | [] => []

end RustCode
