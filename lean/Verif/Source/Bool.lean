import Verif.Spec.RustCode
/-
Token sequences of source files of crevice, written by `tools/gen_source.py`. Each line of a list is
one line of the file; comments and inner attributes `#![..]` are left out.
-/
namespace RustCode.Source
open Tok Kw Op

/-- `src/bool.rs:1-31`. -/
def bool : List Tok := [
  .kw .kUse, .id "core", .op .colon2, .id "fmt", .op .colon2, .op .lbrace, .id "Debug", .op .comma,
    .id "Formatter", .op .rbrace, .op .semi,
  .kw .kUse, .id "bytemuck", .op .colon2, .op .lbrace, .id "Pod", .op .comma, .id "Zeroable", .op .rbrace,
    .op .semi,
  .op .hash, .op .lbracket, .id "derive", .op .lparen, .id "Clone", .op .comma, .id "Copy", .op .comma,
    .id "Eq", .op .comma, .id "PartialEq", .op .rparen, .op .rbracket,
  .op .hash, .op .lbracket, .id "repr", .op .lparen, .id "transparent", .op .rparen, .op .rbracket,
  .kw .kPub, .kw .kStruct, .id "Bool", .op .lparen, .id "u32", .op .rparen, .op .semi,
  .kw .kUnsafe, .kw .kImpl, .id "Zeroable", .kw .kFor, .id "Bool", .op .lbrace, .op .rbrace,
  .kw .kUnsafe, .kw .kImpl, .id "Pod", .kw .kFor, .id "Bool", .op .lbrace, .op .rbrace,
  .kw .kImpl, .id "From", .op .lt, .id "bool", .op .gt, .kw .kFor, .id "Bool", .op .lbrace,
  .kw .kFn, .id "from", .op .lparen, .id "v", .op .colon, .id "bool", .op .rparen, .op .arrow,
    .kw .kSelfTy, .op .lbrace,
  .kw .kSelfTy, .op .lparen, .id "v", .kw .kAs, .id "u32", .op .rparen,
  .op .rbrace,
  .op .rbrace,
  .kw .kImpl, .id "From", .op .lt, .id "Bool", .op .gt, .kw .kFor, .id "bool", .op .lbrace,
  .kw .kFn, .id "from", .op .lparen, .id "v", .op .colon, .id "Bool", .op .rparen, .op .arrow,
    .kw .kSelfTy, .op .lbrace,
  .id "v", .op .dot, .num 0 "", .op .ne, .num 0 "",
  .op .rbrace,
  .op .rbrace,
  .kw .kImpl, .id "Debug", .kw .kFor, .id "Bool", .op .lbrace,
  .kw .kFn, .id "fmt", .op .lparen, .op .amp, .kw .kSelf, .op .comma, .id "f", .op .colon, .op .amp,
    .kw .kMut, .id "Formatter", .op .lt, .lifetime "_", .op .gt, .op .rparen, .op .arrow, .id "core",
    .op .colon2, .id "fmt", .op .colon2, .id "Result", .op .lbrace,
  .id "write", .op .bang, .op .lparen, .id "f", .op .comma, .str "Bool({:?})", .op .comma, .id "bool",
    .op .colon2, .id "from", .op .lparen, .op .star, .kw .kSelf, .op .rparen, .op .rparen,
  .op .rbrace,
  .op .rbrace]

end RustCode.Source
