import Verif.Spec.RustCode
/-
Token sequences of source files of crevice, written by `tools/gen_source.py`. Each line of a list is
one line of the file; comments and inner attributes `#![..]` are left out.
-/
namespace RustCode.Source
open Tok Kw Op

/-- `src/internal.rs:4-40`. -/
def internal : List Tok := [
  .kw .kPub, .kw .kUse, .id "bytemuck", .op .semi,
  .kw .kPub, .kw .kConst, .kw .kFn, .id "align_offset", .op .lparen, .id "offset", .op .colon,
    .id "usize", .op .comma, .id "alignment", .op .colon, .id "usize", .op .rparen, .op .arrow,
    .id "usize", .op .lbrace,
  .kw .kIf, .id "alignment", .op .eqEq, .num 0 "", .op .orOr, .id "offset", .op .percent, .id "alignment",
    .op .eqEq, .num 0 "", .op .lbrace,
  .num 0 "",
  .op .rbrace, .kw .kElse, .op .lbrace,
  .id "alignment", .op .minus, .id "offset", .op .percent, .id "alignment",
  .op .rbrace,
  .op .rbrace,
  .kw .kPub, .kw .kConst, .kw .kFn, .id "max", .op .lparen, .id "a", .op .colon, .id "usize", .op .comma,
    .id "b", .op .colon, .id "usize", .op .rparen, .op .arrow, .id "usize", .op .lbrace,
  .kw .kIf, .id "a", .op .gt, .id "b", .op .lbrace,
  .id "a",
  .op .rbrace, .kw .kElse, .op .lbrace,
  .id "b",
  .op .rbrace,
  .op .rbrace,
  .kw .kPub, .kw .kConst, .kw .kFn, .id "max_arr", .op .lt, .kw .kConst, .id "N", .op .colon, .id "usize",
    .op .gt, .op .lparen, .id "input", .op .colon, .op .lbracket, .id "usize", .op .semi, .id "N",
    .op .rbracket, .op .rparen, .op .arrow, .id "usize", .op .lbrace,
  .kw .kLet, .kw .kMut, .id "max", .op .eq, .num 0 "", .op .semi,
  .kw .kLet, .kw .kMut, .id "i", .op .eq, .num 0 "", .op .semi,
  .kw .kWhile, .id "i", .op .lt, .id "N", .op .lbrace,
  .kw .kIf, .id "input", .op .lbracket, .id "i", .op .rbracket, .op .gt, .id "max", .op .lbrace,
  .id "max", .op .eq, .id "input", .op .lbracket, .id "i", .op .rbracket, .op .semi,
  .op .rbrace,
  .id "i", .op .plusEq, .num 1 "", .op .semi,
  .op .rbrace,
  .id "max",
  .op .rbrace]

end RustCode.Source
