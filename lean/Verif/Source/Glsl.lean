import Verif.Spec.RustCode
/-
Token sequences of source files of crevice, written by `tools/gen_source.py`. Each line of a list is
one line of the file; comments and inner attributes `#![..]` are left out.
-/
namespace RustCode.Source
open Tok Kw Op

/-- `src/glsl.rs:39-99`. -/
def glsl : List Tok := [
  .kw .kPub, .kw .kUse, .id "crevice_derive", .op .colon2, .id "GlslStruct", .op .semi,
  .kw .kPub, .kw .kUnsafe, .kw .kTrait, .id "Glsl", .op .lbrace,
  .kw .kConst, .id "NAME", .op .colon, .op .amp, .lifetime "static", .id "str", .op .semi,
  .op .rbrace,
  .kw .kPub, .kw .kStruct, .id "GlslField", .op .lbrace,
  .kw .kPub, .id "ty", .op .colon, .op .amp, .lifetime "static", .id "str", .op .comma,
  .kw .kPub, .id "name", .op .colon, .op .amp, .lifetime "static", .id "str", .op .comma,
  .op .rbrace,
  .op .hash, .op .lbracket, .id "cfg", .op .lparen, .id "feature", .op .eq, .str "std", .op .rparen,
    .op .rbracket,
  .kw .kPub, .kw .kUnsafe, .kw .kTrait, .id "GlslStruct", .op .colon, .id "Glsl", .op .lbrace,
  .kw .kConst, .id "FIELDS", .op .colon, .op .amp, .lifetime "static", .op .lbracket, .id "GlslField",
    .op .rbracket, .op .semi,
  .kw .kFn, .id "glsl_definition", .op .lparen, .op .rparen, .op .arrow, .id "String", .op .lbrace,
  .kw .kLet, .kw .kMut, .id "output", .op .eq, .id "String", .op .colon2, .id "new", .op .lparen,
    .op .rparen, .op .semi,
  .id "output", .op .dot, .id "push_str", .op .lparen, .str "struct ", .op .rparen, .op .semi,
  .id "output", .op .dot, .id "push_str", .op .lparen, .kw .kSelfTy, .op .colon2, .id "NAME", .op .rparen,
    .op .semi,
  .id "output", .op .dot, .id "push_str", .op .lparen, .str " {\n", .op .rparen, .op .semi,
  .kw .kFor, .id "field", .kw .kIn, .kw .kSelfTy, .op .colon2, .id "FIELDS", .op .lbrace,
  .id "output", .op .dot, .id "push", .op .lparen, .chr '\t', .op .rparen, .op .semi,
  .id "output", .op .dot, .id "push_str", .op .lparen, .id "field", .op .dot, .id "ty", .op .rparen,
    .op .semi,
  .id "output", .op .dot, .id "push", .op .lparen, .chr ' ', .op .rparen, .op .semi,
  .id "output", .op .dot, .id "push_str", .op .lparen, .id "field", .op .dot, .id "name", .op .rparen,
    .op .semi,
  .id "output", .op .dot, .id "push_str", .op .lparen, .str ";\n", .op .rparen, .op .semi,
  .op .rbrace,
  .id "output", .op .dot, .id "push_str", .op .lparen, .str "};", .op .rparen, .op .semi,
  .id "output",
  .op .rbrace,
  .op .rbrace,
  .kw .kUnsafe, .kw .kImpl, .id "Glsl", .kw .kFor, .id "f32", .op .lbrace,
  .kw .kConst, .id "NAME", .op .colon, .op .amp, .lifetime "static", .id "str", .op .eq, .str "float",
    .op .semi,
  .op .rbrace,
  .kw .kUnsafe, .kw .kImpl, .id "Glsl", .kw .kFor, .id "f64", .op .lbrace,
  .kw .kConst, .id "NAME", .op .colon, .op .amp, .lifetime "static", .id "str", .op .eq, .str "double",
    .op .semi,
  .op .rbrace,
  .kw .kUnsafe, .kw .kImpl, .id "Glsl", .kw .kFor, .id "i32", .op .lbrace,
  .kw .kConst, .id "NAME", .op .colon, .op .amp, .lifetime "static", .id "str", .op .eq, .str "int",
    .op .semi,
  .op .rbrace,
  .kw .kUnsafe, .kw .kImpl, .id "Glsl", .kw .kFor, .id "u32", .op .lbrace,
  .kw .kConst, .id "NAME", .op .colon, .op .amp, .lifetime "static", .id "str", .op .eq, .str "uint",
    .op .semi,
  .op .rbrace]

end RustCode.Source
