import Verif.Spec.RustCode
/-
Token sequences of source files of crevice, written by `tools/gen_source.py`. Each line of a list is
one line of the file; comments and inner attributes `#![..]` are left out.
-/
namespace RustCode.Source
open Tok Kw Op

/-- `src/lib.rs:163-174`. -/
def libRoot : List Tok := [
  .op .hash, .op .lbracket, .id "macro_use", .op .rbracket,
  .kw .kMod, .id "util", .op .semi,
  .kw .kPub, .kw .kMod, .id "glsl", .op .semi,
  .kw .kPub, .kw .kMod, .id "std140", .op .semi,
  .kw .kPub, .kw .kMod, .id "std430", .op .semi,
  .op .hash, .op .lbracket, .id "doc", .op .lparen, .id "hidden", .op .rparen, .op .rbracket,
  .kw .kPub, .kw .kMod, .id "internal", .op .semi,
  .kw .kMod, .id "bool", .op .semi,
  .kw .kMod, .id "imp", .op .semi]

/-- `src/std140.rs:4-20`. -/
def std140Root : List Tok := [
  .kw .kMod, .id "dynamic_uniform", .op .semi,
  .kw .kMod, .id "primitives", .op .semi,
  .kw .kMod, .id "sizer", .op .semi,
  .kw .kMod, .id "traits", .op .semi,
  .op .hash, .op .lbracket, .id "cfg", .op .lparen, .id "feature", .op .eq, .str "std", .op .rparen,
    .op .rbracket,
  .kw .kMod, .id "writer", .op .semi,
  .kw .kPub, .kw .kUse, .kw .kCrate, .op .colon2, .id "bool", .op .colon2, .id "Bool", .op .semi,
  .kw .kPub, .kw .kUse, .kw .kSelf, .op .colon2, .id "dynamic_uniform", .op .colon2, .op .star, .op .semi,
  .kw .kPub, .kw .kUse, .kw .kSelf, .op .colon2, .id "primitives", .op .colon2, .op .star, .op .semi,
  .kw .kPub, .kw .kUse, .kw .kSelf, .op .colon2, .id "sizer", .op .colon2, .op .star, .op .semi,
  .kw .kPub, .kw .kUse, .kw .kSelf, .op .colon2, .id "traits", .op .colon2, .op .star, .op .semi,
  .op .hash, .op .lbracket, .id "cfg", .op .lparen, .id "feature", .op .eq, .str "std", .op .rparen,
    .op .rbracket,
  .kw .kPub, .kw .kUse, .kw .kSelf, .op .colon2, .id "writer", .op .colon2, .op .star, .op .semi,
  .kw .kPub, .kw .kUse, .id "crevice_derive", .op .colon2, .id "AsStd140", .op .semi]

/-- `src/std430.rs:4-18`. -/
def std430Root : List Tok := [
  .kw .kMod, .id "primitives", .op .semi,
  .kw .kMod, .id "sizer", .op .semi,
  .kw .kMod, .id "traits", .op .semi,
  .op .hash, .op .lbracket, .id "cfg", .op .lparen, .id "feature", .op .eq, .str "std", .op .rparen,
    .op .rbracket,
  .kw .kMod, .id "writer", .op .semi,
  .kw .kPub, .kw .kUse, .kw .kCrate, .op .colon2, .id "bool", .op .colon2, .id "Bool", .op .semi,
  .kw .kPub, .kw .kUse, .kw .kSelf, .op .colon2, .id "primitives", .op .colon2, .op .star, .op .semi,
  .kw .kPub, .kw .kUse, .kw .kSelf, .op .colon2, .id "sizer", .op .colon2, .op .star, .op .semi,
  .kw .kPub, .kw .kUse, .kw .kSelf, .op .colon2, .id "traits", .op .colon2, .op .star, .op .semi,
  .op .hash, .op .lbracket, .id "cfg", .op .lparen, .id "feature", .op .eq, .str "std", .op .rparen,
    .op .rbracket,
  .kw .kPub, .kw .kUse, .kw .kSelf, .op .colon2, .id "writer", .op .colon2, .op .star, .op .semi,
  .kw .kPub, .kw .kUse, .id "crevice_derive", .op .colon2, .id "AsStd430", .op .semi]

/-- `src/imp.rs:1-10`. -/
def impRoot : List Tok := [
  .kw .kMod, .id "imp_mint", .op .semi,
  .op .hash, .op .lbracket, .id "cfg", .op .lparen, .id "feature", .op .eq, .str "cgmath", .op .rparen,
    .op .rbracket,
  .kw .kMod, .id "imp_cgmath", .op .semi,
  .op .hash, .op .lbracket, .id "cfg", .op .lparen, .id "feature", .op .eq, .str "glam", .op .rparen,
    .op .rbracket,
  .kw .kMod, .id "imp_glam", .op .semi,
  .op .hash, .op .lbracket, .id "cfg", .op .lparen, .id "feature", .op .eq, .str "nalgebra", .op .rparen,
    .op .rbracket,
  .kw .kMod, .id "imp_nalgebra", .op .semi]

end RustCode.Source
