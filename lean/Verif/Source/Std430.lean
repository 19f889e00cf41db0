import Verif.Spec.RustCode
/-
Token sequences of source files of crevice, written by `tools/gen_source.py`. Each line of a list is
one line of the file; comments and inner attributes `#![..]` are left out.
-/
namespace RustCode.Source
open Tok Kw Op

/-- `src/std430/sizer.rs:1-81`. -/
def std430Sizer : List Tok := [
  .kw .kUse, .id "core", .op .colon2, .id "mem", .op .colon2, .id "size_of", .op .semi,
  .kw .kUse, .kw .kCrate, .op .colon2, .id "internal", .op .colon2, .id "align_offset", .op .semi,
  .kw .kUse, .kw .kCrate, .op .colon2, .id "std430", .op .colon2, .op .lbrace, .id "AsStd430", .op .comma,
    .id "Std430", .op .rbrace, .op .semi,
  .kw .kPub, .kw .kStruct, .id "Sizer", .op .lbrace,
  .id "offset", .op .colon, .id "usize", .op .comma,
  .op .rbrace,
  .kw .kImpl, .id "Sizer", .op .lbrace,
  .kw .kPub, .kw .kFn, .id "new", .op .lparen, .op .rparen, .op .arrow, .kw .kSelfTy, .op .lbrace,
  .kw .kSelfTy, .op .lbrace, .id "offset", .op .colon, .num 0 "", .op .rbrace,
  .op .rbrace,
  .kw .kPub, .kw .kFn, .id "add", .op .lt, .id "T", .op .gt, .op .lparen, .op .amp, .kw .kMut, .kw .kSelf,
    .op .rparen, .op .arrow, .id "usize",
  .kw .kWhere,
  .id "T", .op .colon, .id "AsStd430", .op .comma,
  .op .lbrace,
  .kw .kLet, .id "size", .op .eq, .id "size_of", .op .colon2, .op .lt, .op .lt, .id "T", .kw .kAs,
    .id "AsStd430", .op .gt, .op .colon2, .id "Output", .op .gt, .op .lparen, .op .rparen, .op .semi,
  .kw .kLet, .id "alignment", .op .eq, .op .lt, .id "T", .kw .kAs, .id "AsStd430", .op .gt, .op .colon2,
    .id "Output", .op .colon2, .id "ALIGNMENT", .op .semi,
  .kw .kLet, .id "padding", .op .eq, .id "align_offset", .op .lparen, .kw .kSelf, .op .dot, .id "offset",
    .op .comma, .id "alignment", .op .rparen, .op .semi,
  .kw .kSelf, .op .dot, .id "offset", .op .plusEq, .id "padding", .op .semi,
  .kw .kLet, .id "write_here", .op .eq, .kw .kSelf, .op .dot, .id "offset", .op .semi,
  .kw .kSelf, .op .dot, .id "offset", .op .plusEq, .id "size", .op .semi,
  .id "write_here",
  .op .rbrace,
  .kw .kPub, .kw .kFn, .id "len", .op .lparen, .op .amp, .kw .kSelf, .op .rparen, .op .arrow, .id "usize",
    .op .lbrace,
  .kw .kSelf, .op .dot, .id "offset",
  .op .rbrace,
  .op .rbrace]

/-- `src/std430/writer.rs:1-150`. -/
def std430Writer : List Tok := [
  .kw .kUse, .id "std", .op .colon2, .id "io", .op .colon2, .op .lbrace, .kw .kSelf, .op .comma,
    .id "Write", .op .rbrace, .op .semi,
  .kw .kUse, .id "std", .op .colon2, .id "mem", .op .colon2, .id "size_of", .op .semi,
  .kw .kUse, .id "bytemuck", .op .colon2, .id "bytes_of", .op .semi,
  .kw .kUse, .kw .kCrate, .op .colon2, .id "internal", .op .colon2, .id "align_offset", .op .semi,
  .kw .kUse, .kw .kCrate, .op .colon2, .id "std430", .op .colon2, .op .lbrace, .id "AsStd430", .op .comma,
    .id "Std430", .op .comma, .id "WriteStd430", .op .rbrace, .op .semi,
  .kw .kPub, .kw .kStruct, .id "Writer", .op .lt, .id "W", .op .gt, .op .lbrace,
  .id "writer", .op .colon, .id "W", .op .comma,
  .id "offset", .op .colon, .id "usize", .op .comma,
  .op .rbrace,
  .kw .kImpl, .op .lt, .id "W", .op .colon, .id "Write", .op .gt, .id "Writer", .op .lt, .id "W", .op .gt,
    .op .lbrace,
  .kw .kPub, .kw .kFn, .id "new", .op .lparen, .id "writer", .op .colon, .id "W", .op .rparen, .op .arrow,
    .kw .kSelfTy, .op .lbrace,
  .kw .kSelfTy, .op .lbrace, .id "writer", .op .comma, .id "offset", .op .colon, .num 0 "", .op .rbrace,
  .op .rbrace,
  .kw .kPub, .kw .kFn, .id "write", .op .lt, .id "T", .op .gt, .op .lparen, .op .amp, .kw .kMut,
    .kw .kSelf, .op .comma, .id "value", .op .colon, .op .amp, .id "T", .op .rparen, .op .arrow, .id "io",
    .op .colon2, .id "Result", .op .lt, .id "usize", .op .gt,
  .kw .kWhere,
  .id "T", .op .colon, .id "WriteStd430", .op .plus, .op .question, .id "Sized", .op .comma,
  .op .lbrace,
  .id "value", .op .dot, .id "write_std430", .op .lparen, .kw .kSelf, .op .rparen,
  .op .rbrace,
  .kw .kPub, .kw .kFn, .id "write_iter", .op .lt, .id "I", .op .comma, .id "T", .op .gt, .op .lparen,
    .op .amp, .kw .kMut, .kw .kSelf, .op .comma, .id "iter", .op .colon, .id "I", .op .rparen, .op .arrow,
    .id "io", .op .colon2, .id "Result", .op .lt, .id "usize", .op .gt,
  .kw .kWhere,
  .id "I", .op .colon, .id "IntoIterator", .op .lt, .id "Item", .op .eq, .id "T", .op .gt, .op .comma,
  .id "T", .op .colon, .id "WriteStd430", .op .comma,
  .op .lbrace,
  .kw .kLet, .kw .kMut, .id "offset", .op .eq, .kw .kSelf, .op .dot, .id "offset", .op .semi,
  .kw .kLet, .kw .kMut, .id "iter", .op .eq, .id "iter", .op .dot, .id "into_iter", .op .lparen,
    .op .rparen, .op .semi,
  .kw .kIf, .kw .kLet, .id "Some", .op .lparen, .id "item", .op .rparen, .op .eq, .id "iter", .op .dot,
    .id "next", .op .lparen, .op .rparen, .op .lbrace,
  .id "offset", .op .eq, .id "item", .op .dot, .id "write_std430", .op .lparen, .kw .kSelf, .op .rparen,
    .op .question, .op .semi,
  .op .rbrace,
  .kw .kFor, .id "item", .kw .kIn, .id "iter", .op .lbrace,
  .id "item", .op .dot, .id "write_std430", .op .lparen, .kw .kSelf, .op .rparen, .op .question,
    .op .semi,
  .op .rbrace,
  .id "Ok", .op .lparen, .id "offset", .op .rparen,
  .op .rbrace,
  .kw .kPub, .kw .kFn, .id "write_std430", .op .lt, .id "T", .op .gt, .op .lparen, .op .amp, .kw .kMut,
    .kw .kSelf, .op .comma, .id "value", .op .colon, .op .amp, .id "T", .op .rparen, .op .arrow, .id "io",
    .op .colon2, .id "Result", .op .lt, .id "usize", .op .gt,
  .kw .kWhere,
  .id "T", .op .colon, .id "Std430", .op .comma,
  .op .lbrace,
  .kw .kLet, .id "padding", .op .eq, .id "align_offset", .op .lparen, .kw .kSelf, .op .dot, .id "offset",
    .op .comma, .id "T", .op .colon2, .id "ALIGNMENT", .op .rparen, .op .semi,
  .kw .kFor, .id "_", .kw .kIn, .num 0 "", .op .dot2, .id "padding", .op .lbrace,
  .kw .kSelf, .op .dot, .id "writer", .op .dot, .id "write_all", .op .lparen, .op .amp, .op .lbracket,
    .num 0 "", .op .rbracket, .op .rparen, .op .question, .op .semi,
  .op .rbrace,
  .kw .kSelf, .op .dot, .id "offset", .op .plusEq, .id "padding", .op .semi,
  .kw .kLet, .id "value", .op .eq, .id "value", .op .dot, .id "as_std430", .op .lparen, .op .rparen,
    .op .semi,
  .kw .kSelf, .op .dot, .id "writer", .op .dot, .id "write_all", .op .lparen, .id "bytes_of", .op .lparen,
    .op .amp, .id "value", .op .rparen, .op .rparen, .op .question, .op .semi,
  .kw .kLet, .id "write_here", .op .eq, .kw .kSelf, .op .dot, .id "offset", .op .semi,
  .kw .kSelf, .op .dot, .id "offset", .op .plusEq, .id "size_of", .op .colon2, .op .lt, .id "T", .op .gt,
    .op .lparen, .op .rparen, .op .semi,
  .id "Ok", .op .lparen, .id "write_here", .op .rparen,
  .op .rbrace,
  .kw .kPub, .kw .kFn, .id "len", .op .lparen, .op .amp, .kw .kSelf, .op .rparen, .op .arrow, .id "usize",
    .op .lbrace,
  .kw .kSelf, .op .dot, .id "offset",
  .op .rbrace,
  .op .rbrace]

/-- `src/std430/traits.rs:1-172`. -/
def std430Traits : List Tok := [
  .kw .kUse, .id "core", .op .colon2, .id "mem", .op .colon2, .id "size_of", .op .semi,
  .op .hash, .op .lbracket, .id "cfg", .op .lparen, .id "feature", .op .eq, .str "std", .op .rparen,
    .op .rbracket,
  .kw .kUse, .id "std", .op .colon2, .id "io", .op .colon2, .op .lbrace, .kw .kSelf, .op .comma,
    .id "Write", .op .rbrace, .op .semi,
  .kw .kUse, .id "bytemuck", .op .colon2, .op .lbrace, .id "bytes_of", .op .comma, .id "Pod", .op .comma,
    .id "Zeroable", .op .rbrace, .op .semi,
  .op .hash, .op .lbracket, .id "cfg", .op .lparen, .id "feature", .op .eq, .str "std", .op .rparen,
    .op .rbracket,
  .kw .kUse, .kw .kCrate, .op .colon2, .id "std430", .op .colon2, .id "Writer", .op .semi,
  .kw .kPub, .kw .kUnsafe, .kw .kTrait, .id "Std430", .op .colon, .id "Copy", .op .plus, .id "Zeroable",
    .op .plus, .id "Pod", .op .lbrace,
  .kw .kConst, .id "ALIGNMENT", .op .colon, .id "usize", .op .semi,
  .kw .kFn, .id "as_bytes", .op .lparen, .op .amp, .kw .kSelf, .op .rparen, .op .arrow, .op .amp,
    .op .lbracket, .id "u8", .op .rbracket, .op .lbrace,
  .id "bytes_of", .op .lparen, .kw .kSelf, .op .rparen,
  .op .rbrace,
  .op .rbrace,
  .kw .kPub, .kw .kTrait, .id "AsStd430", .op .lbrace,
  .kw .kType, .id "Output", .op .colon, .id "Std430", .op .semi,
  .kw .kFn, .id "as_std430", .op .lparen, .op .amp, .kw .kSelf, .op .rparen, .op .arrow, .kw .kSelfTy,
    .op .colon2, .id "Output", .op .semi,
  .kw .kFn, .id "std430_size_static", .op .lparen, .op .rparen, .op .arrow, .id "usize", .op .lbrace,
  .id "size_of", .op .colon2, .op .lt, .kw .kSelfTy, .op .colon2, .id "Output", .op .gt, .op .lparen,
    .op .rparen,
  .op .rbrace,
  .kw .kFn, .id "from_std430", .op .lparen, .id "value", .op .colon, .kw .kSelfTy, .op .colon2,
    .id "Output", .op .rparen, .op .arrow, .kw .kSelfTy, .op .semi,
  .op .rbrace,
  .kw .kImpl, .op .lt, .id "T", .op .gt, .id "AsStd430", .kw .kFor, .id "T",
  .kw .kWhere,
  .id "T", .op .colon, .id "Std430", .op .comma,
  .op .lbrace,
  .kw .kType, .id "Output", .op .eq, .kw .kSelfTy, .op .semi,
  .kw .kFn, .id "as_std430", .op .lparen, .op .amp, .kw .kSelf, .op .rparen, .op .arrow, .kw .kSelfTy,
    .op .lbrace,
  .op .star, .kw .kSelf,
  .op .rbrace,
  .kw .kFn, .id "from_std430", .op .lparen, .id "value", .op .colon, .kw .kSelfTy, .op .rparen,
    .op .arrow, .kw .kSelfTy, .op .lbrace,
  .id "value",
  .op .rbrace,
  .op .rbrace,
  .op .hash, .op .lbracket, .id "cfg", .op .lparen, .id "feature", .op .eq, .str "std", .op .rparen,
    .op .rbracket,
  .kw .kPub, .kw .kTrait, .id "WriteStd430", .op .lbrace,
  .kw .kFn, .id "write_std430", .op .lt, .id "W", .op .colon, .id "Write", .op .gt, .op .lparen, .op .amp,
    .kw .kSelf, .op .comma, .id "writer", .op .colon, .op .amp, .kw .kMut, .id "Writer", .op .lt, .id "W",
    .op .gt, .op .rparen, .op .arrow, .id "io", .op .colon2, .id "Result", .op .lt, .id "usize", .op .gt,
    .op .semi,
  .kw .kFn, .id "std430_size", .op .lparen, .op .amp, .kw .kSelf, .op .rparen, .op .arrow, .id "usize",
    .op .lbrace,
  .kw .kLet, .kw .kMut, .id "writer", .op .eq, .id "Writer", .op .colon2, .id "new", .op .lparen,
    .id "io", .op .colon2, .id "sink", .op .lparen, .op .rparen, .op .rparen, .op .semi,
  .kw .kSelf, .op .dot, .id "write_std430", .op .lparen, .op .amp, .kw .kMut, .id "writer", .op .rparen,
    .op .dot, .id "unwrap", .op .lparen, .op .rparen, .op .semi,
  .id "writer", .op .dot, .id "len", .op .lparen, .op .rparen,
  .op .rbrace,
  .op .rbrace,
  .op .hash, .op .lbracket, .id "cfg", .op .lparen, .id "feature", .op .eq, .str "std", .op .rparen,
    .op .rbracket,
  .kw .kImpl, .op .lt, .id "T", .op .gt, .id "WriteStd430", .kw .kFor, .id "T",
  .kw .kWhere,
  .id "T", .op .colon, .id "AsStd430", .op .comma,
  .op .lbrace,
  .kw .kFn, .id "write_std430", .op .lt, .id "W", .op .colon, .id "Write", .op .gt, .op .lparen, .op .amp,
    .kw .kSelf, .op .comma, .id "writer", .op .colon, .op .amp, .kw .kMut, .id "Writer", .op .lt, .id "W",
    .op .gt, .op .rparen, .op .arrow, .id "io", .op .colon2, .id "Result", .op .lt, .id "usize", .op .gt,
    .op .lbrace,
  .id "writer", .op .dot, .id "write_std430", .op .lparen, .op .amp, .kw .kSelf, .op .dot,
    .id "as_std430", .op .lparen, .op .rparen, .op .rparen,
  .op .rbrace,
  .kw .kFn, .id "std430_size", .op .lparen, .op .amp, .kw .kSelf, .op .rparen, .op .arrow, .id "usize",
    .op .lbrace,
  .id "size_of", .op .colon2, .op .lt, .op .lt, .kw .kSelfTy, .kw .kAs, .id "AsStd430", .op .gt,
    .op .colon2, .id "Output", .op .gt, .op .lparen, .op .rparen,
  .op .rbrace,
  .op .rbrace,
  .op .hash, .op .lbracket, .id "cfg", .op .lparen, .id "feature", .op .eq, .str "std", .op .rparen,
    .op .rbracket,
  .kw .kImpl, .op .lt, .id "T", .op .gt, .id "WriteStd430", .kw .kFor, .op .lbracket, .id "T",
    .op .rbracket,
  .kw .kWhere,
  .id "T", .op .colon, .id "WriteStd430", .op .comma,
  .op .lbrace,
  .kw .kFn, .id "write_std430", .op .lt, .id "W", .op .colon, .id "Write", .op .gt, .op .lparen, .op .amp,
    .kw .kSelf, .op .comma, .id "writer", .op .colon, .op .amp, .kw .kMut, .id "Writer", .op .lt, .id "W",
    .op .gt, .op .rparen, .op .arrow, .id "io", .op .colon2, .id "Result", .op .lt, .id "usize", .op .gt,
    .op .lbrace,
  .kw .kLet, .kw .kMut, .id "offset", .op .eq, .id "writer", .op .dot, .id "len", .op .lparen,
    .op .rparen, .op .semi,
  .kw .kLet, .kw .kMut, .id "iter", .op .eq, .kw .kSelf, .op .dot, .id "iter", .op .lparen, .op .rparen,
    .op .semi,
  .kw .kIf, .kw .kLet, .id "Some", .op .lparen, .id "item", .op .rparen, .op .eq, .id "iter", .op .dot,
    .id "next", .op .lparen, .op .rparen, .op .lbrace,
  .id "offset", .op .eq, .id "item", .op .dot, .id "write_std430", .op .lparen, .id "writer", .op .rparen,
    .op .question, .op .semi,
  .op .rbrace,
  .kw .kFor, .id "item", .kw .kIn, .id "iter", .op .lbrace,
  .id "item", .op .dot, .id "write_std430", .op .lparen, .id "writer", .op .rparen, .op .question,
    .op .semi,
  .op .rbrace,
  .id "Ok", .op .lparen, .id "offset", .op .rparen,
  .op .rbrace,
  .kw .kFn, .id "std430_size", .op .lparen, .op .amp, .kw .kSelf, .op .rparen, .op .arrow, .id "usize",
    .op .lbrace,
  .kw .kLet, .kw .kMut, .id "writer", .op .eq, .id "Writer", .op .colon2, .id "new", .op .lparen,
    .id "io", .op .colon2, .id "sink", .op .lparen, .op .rparen, .op .rparen, .op .semi,
  .kw .kSelf, .op .dot, .id "write_std430", .op .lparen, .op .amp, .kw .kMut, .id "writer", .op .rparen,
    .op .dot, .id "unwrap", .op .lparen, .op .rparen, .op .semi,
  .id "writer", .op .dot, .id "len", .op .lparen, .op .rparen,
  .op .rbrace,
  .op .rbrace]

end RustCode.Source
