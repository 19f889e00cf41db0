import Verif.Spec.RustCode
/-
Token sequences of source files of crevice, written by `tools/gen_source.py`. Each line of a list is
one line of the file; comments and inner attributes `#![..]` are left out.
-/
namespace RustCode.Source
open Tok Kw Op

/-- `src/std140/primitives.rs:1-179`. -/
def std140Primitives : List Tok := [
  .kw .kUse, .id "bytemuck", .op .colon2, .op .lbrace, .id "Pod", .op .comma, .id "Zeroable", .op .rbrace,
    .op .semi,
  .kw .kUse, .kw .kCrate, .op .colon2, .id "bool", .op .colon2, .id "Bool", .op .semi,
  .kw .kUse, .kw .kCrate, .op .colon2, .id "glsl", .op .colon2, .id "Glsl", .op .semi,
  .kw .kUse, .kw .kCrate, .op .colon2, .id "std140", .op .colon2, .op .lbrace, .id "AsStd140", .op .comma,
    .id "Std140", .op .rbrace, .op .semi,
  .kw .kUnsafe, .kw .kImpl, .id "Std140", .kw .kFor, .id "f32", .op .lbrace,
  .kw .kConst, .id "ALIGNMENT", .op .colon, .id "usize", .op .eq, .num 4 "", .op .semi,
  .op .rbrace,
  .kw .kUnsafe, .kw .kImpl, .id "Std140", .kw .kFor, .id "f64", .op .lbrace,
  .kw .kConst, .id "ALIGNMENT", .op .colon, .id "usize", .op .eq, .num 8 "", .op .semi,
  .op .rbrace,
  .kw .kUnsafe, .kw .kImpl, .id "Std140", .kw .kFor, .id "i32", .op .lbrace,
  .kw .kConst, .id "ALIGNMENT", .op .colon, .id "usize", .op .eq, .num 4 "", .op .semi,
  .op .rbrace,
  .kw .kUnsafe, .kw .kImpl, .id "Std140", .kw .kFor, .id "u32", .op .lbrace,
  .kw .kConst, .id "ALIGNMENT", .op .colon, .id "usize", .op .eq, .num 4 "", .op .semi,
  .op .rbrace,
  .kw .kUnsafe, .kw .kImpl, .id "Std140", .kw .kFor, .id "Bool", .op .lbrace,
  .kw .kConst, .id "ALIGNMENT", .op .colon, .id "usize", .op .eq, .num 4 "", .op .semi,
  .op .rbrace,
  .kw .kImpl, .id "AsStd140", .kw .kFor, .id "bool", .op .lbrace,
  .kw .kType, .id "Output", .op .eq, .id "Bool", .op .semi,
  .kw .kFn, .id "as_std140", .op .lparen, .op .amp, .kw .kSelf, .op .rparen, .op .arrow, .kw .kSelfTy,
    .op .colon2, .id "Output", .op .lbrace,
  .op .lparen, .op .star, .kw .kSelf, .op .rparen, .op .dot, .id "into", .op .lparen, .op .rparen,
  .op .rbrace,
  .kw .kFn, .id "from_std140", .op .lparen, .id "val", .op .colon, .kw .kSelfTy, .op .colon2,
    .id "Output", .op .rparen, .op .arrow, .kw .kSelfTy, .op .lbrace,
  .id "val", .op .dot, .id "into", .op .lparen, .op .rparen,
  .op .rbrace,
  .op .rbrace,
  .id "macro_rules", .op .bang, .id "vectors", .op .lbrace,
  .op .lparen,
  .op .dollar, .op .lparen,
  .op .hash, .op .lbracket, .op .dollar, .id "doc", .op .colon, .id "meta", .op .rbracket, .id "align",
    .op .lparen, .op .dollar, .id "align", .op .colon, .id "literal", .op .rparen, .op .dollar,
    .id "glsl_name", .op .colon, .id "ident", .op .dollar, .id "name", .op .colon, .id "ident", .op .lt,
    .op .dollar, .id "prim", .op .colon, .id "ident", .op .gt, .op .lparen, .op .dollar, .op .lparen,
    .op .dollar, .id "field", .op .colon, .id "ident", .op .rparen, .op .comma, .op .plus, .op .rparen,
  .op .rparen, .op .plus,
  .op .rparen, .op .fatArrow, .op .lbrace,
  .op .dollar, .op .lparen,
  .op .hash, .op .lbracket, .op .dollar, .id "doc", .op .rbracket,
  .op .hash, .op .lbracket, .id "allow", .op .lparen, .id "missing_docs", .op .rparen, .op .rbracket,
  .op .hash, .op .lbracket, .id "derive", .op .lparen, .id "Debug", .op .comma, .id "Clone", .op .comma,
    .id "Copy", .op .comma, .id "PartialEq", .op .rparen, .op .rbracket,
  .op .hash, .op .lbracket, .id "repr", .op .lparen, .id "C", .op .rparen, .op .rbracket,
  .kw .kPub, .kw .kStruct, .op .dollar, .id "name", .op .lbrace,
  .op .dollar, .op .lparen, .kw .kPub, .op .dollar, .id "field", .op .colon, .op .dollar, .id "prim",
    .op .comma, .op .rparen, .op .plus,
  .op .rbrace,
  .kw .kUnsafe, .kw .kImpl, .id "Zeroable", .kw .kFor, .op .dollar, .id "name", .op .lbrace, .op .rbrace,
  .kw .kUnsafe, .kw .kImpl, .id "Pod", .kw .kFor, .op .dollar, .id "name", .op .lbrace, .op .rbrace,
  .kw .kUnsafe, .kw .kImpl, .id "Std140", .kw .kFor, .op .dollar, .id "name", .op .lbrace,
  .kw .kConst, .id "ALIGNMENT", .op .colon, .id "usize", .op .eq, .op .dollar, .id "align", .op .semi,
  .op .rbrace,
  .kw .kUnsafe, .kw .kImpl, .id "Glsl", .kw .kFor, .op .dollar, .id "name", .op .lbrace,
  .kw .kConst, .id "NAME", .op .colon, .op .amp, .lifetime "static", .id "str", .op .eq, .id "stringify",
    .op .bang, .op .lparen, .op .dollar, .id "glsl_name", .op .rparen, .op .semi,
  .op .rbrace,
  .op .rparen, .op .plus,
  .op .rbrace, .op .semi,
  .op .rbrace,
  .id "vectors", .op .bang, .op .lbrace,
  .op .hash, .op .lbracket, .id "doc", .op .eq, .str "Corresponds to a GLSL `vec2` in std140 layout.",
    .op .rbracket, .id "align", .op .lparen, .num 8 "", .op .rparen, .id "vec2", .id "Vec2", .op .lt,
    .id "f32", .op .gt, .op .lparen, .id "x", .op .comma, .id "y", .op .rparen,
  .op .hash, .op .lbracket, .id "doc", .op .eq, .str "Corresponds to a GLSL `vec3` in std140 layout.",
    .op .rbracket, .id "align", .op .lparen, .num 16 "", .op .rparen, .id "vec3", .id "Vec3", .op .lt,
    .id "f32", .op .gt, .op .lparen, .id "x", .op .comma, .id "y", .op .comma, .id "z", .op .rparen,
  .op .hash, .op .lbracket, .id "doc", .op .eq, .str "Corresponds to a GLSL `vec4` in std140 layout.",
    .op .rbracket, .id "align", .op .lparen, .num 16 "", .op .rparen, .id "vec4", .id "Vec4", .op .lt,
    .id "f32", .op .gt, .op .lparen, .id "x", .op .comma, .id "y", .op .comma, .id "z", .op .comma,
    .id "w", .op .rparen,
  .op .hash, .op .lbracket, .id "doc", .op .eq, .str "Corresponds to a GLSL `ivec2` in std140 layout.",
    .op .rbracket, .id "align", .op .lparen, .num 8 "", .op .rparen, .id "ivec2", .id "IVec2", .op .lt,
    .id "i32", .op .gt, .op .lparen, .id "x", .op .comma, .id "y", .op .rparen,
  .op .hash, .op .lbracket, .id "doc", .op .eq, .str "Corresponds to a GLSL `ivec3` in std140 layout.",
    .op .rbracket, .id "align", .op .lparen, .num 16 "", .op .rparen, .id "ivec3", .id "IVec3", .op .lt,
    .id "i32", .op .gt, .op .lparen, .id "x", .op .comma, .id "y", .op .comma, .id "z", .op .rparen,
  .op .hash, .op .lbracket, .id "doc", .op .eq, .str "Corresponds to a GLSL `ivec4` in std140 layout.",
    .op .rbracket, .id "align", .op .lparen, .num 16 "", .op .rparen, .id "ivec4", .id "IVec4", .op .lt,
    .id "i32", .op .gt, .op .lparen, .id "x", .op .comma, .id "y", .op .comma, .id "z", .op .comma,
    .id "w", .op .rparen,
  .op .hash, .op .lbracket, .id "doc", .op .eq, .str "Corresponds to a GLSL `uvec2` in std140 layout.",
    .op .rbracket, .id "align", .op .lparen, .num 8 "", .op .rparen, .id "uvec2", .id "UVec2", .op .lt,
    .id "u32", .op .gt, .op .lparen, .id "x", .op .comma, .id "y", .op .rparen,
  .op .hash, .op .lbracket, .id "doc", .op .eq, .str "Corresponds to a GLSL `uvec3` in std140 layout.",
    .op .rbracket, .id "align", .op .lparen, .num 16 "", .op .rparen, .id "uvec3", .id "UVec3", .op .lt,
    .id "u32", .op .gt, .op .lparen, .id "x", .op .comma, .id "y", .op .comma, .id "z", .op .rparen,
  .op .hash, .op .lbracket, .id "doc", .op .eq, .str "Corresponds to a GLSL `uvec4` in std140 layout.",
    .op .rbracket, .id "align", .op .lparen, .num 16 "", .op .rparen, .id "uvec4", .id "UVec4", .op .lt,
    .id "u32", .op .gt, .op .lparen, .id "x", .op .comma, .id "y", .op .comma, .id "z", .op .comma,
    .id "w", .op .rparen,
  .op .hash, .op .lbracket, .id "doc", .op .eq, .str "Corresponds to a GLSL `bvec2` in std140 layout.",
    .op .rbracket, .id "align", .op .lparen, .num 8 "", .op .rparen, .id "bvec2", .id "BVec2", .op .lt,
    .id "Bool", .op .gt, .op .lparen, .id "x", .op .comma, .id "y", .op .rparen,
  .op .hash, .op .lbracket, .id "doc", .op .eq, .str "Corresponds to a GLSL `bvec3` in std140 layout.",
    .op .rbracket, .id "align", .op .lparen, .num 16 "", .op .rparen, .id "bvec3", .id "BVec3", .op .lt,
    .id "Bool", .op .gt, .op .lparen, .id "x", .op .comma, .id "y", .op .comma, .id "z", .op .rparen,
  .op .hash, .op .lbracket, .id "doc", .op .eq, .str "Corresponds to a GLSL `bvec4` in std140 layout.",
    .op .rbracket, .id "align", .op .lparen, .num 16 "", .op .rparen, .id "bvec4", .id "BVec4", .op .lt,
    .id "Bool", .op .gt, .op .lparen, .id "x", .op .comma, .id "y", .op .comma, .id "z", .op .comma,
    .id "w", .op .rparen,
  .op .hash, .op .lbracket, .id "doc", .op .eq, .str "Corresponds to a GLSL `dvec2` in std140 layout.",
    .op .rbracket, .id "align", .op .lparen, .num 16 "", .op .rparen, .id "dvec2", .id "DVec2", .op .lt,
    .id "f64", .op .gt, .op .lparen, .id "x", .op .comma, .id "y", .op .rparen,
  .op .hash, .op .lbracket, .id "doc", .op .eq, .str "Corresponds to a GLSL `dvec3` in std140 layout.",
    .op .rbracket, .id "align", .op .lparen, .num 32 "", .op .rparen, .id "dvec3", .id "DVec3", .op .lt,
    .id "f64", .op .gt, .op .lparen, .id "x", .op .comma, .id "y", .op .comma, .id "z", .op .rparen,
  .op .hash, .op .lbracket, .id "doc", .op .eq, .str "Corresponds to a GLSL `dvec4` in std140 layout.",
    .op .rbracket, .id "align", .op .lparen, .num 32 "", .op .rparen, .id "dvec4", .id "DVec4", .op .lt,
    .id "f64", .op .gt, .op .lparen, .id "x", .op .comma, .id "y", .op .comma, .id "z", .op .comma,
    .id "w", .op .rparen,
  .op .rbrace,
  .id "macro_rules", .op .bang, .id "matrices", .op .lbrace,
  .op .lparen,
  .op .dollar, .op .lparen,
  .op .hash, .op .lbracket, .op .dollar, .id "doc", .op .colon, .id "meta", .op .rbracket,
  .id "align", .op .lparen, .op .dollar, .id "align", .op .colon, .id "literal", .op .rparen,
  .op .dollar, .id "glsl_name", .op .colon, .id "ident", .op .dollar, .id "name", .op .colon, .id "ident",
    .op .lbrace,
  .op .dollar, .op .lparen, .op .dollar, .id "field", .op .colon, .id "ident", .op .colon, .op .dollar,
    .id "field_ty", .op .colon, .id "ty", .op .comma, .op .rparen, .op .plus,
  .op .rbrace,
  .op .rparen, .op .plus,
  .op .rparen, .op .fatArrow, .op .lbrace,
  .op .dollar, .op .lparen,
  .op .hash, .op .lbracket, .op .dollar, .id "doc", .op .rbracket,
  .op .hash, .op .lbracket, .id "allow", .op .lparen, .id "missing_docs", .op .rparen, .op .rbracket,
  .op .hash, .op .lbracket, .id "derive", .op .lparen, .id "Debug", .op .comma, .id "Clone", .op .comma,
    .id "Copy", .op .rparen, .op .rbracket,
  .op .hash, .op .lbracket, .id "repr", .op .lparen, .id "C", .op .rparen, .op .rbracket,
  .kw .kPub, .kw .kStruct, .op .dollar, .id "name", .op .lbrace,
  .op .dollar, .op .lparen, .kw .kPub, .op .dollar, .id "field", .op .colon, .op .dollar, .id "field_ty",
    .op .comma, .op .rparen, .op .plus,
  .op .rbrace,
  .kw .kUnsafe, .kw .kImpl, .id "Zeroable", .kw .kFor, .op .dollar, .id "name", .op .lbrace, .op .rbrace,
  .kw .kUnsafe, .kw .kImpl, .id "Pod", .kw .kFor, .op .dollar, .id "name", .op .lbrace, .op .rbrace,
  .kw .kUnsafe, .kw .kImpl, .id "Std140", .kw .kFor, .op .dollar, .id "name", .op .lbrace,
  .kw .kConst, .id "ALIGNMENT", .op .colon, .id "usize", .op .eq, .op .dollar, .id "align", .op .semi,
  .op .rbrace,
  .kw .kUnsafe, .kw .kImpl, .id "Glsl", .kw .kFor, .op .dollar, .id "name", .op .lbrace,
  .kw .kConst, .id "NAME", .op .colon, .op .amp, .lifetime "static", .id "str", .op .eq, .id "stringify",
    .op .bang, .op .lparen, .op .dollar, .id "glsl_name", .op .rparen, .op .semi,
  .op .rbrace,
  .op .rparen, .op .plus,
  .op .rbrace, .op .semi,
  .op .rbrace,
  .id "matrices", .op .bang, .op .lbrace,
  .op .hash, .op .lbracket, .id "doc", .op .eq, .str "Corresponds to a GLSL `mat2` in std140 layout.",
    .op .rbracket,
  .id "align", .op .lparen, .num 16 "", .op .rparen,
  .id "mat2", .id "Mat2", .op .lbrace,
  .id "x", .op .colon, .id "Vec2", .op .comma,
  .id "_pad_x", .op .colon, .op .lbracket, .id "f32", .op .semi, .num 2 "", .op .rbracket, .op .comma,
  .id "y", .op .colon, .id "Vec2", .op .comma,
  .id "_pad_y", .op .colon, .op .lbracket, .id "f32", .op .semi, .num 2 "", .op .rbracket, .op .comma,
  .op .rbrace,
  .op .hash, .op .lbracket, .id "doc", .op .eq, .str "Corresponds to a GLSL `mat3` in std140 layout.",
    .op .rbracket,
  .id "align", .op .lparen, .num 16 "", .op .rparen,
  .id "mat3", .id "Mat3", .op .lbrace,
  .id "x", .op .colon, .id "Vec3", .op .comma,
  .id "_pad_x", .op .colon, .id "f32", .op .comma,
  .id "y", .op .colon, .id "Vec3", .op .comma,
  .id "_pad_y", .op .colon, .id "f32", .op .comma,
  .id "z", .op .colon, .id "Vec3", .op .comma,
  .id "_pad_z", .op .colon, .id "f32", .op .comma,
  .op .rbrace,
  .op .hash, .op .lbracket, .id "doc", .op .eq, .str "Corresponds to a GLSL `mat4` in std140 layout.",
    .op .rbracket,
  .id "align", .op .lparen, .num 16 "", .op .rparen,
  .id "mat4", .id "Mat4", .op .lbrace,
  .id "x", .op .colon, .id "Vec4", .op .comma,
  .id "y", .op .colon, .id "Vec4", .op .comma,
  .id "z", .op .colon, .id "Vec4", .op .comma,
  .id "w", .op .colon, .id "Vec4", .op .comma,
  .op .rbrace,
  .op .hash, .op .lbracket, .id "doc", .op .eq, .str "Corresponds to a GLSL `dmat2` in std140 layout.",
    .op .rbracket,
  .id "align", .op .lparen, .num 16 "", .op .rparen,
  .id "dmat2", .id "DMat2", .op .lbrace,
  .id "x", .op .colon, .id "DVec2", .op .comma,
  .id "y", .op .colon, .id "DVec2", .op .comma,
  .op .rbrace,
  .op .hash, .op .lbracket, .id "doc", .op .eq, .str "Corresponds to a GLSL `dmat3` in std140 layout.",
    .op .rbracket,
  .id "align", .op .lparen, .num 32 "", .op .rparen,
  .id "dmat3", .id "DMat3", .op .lbrace,
  .id "x", .op .colon, .id "DVec3", .op .comma,
  .id "_pad_x", .op .colon, .id "f64", .op .comma,
  .id "y", .op .colon, .id "DVec3", .op .comma,
  .id "_pad_y", .op .colon, .id "f64", .op .comma,
  .id "z", .op .colon, .id "DVec3", .op .comma,
  .id "_pad_z", .op .colon, .id "f64", .op .comma,
  .op .rbrace,
  .op .hash, .op .lbracket, .id "doc", .op .eq, .str "Corresponds to a GLSL `dmat3` in std140 layout.",
    .op .rbracket,
  .id "align", .op .lparen, .num 32 "", .op .rparen,
  .id "dmat4", .id "DMat4", .op .lbrace,
  .id "x", .op .colon, .id "DVec4", .op .comma,
  .id "y", .op .colon, .id "DVec4", .op .comma,
  .id "z", .op .colon, .id "DVec4", .op .comma,
  .id "w", .op .colon, .id "DVec4", .op .comma,
  .op .rbrace,
  .op .rbrace]

/-- `src/std430/primitives.rs:1-177`. -/
def std430Primitives : List Tok := [
  .kw .kUse, .id "bytemuck", .op .colon2, .op .lbrace, .id "Pod", .op .comma, .id "Zeroable", .op .rbrace,
    .op .semi,
  .kw .kUse, .kw .kCrate, .op .colon2, .id "bool", .op .colon2, .id "Bool", .op .semi,
  .kw .kUse, .kw .kCrate, .op .colon2, .id "glsl", .op .colon2, .id "Glsl", .op .semi,
  .kw .kUse, .kw .kCrate, .op .colon2, .id "std430", .op .colon2, .op .lbrace, .id "AsStd430", .op .comma,
    .id "Std430", .op .rbrace, .op .semi,
  .kw .kUnsafe, .kw .kImpl, .id "Std430", .kw .kFor, .id "f32", .op .lbrace,
  .kw .kConst, .id "ALIGNMENT", .op .colon, .id "usize", .op .eq, .num 4 "", .op .semi,
  .op .rbrace,
  .kw .kUnsafe, .kw .kImpl, .id "Std430", .kw .kFor, .id "f64", .op .lbrace,
  .kw .kConst, .id "ALIGNMENT", .op .colon, .id "usize", .op .eq, .num 8 "", .op .semi,
  .op .rbrace,
  .kw .kUnsafe, .kw .kImpl, .id "Std430", .kw .kFor, .id "i32", .op .lbrace,
  .kw .kConst, .id "ALIGNMENT", .op .colon, .id "usize", .op .eq, .num 4 "", .op .semi,
  .op .rbrace,
  .kw .kUnsafe, .kw .kImpl, .id "Std430", .kw .kFor, .id "u32", .op .lbrace,
  .kw .kConst, .id "ALIGNMENT", .op .colon, .id "usize", .op .eq, .num 4 "", .op .semi,
  .op .rbrace,
  .kw .kUnsafe, .kw .kImpl, .id "Std430", .kw .kFor, .id "Bool", .op .lbrace,
  .kw .kConst, .id "ALIGNMENT", .op .colon, .id "usize", .op .eq, .num 4 "", .op .semi,
  .op .rbrace,
  .kw .kImpl, .id "AsStd430", .kw .kFor, .id "bool", .op .lbrace,
  .kw .kType, .id "Output", .op .eq, .id "Bool", .op .semi,
  .kw .kFn, .id "as_std430", .op .lparen, .op .amp, .kw .kSelf, .op .rparen, .op .arrow, .kw .kSelfTy,
    .op .colon2, .id "Output", .op .lbrace,
  .op .lparen, .op .star, .kw .kSelf, .op .rparen, .op .dot, .id "into", .op .lparen, .op .rparen,
  .op .rbrace,
  .kw .kFn, .id "from_std430", .op .lparen, .id "val", .op .colon, .kw .kSelfTy, .op .colon2,
    .id "Output", .op .rparen, .op .arrow, .kw .kSelfTy, .op .lbrace,
  .id "val", .op .dot, .id "into", .op .lparen, .op .rparen,
  .op .rbrace,
  .op .rbrace,
  .id "macro_rules", .op .bang, .id "vectors", .op .lbrace,
  .op .lparen,
  .op .dollar, .op .lparen,
  .op .hash, .op .lbracket, .op .dollar, .id "doc", .op .colon, .id "meta", .op .rbracket, .id "align",
    .op .lparen, .op .dollar, .id "align", .op .colon, .id "literal", .op .rparen, .op .dollar,
    .id "glsl_name", .op .colon, .id "ident", .op .dollar, .id "name", .op .colon, .id "ident", .op .lt,
    .op .dollar, .id "prim", .op .colon, .id "ident", .op .gt, .op .lparen, .op .dollar, .op .lparen,
    .op .dollar, .id "field", .op .colon, .id "ident", .op .rparen, .op .comma, .op .plus, .op .rparen,
  .op .rparen, .op .plus,
  .op .rparen, .op .fatArrow, .op .lbrace,
  .op .dollar, .op .lparen,
  .op .hash, .op .lbracket, .op .dollar, .id "doc", .op .rbracket,
  .op .hash, .op .lbracket, .id "allow", .op .lparen, .id "missing_docs", .op .rparen, .op .rbracket,
  .op .hash, .op .lbracket, .id "derive", .op .lparen, .id "Debug", .op .comma, .id "Clone", .op .comma,
    .id "Copy", .op .rparen, .op .rbracket,
  .op .hash, .op .lbracket, .id "repr", .op .lparen, .id "C", .op .rparen, .op .rbracket,
  .kw .kPub, .kw .kStruct, .op .dollar, .id "name", .op .lbrace,
  .op .dollar, .op .lparen, .kw .kPub, .op .dollar, .id "field", .op .colon, .op .dollar, .id "prim",
    .op .comma, .op .rparen, .op .plus,
  .op .rbrace,
  .kw .kUnsafe, .kw .kImpl, .id "Zeroable", .kw .kFor, .op .dollar, .id "name", .op .lbrace, .op .rbrace,
  .kw .kUnsafe, .kw .kImpl, .id "Pod", .kw .kFor, .op .dollar, .id "name", .op .lbrace, .op .rbrace,
  .kw .kUnsafe, .kw .kImpl, .id "Std430", .kw .kFor, .op .dollar, .id "name", .op .lbrace,
  .kw .kConst, .id "ALIGNMENT", .op .colon, .id "usize", .op .eq, .op .dollar, .id "align", .op .semi,
  .op .rbrace,
  .kw .kUnsafe, .kw .kImpl, .id "Glsl", .kw .kFor, .op .dollar, .id "name", .op .lbrace,
  .kw .kConst, .id "NAME", .op .colon, .op .amp, .lifetime "static", .id "str", .op .eq, .id "stringify",
    .op .bang, .op .lparen, .op .dollar, .id "glsl_name", .op .rparen, .op .semi,
  .op .rbrace,
  .op .rparen, .op .plus,
  .op .rbrace, .op .semi,
  .op .rbrace,
  .id "vectors", .op .bang, .op .lbrace,
  .op .hash, .op .lbracket, .id "doc", .op .eq, .str "Corresponds to a GLSL `vec2` in std430 layout.",
    .op .rbracket, .id "align", .op .lparen, .num 8 "", .op .rparen, .id "vec2", .id "Vec2", .op .lt,
    .id "f32", .op .gt, .op .lparen, .id "x", .op .comma, .id "y", .op .rparen,
  .op .hash, .op .lbracket, .id "doc", .op .eq, .str "Corresponds to a GLSL `vec3` in std430 layout.",
    .op .rbracket, .id "align", .op .lparen, .num 16 "", .op .rparen, .id "vec3", .id "Vec3", .op .lt,
    .id "f32", .op .gt, .op .lparen, .id "x", .op .comma, .id "y", .op .comma, .id "z", .op .rparen,
  .op .hash, .op .lbracket, .id "doc", .op .eq, .str "Corresponds to a GLSL `vec4` in std430 layout.",
    .op .rbracket, .id "align", .op .lparen, .num 16 "", .op .rparen, .id "vec4", .id "Vec4", .op .lt,
    .id "f32", .op .gt, .op .lparen, .id "x", .op .comma, .id "y", .op .comma, .id "z", .op .comma,
    .id "w", .op .rparen,
  .op .hash, .op .lbracket, .id "doc", .op .eq, .str "Corresponds to a GLSL `ivec2` in std430 layout.",
    .op .rbracket, .id "align", .op .lparen, .num 8 "", .op .rparen, .id "ivec2", .id "IVec2", .op .lt,
    .id "i32", .op .gt, .op .lparen, .id "x", .op .comma, .id "y", .op .rparen,
  .op .hash, .op .lbracket, .id "doc", .op .eq, .str "Corresponds to a GLSL `ivec3` in std430 layout.",
    .op .rbracket, .id "align", .op .lparen, .num 16 "", .op .rparen, .id "ivec3", .id "IVec3", .op .lt,
    .id "i32", .op .gt, .op .lparen, .id "x", .op .comma, .id "y", .op .comma, .id "z", .op .rparen,
  .op .hash, .op .lbracket, .id "doc", .op .eq, .str "Corresponds to a GLSL `ivec4` in std430 layout.",
    .op .rbracket, .id "align", .op .lparen, .num 16 "", .op .rparen, .id "ivec4", .id "IVec4", .op .lt,
    .id "i32", .op .gt, .op .lparen, .id "x", .op .comma, .id "y", .op .comma, .id "z", .op .comma,
    .id "w", .op .rparen,
  .op .hash, .op .lbracket, .id "doc", .op .eq, .str "Corresponds to a GLSL `uvec2` in std430 layout.",
    .op .rbracket, .id "align", .op .lparen, .num 8 "", .op .rparen, .id "uvec2", .id "UVec2", .op .lt,
    .id "u32", .op .gt, .op .lparen, .id "x", .op .comma, .id "y", .op .rparen,
  .op .hash, .op .lbracket, .id "doc", .op .eq, .str "Corresponds to a GLSL `uvec3` in std430 layout.",
    .op .rbracket, .id "align", .op .lparen, .num 16 "", .op .rparen, .id "uvec3", .id "UVec3", .op .lt,
    .id "u32", .op .gt, .op .lparen, .id "x", .op .comma, .id "y", .op .comma, .id "z", .op .rparen,
  .op .hash, .op .lbracket, .id "doc", .op .eq, .str "Corresponds to a GLSL `uvec4` in std430 layout.",
    .op .rbracket, .id "align", .op .lparen, .num 16 "", .op .rparen, .id "uvec4", .id "UVec4", .op .lt,
    .id "u32", .op .gt, .op .lparen, .id "x", .op .comma, .id "y", .op .comma, .id "z", .op .comma,
    .id "w", .op .rparen,
  .op .hash, .op .lbracket, .id "doc", .op .eq, .str "Corresponds to a GLSL `bvec2` in std430 layout.",
    .op .rbracket, .id "align", .op .lparen, .num 8 "", .op .rparen, .id "bvec2", .id "BVec2", .op .lt,
    .id "Bool", .op .gt, .op .lparen, .id "x", .op .comma, .id "y", .op .rparen,
  .op .hash, .op .lbracket, .id "doc", .op .eq, .str "Corresponds to a GLSL `bvec3` in std430 layout.",
    .op .rbracket, .id "align", .op .lparen, .num 16 "", .op .rparen, .id "bvec3", .id "BVec3", .op .lt,
    .id "Bool", .op .gt, .op .lparen, .id "x", .op .comma, .id "y", .op .comma, .id "z", .op .rparen,
  .op .hash, .op .lbracket, .id "doc", .op .eq, .str "Corresponds to a GLSL `bvec4` in std430 layout.",
    .op .rbracket, .id "align", .op .lparen, .num 16 "", .op .rparen, .id "bvec4", .id "BVec4", .op .lt,
    .id "Bool", .op .gt, .op .lparen, .id "x", .op .comma, .id "y", .op .comma, .id "z", .op .comma,
    .id "w", .op .rparen,
  .op .hash, .op .lbracket, .id "doc", .op .eq, .str "Corresponds to a GLSL `dvec2` in std430 layout.",
    .op .rbracket, .id "align", .op .lparen, .num 16 "", .op .rparen, .id "dvec2", .id "DVec2", .op .lt,
    .id "f64", .op .gt, .op .lparen, .id "x", .op .comma, .id "y", .op .rparen,
  .op .hash, .op .lbracket, .id "doc", .op .eq, .str "Corresponds to a GLSL `dvec3` in std430 layout.",
    .op .rbracket, .id "align", .op .lparen, .num 32 "", .op .rparen, .id "dvec3", .id "DVec3", .op .lt,
    .id "f64", .op .gt, .op .lparen, .id "x", .op .comma, .id "y", .op .comma, .id "z", .op .rparen,
  .op .hash, .op .lbracket, .id "doc", .op .eq, .str "Corresponds to a GLSL `dvec4` in std430 layout.",
    .op .rbracket, .id "align", .op .lparen, .num 32 "", .op .rparen, .id "dvec4", .id "DVec4", .op .lt,
    .id "f64", .op .gt, .op .lparen, .id "x", .op .comma, .id "y", .op .comma, .id "z", .op .comma,
    .id "w", .op .rparen,
  .op .rbrace,
  .id "macro_rules", .op .bang, .id "matrices", .op .lbrace,
  .op .lparen,
  .op .dollar, .op .lparen,
  .op .hash, .op .lbracket, .op .dollar, .id "doc", .op .colon, .id "meta", .op .rbracket,
  .id "align", .op .lparen, .op .dollar, .id "align", .op .colon, .id "literal", .op .rparen,
  .op .dollar, .id "glsl_name", .op .colon, .id "ident", .op .dollar, .id "name", .op .colon, .id "ident",
    .op .lbrace,
  .op .dollar, .op .lparen, .op .dollar, .id "field", .op .colon, .id "ident", .op .colon, .op .dollar,
    .id "field_ty", .op .colon, .id "ty", .op .comma, .op .rparen, .op .plus,
  .op .rbrace,
  .op .rparen, .op .plus,
  .op .rparen, .op .fatArrow, .op .lbrace,
  .op .dollar, .op .lparen,
  .op .hash, .op .lbracket, .op .dollar, .id "doc", .op .rbracket,
  .op .hash, .op .lbracket, .id "allow", .op .lparen, .id "missing_docs", .op .rparen, .op .rbracket,
  .op .hash, .op .lbracket, .id "derive", .op .lparen, .id "Debug", .op .comma, .id "Clone", .op .comma,
    .id "Copy", .op .rparen, .op .rbracket,
  .op .hash, .op .lbracket, .id "repr", .op .lparen, .id "C", .op .rparen, .op .rbracket,
  .kw .kPub, .kw .kStruct, .op .dollar, .id "name", .op .lbrace,
  .op .dollar, .op .lparen, .kw .kPub, .op .dollar, .id "field", .op .colon, .op .dollar, .id "field_ty",
    .op .comma, .op .rparen, .op .plus,
  .op .rbrace,
  .kw .kUnsafe, .kw .kImpl, .id "Zeroable", .kw .kFor, .op .dollar, .id "name", .op .lbrace, .op .rbrace,
  .kw .kUnsafe, .kw .kImpl, .id "Pod", .kw .kFor, .op .dollar, .id "name", .op .lbrace, .op .rbrace,
  .kw .kUnsafe, .kw .kImpl, .id "Std430", .kw .kFor, .op .dollar, .id "name", .op .lbrace,
  .kw .kConst, .id "ALIGNMENT", .op .colon, .id "usize", .op .eq, .op .dollar, .id "align", .op .semi,
  .op .rbrace,
  .kw .kUnsafe, .kw .kImpl, .id "Glsl", .kw .kFor, .op .dollar, .id "name", .op .lbrace,
  .kw .kConst, .id "NAME", .op .colon, .op .amp, .lifetime "static", .id "str", .op .eq, .id "stringify",
    .op .bang, .op .lparen, .op .dollar, .id "glsl_name", .op .rparen, .op .semi,
  .op .rbrace,
  .op .rparen, .op .plus,
  .op .rbrace, .op .semi,
  .op .rbrace,
  .id "matrices", .op .bang, .op .lbrace,
  .op .hash, .op .lbracket, .id "doc", .op .eq, .str "Corresponds to a GLSL `mat2` in std430 layout.",
    .op .rbracket,
  .id "align", .op .lparen, .num 8 "", .op .rparen,
  .id "mat2", .id "Mat2", .op .lbrace,
  .id "x", .op .colon, .id "Vec2", .op .comma,
  .id "y", .op .colon, .id "Vec2", .op .comma,
  .op .rbrace,
  .op .hash, .op .lbracket, .id "doc", .op .eq, .str "Corresponds to a GLSL `mat3` in std430 layout.",
    .op .rbracket,
  .id "align", .op .lparen, .num 16 "", .op .rparen,
  .id "mat3", .id "Mat3", .op .lbrace,
  .id "x", .op .colon, .id "Vec3", .op .comma,
  .id "_pad_x", .op .colon, .id "f32", .op .comma,
  .id "y", .op .colon, .id "Vec3", .op .comma,
  .id "_pad_y", .op .colon, .id "f32", .op .comma,
  .id "z", .op .colon, .id "Vec3", .op .comma,
  .id "_pad_z", .op .colon, .id "f32", .op .comma,
  .op .rbrace,
  .op .hash, .op .lbracket, .id "doc", .op .eq, .str "Corresponds to a GLSL `mat4` in std430 layout.",
    .op .rbracket,
  .id "align", .op .lparen, .num 16 "", .op .rparen,
  .id "mat4", .id "Mat4", .op .lbrace,
  .id "x", .op .colon, .id "Vec4", .op .comma,
  .id "y", .op .colon, .id "Vec4", .op .comma,
  .id "z", .op .colon, .id "Vec4", .op .comma,
  .id "w", .op .colon, .id "Vec4", .op .comma,
  .op .rbrace,
  .op .hash, .op .lbracket, .id "doc", .op .eq, .str "Corresponds to a GLSL `dmat2` in std430 layout.",
    .op .rbracket,
  .id "align", .op .lparen, .num 16 "", .op .rparen,
  .id "dmat2", .id "DMat2", .op .lbrace,
  .id "x", .op .colon, .id "DVec2", .op .comma,
  .id "y", .op .colon, .id "DVec2", .op .comma,
  .op .rbrace,
  .op .hash, .op .lbracket, .id "doc", .op .eq, .str "Corresponds to a GLSL `dmat3` in std430 layout.",
    .op .rbracket,
  .id "align", .op .lparen, .num 32 "", .op .rparen,
  .id "dmat3", .id "DMat3", .op .lbrace,
  .id "x", .op .colon, .id "DVec3", .op .comma,
  .id "_pad_x", .op .colon, .id "f64", .op .comma,
  .id "y", .op .colon, .id "DVec3", .op .comma,
  .id "_pad_y", .op .colon, .id "f64", .op .comma,
  .id "z", .op .colon, .id "DVec3", .op .comma,
  .id "_pad_z", .op .colon, .id "f64", .op .comma,
  .op .rbrace,
  .op .hash, .op .lbracket, .id "doc", .op .eq, .str "Corresponds to a GLSL `dmat3` in std430 layout.",
    .op .rbracket,
  .id "align", .op .lparen, .num 32 "", .op .rparen,
  .id "dmat4", .id "DMat4", .op .lbrace,
  .id "x", .op .colon, .id "DVec4", .op .comma,
  .id "y", .op .colon, .id "DVec4", .op .comma,
  .id "z", .op .colon, .id "DVec4", .op .comma,
  .id "w", .op .colon, .id "DVec4", .op .comma,
  .op .rbrace,
  .op .rbrace]

/-- `src/util.rs:3-99`. -/
def util : List Tok := [
  .id "macro_rules", .op .bang, .id "easy_impl", .op .lbrace,
  .op .lparen, .op .dollar, .op .lparen, .op .dollar, .id "std_name", .op .colon, .id "ident",
    .op .dollar, .id "imp_ty", .op .colon, .id "ty", .op .lbrace, .op .dollar, .op .lparen, .op .dollar,
    .id "field", .op .colon, .id "ident", .op .rparen, .op .comma, .op .star, .op .rbrace, .op .comma,
    .op .rparen, .op .star, .op .rparen, .op .fatArrow, .op .lbrace,
  .op .dollar, .op .lparen,
  .op .hash, .op .lbracket, .id "allow", .op .lparen, .id "clippy", .op .colon2, .id "needless_update",
    .op .rparen, .op .rbracket,
  .kw .kImpl, .kw .kCrate, .op .colon2, .id "std140", .op .colon2, .id "AsStd140", .kw .kFor, .op .dollar,
    .id "imp_ty", .op .lbrace,
  .kw .kType, .id "Output", .op .eq, .kw .kCrate, .op .colon2, .id "std140", .op .colon2, .op .dollar,
    .id "std_name", .op .semi,
  .op .hash, .op .lbracket, .id "inline", .op .rbracket,
  .kw .kFn, .id "as_std140", .op .lparen, .op .amp, .kw .kSelf, .op .rparen, .op .arrow, .kw .kSelfTy,
    .op .colon2, .id "Output", .op .lbrace,
  .kw .kCrate, .op .colon2, .id "std140", .op .colon2, .op .dollar, .id "std_name", .op .lbrace,
  .op .dollar, .op .lparen,
  .op .dollar, .id "field", .op .colon, .kw .kSelf, .op .dot, .op .dollar, .id "field", .op .dot,
    .id "as_std140", .op .lparen, .op .rparen, .op .comma,
  .op .rparen, .op .star,
  .op .dot2, .id "bytemuck", .op .colon2, .id "Zeroable", .op .colon2, .id "zeroed", .op .lparen,
    .op .rparen,
  .op .rbrace,
  .op .rbrace,
  .op .hash, .op .lbracket, .id "inline", .op .rbracket,
  .kw .kFn, .id "from_std140", .op .lparen, .id "value", .op .colon, .kw .kSelfTy, .op .colon2,
    .id "Output", .op .rparen, .op .arrow, .kw .kSelfTy, .op .lbrace,
  .kw .kSelfTy, .op .lbrace,
  .op .dollar, .op .lparen,
  .op .dollar, .id "field", .op .colon, .op .lt, .id "_", .kw .kAs, .kw .kCrate, .op .colon2,
    .id "std140", .op .colon2, .id "AsStd140", .op .gt, .op .colon2, .id "from_std140", .op .lparen,
    .id "value", .op .dot, .op .dollar, .id "field", .op .rparen, .op .comma,
  .op .rparen, .op .star,
  .op .rbrace,
  .op .rbrace,
  .op .rbrace,
  .op .hash, .op .lbracket, .id "allow", .op .lparen, .id "clippy", .op .colon2, .id "needless_update",
    .op .rparen, .op .rbracket,
  .kw .kImpl, .kw .kCrate, .op .colon2, .id "std430", .op .colon2, .id "AsStd430", .kw .kFor, .op .dollar,
    .id "imp_ty", .op .lbrace,
  .kw .kType, .id "Output", .op .eq, .kw .kCrate, .op .colon2, .id "std430", .op .colon2, .op .dollar,
    .id "std_name", .op .semi,
  .op .hash, .op .lbracket, .id "inline", .op .rbracket,
  .kw .kFn, .id "as_std430", .op .lparen, .op .amp, .kw .kSelf, .op .rparen, .op .arrow, .kw .kSelfTy,
    .op .colon2, .id "Output", .op .lbrace,
  .kw .kCrate, .op .colon2, .id "std430", .op .colon2, .op .dollar, .id "std_name", .op .lbrace,
  .op .dollar, .op .lparen,
  .op .dollar, .id "field", .op .colon, .kw .kSelf, .op .dot, .op .dollar, .id "field", .op .dot,
    .id "as_std430", .op .lparen, .op .rparen, .op .comma,
  .op .rparen, .op .star,
  .op .dot2, .id "bytemuck", .op .colon2, .id "Zeroable", .op .colon2, .id "zeroed", .op .lparen,
    .op .rparen,
  .op .rbrace,
  .op .rbrace,
  .op .hash, .op .lbracket, .id "inline", .op .rbracket,
  .kw .kFn, .id "from_std430", .op .lparen, .id "value", .op .colon, .kw .kSelfTy, .op .colon2,
    .id "Output", .op .rparen, .op .arrow, .kw .kSelfTy, .op .lbrace,
  .kw .kSelfTy, .op .lbrace,
  .op .dollar, .op .lparen,
  .op .dollar, .id "field", .op .colon, .op .lt, .id "_", .kw .kAs, .kw .kCrate, .op .colon2,
    .id "std430", .op .colon2, .id "AsStd430", .op .gt, .op .colon2, .id "from_std430", .op .lparen,
    .id "value", .op .dot, .op .dollar, .id "field", .op .rparen, .op .comma,
  .op .rparen, .op .star,
  .op .rbrace,
  .op .rbrace,
  .op .rbrace,
  .kw .kUnsafe, .kw .kImpl, .kw .kCrate, .op .colon2, .id "glsl", .op .colon2, .id "Glsl", .kw .kFor,
    .op .dollar, .id "imp_ty", .op .lbrace,
  .kw .kConst, .id "NAME", .op .colon, .op .amp, .lifetime "static", .id "str", .op .eq, .kw .kCrate,
    .op .colon2, .id "std140", .op .colon2, .op .dollar, .id "std_name", .op .colon2, .id "NAME",
    .op .semi,
  .op .rbrace,
  .op .rparen, .op .star,
  .op .rbrace, .op .semi,
  .op .rbrace,
  .id "macro_rules", .op .bang, .id "minty_impl", .op .lbrace,
  .op .lparen, .op .dollar, .op .lparen, .op .dollar, .id "mint_ty", .op .colon, .id "ty", .op .fatArrow,
    .op .dollar, .id "imp_ty", .op .colon, .id "ty", .op .comma, .op .rparen, .op .star, .op .rparen,
    .op .fatArrow, .op .lbrace,
  .op .dollar, .op .lparen,
  .kw .kImpl, .kw .kCrate, .op .colon2, .id "std140", .op .colon2, .id "AsStd140", .kw .kFor, .op .dollar,
    .id "imp_ty", .op .lbrace,
  .kw .kType, .id "Output", .op .eq, .op .lt, .op .dollar, .id "mint_ty", .kw .kAs, .kw .kCrate,
    .op .colon2, .id "std140", .op .colon2, .id "AsStd140", .op .gt, .op .colon2, .id "Output", .op .semi,
  .op .hash, .op .lbracket, .id "inline", .op .rbracket,
  .kw .kFn, .id "as_std140", .op .lparen, .op .amp, .kw .kSelf, .op .rparen, .op .arrow, .kw .kSelfTy,
    .op .colon2, .id "Output", .op .lbrace,
  .kw .kLet, .id "mint", .op .colon, .op .dollar, .id "mint_ty", .op .eq, .op .lparen, .op .star,
    .kw .kSelf, .op .rparen, .op .dot, .id "into", .op .lparen, .op .rparen, .op .semi,
  .id "mint", .op .dot, .id "as_std140", .op .lparen, .op .rparen,
  .op .rbrace,
  .op .hash, .op .lbracket, .id "inline", .op .rbracket,
  .kw .kFn, .id "from_std140", .op .lparen, .id "value", .op .colon, .kw .kSelfTy, .op .colon2,
    .id "Output", .op .rparen, .op .arrow, .kw .kSelfTy, .op .lbrace,
  .op .lt, .op .dollar, .id "mint_ty", .op .gt, .op .colon2, .id "from_std140", .op .lparen, .id "value",
    .op .rparen, .op .dot, .id "into", .op .lparen, .op .rparen,
  .op .rbrace,
  .op .rbrace,
  .kw .kImpl, .kw .kCrate, .op .colon2, .id "std430", .op .colon2, .id "AsStd430", .kw .kFor, .op .dollar,
    .id "imp_ty", .op .lbrace,
  .kw .kType, .id "Output", .op .eq, .op .lt, .op .dollar, .id "mint_ty", .kw .kAs, .kw .kCrate,
    .op .colon2, .id "std430", .op .colon2, .id "AsStd430", .op .gt, .op .colon2, .id "Output", .op .semi,
  .op .hash, .op .lbracket, .id "inline", .op .rbracket,
  .kw .kFn, .id "as_std430", .op .lparen, .op .amp, .kw .kSelf, .op .rparen, .op .arrow, .kw .kSelfTy,
    .op .colon2, .id "Output", .op .lbrace,
  .kw .kLet, .id "mint", .op .colon, .op .dollar, .id "mint_ty", .op .eq, .op .lparen, .op .star,
    .kw .kSelf, .op .rparen, .op .dot, .id "into", .op .lparen, .op .rparen, .op .semi,
  .id "mint", .op .dot, .id "as_std430", .op .lparen, .op .rparen,
  .op .rbrace,
  .op .hash, .op .lbracket, .id "inline", .op .rbracket,
  .kw .kFn, .id "from_std430", .op .lparen, .id "value", .op .colon, .kw .kSelfTy, .op .colon2,
    .id "Output", .op .rparen, .op .arrow, .kw .kSelfTy, .op .lbrace,
  .op .lt, .op .dollar, .id "mint_ty", .op .gt, .op .colon2, .id "from_std430", .op .lparen, .id "value",
    .op .rparen, .op .dot, .id "into", .op .lparen, .op .rparen,
  .op .rbrace,
  .op .rbrace,
  .kw .kUnsafe, .kw .kImpl, .kw .kCrate, .op .colon2, .id "glsl", .op .colon2, .id "Glsl", .kw .kFor,
    .op .dollar, .id "imp_ty", .op .lbrace,
  .kw .kConst, .id "NAME", .op .colon, .op .amp, .lifetime "static", .id "str", .op .eq, .op .lt,
    .op .dollar, .id "mint_ty", .op .gt, .op .colon2, .id "NAME", .op .semi,
  .op .rbrace,
  .op .rparen, .op .star,
  .op .rbrace, .op .semi,
  .op .rbrace]

/-- `src/imp/imp_mint.rs:1-44`. -/
def impMint : List Tok := [
  .id "easy_impl", .op .bang, .op .lbrace,
  .id "Vec2", .id "mint", .op .colon2, .id "Vector2", .op .lt, .id "f32", .op .gt, .op .lbrace, .id "x",
    .op .comma, .id "y", .op .rbrace, .op .comma,
  .id "Vec3", .id "mint", .op .colon2, .id "Vector3", .op .lt, .id "f32", .op .gt, .op .lbrace, .id "x",
    .op .comma, .id "y", .op .comma, .id "z", .op .rbrace, .op .comma,
  .id "Vec4", .id "mint", .op .colon2, .id "Vector4", .op .lt, .id "f32", .op .gt, .op .lbrace, .id "x",
    .op .comma, .id "y", .op .comma, .id "z", .op .comma, .id "w", .op .rbrace, .op .comma,
  .id "Vec2", .id "mint", .op .colon2, .id "Point2", .op .lt, .id "f32", .op .gt, .op .lbrace, .id "x",
    .op .comma, .id "y", .op .rbrace, .op .comma,
  .id "Vec3", .id "mint", .op .colon2, .id "Point3", .op .lt, .id "f32", .op .gt, .op .lbrace, .id "x",
    .op .comma, .id "y", .op .comma, .id "z", .op .rbrace, .op .comma,
  .id "IVec2", .id "mint", .op .colon2, .id "Vector2", .op .lt, .id "i32", .op .gt, .op .lbrace, .id "x",
    .op .comma, .id "y", .op .rbrace, .op .comma,
  .id "IVec3", .id "mint", .op .colon2, .id "Vector3", .op .lt, .id "i32", .op .gt, .op .lbrace, .id "x",
    .op .comma, .id "y", .op .comma, .id "z", .op .rbrace, .op .comma,
  .id "IVec4", .id "mint", .op .colon2, .id "Vector4", .op .lt, .id "i32", .op .gt, .op .lbrace, .id "x",
    .op .comma, .id "y", .op .comma, .id "z", .op .comma, .id "w", .op .rbrace, .op .comma,
  .id "IVec2", .id "mint", .op .colon2, .id "Point2", .op .lt, .id "i32", .op .gt, .op .lbrace, .id "x",
    .op .comma, .id "y", .op .rbrace, .op .comma,
  .id "IVec3", .id "mint", .op .colon2, .id "Point3", .op .lt, .id "i32", .op .gt, .op .lbrace, .id "x",
    .op .comma, .id "y", .op .comma, .id "z", .op .rbrace, .op .comma,
  .id "UVec2", .id "mint", .op .colon2, .id "Vector2", .op .lt, .id "u32", .op .gt, .op .lbrace, .id "x",
    .op .comma, .id "y", .op .rbrace, .op .comma,
  .id "UVec3", .id "mint", .op .colon2, .id "Vector3", .op .lt, .id "u32", .op .gt, .op .lbrace, .id "x",
    .op .comma, .id "y", .op .comma, .id "z", .op .rbrace, .op .comma,
  .id "UVec4", .id "mint", .op .colon2, .id "Vector4", .op .lt, .id "u32", .op .gt, .op .lbrace, .id "x",
    .op .comma, .id "y", .op .comma, .id "z", .op .comma, .id "w", .op .rbrace, .op .comma,
  .id "UVec2", .id "mint", .op .colon2, .id "Point2", .op .lt, .id "u32", .op .gt, .op .lbrace, .id "x",
    .op .comma, .id "y", .op .rbrace, .op .comma,
  .id "UVec3", .id "mint", .op .colon2, .id "Point3", .op .lt, .id "u32", .op .gt, .op .lbrace, .id "x",
    .op .comma, .id "y", .op .comma, .id "z", .op .rbrace, .op .comma,
  .id "BVec2", .id "mint", .op .colon2, .id "Vector2", .op .lt, .id "bool", .op .gt, .op .lbrace, .id "x",
    .op .comma, .id "y", .op .rbrace, .op .comma,
  .id "BVec3", .id "mint", .op .colon2, .id "Vector3", .op .lt, .id "bool", .op .gt, .op .lbrace, .id "x",
    .op .comma, .id "y", .op .comma, .id "z", .op .rbrace, .op .comma,
  .id "BVec4", .id "mint", .op .colon2, .id "Vector4", .op .lt, .id "bool", .op .gt, .op .lbrace, .id "x",
    .op .comma, .id "y", .op .comma, .id "z", .op .comma, .id "w", .op .rbrace, .op .comma,
  .id "BVec2", .id "mint", .op .colon2, .id "Point2", .op .lt, .id "bool", .op .gt, .op .lbrace, .id "x",
    .op .comma, .id "y", .op .rbrace, .op .comma,
  .id "BVec3", .id "mint", .op .colon2, .id "Point3", .op .lt, .id "bool", .op .gt, .op .lbrace, .id "x",
    .op .comma, .id "y", .op .comma, .id "z", .op .rbrace, .op .comma,
  .id "DVec2", .id "mint", .op .colon2, .id "Vector2", .op .lt, .id "f64", .op .gt, .op .lbrace, .id "x",
    .op .comma, .id "y", .op .rbrace, .op .comma,
  .id "DVec3", .id "mint", .op .colon2, .id "Vector3", .op .lt, .id "f64", .op .gt, .op .lbrace, .id "x",
    .op .comma, .id "y", .op .comma, .id "z", .op .rbrace, .op .comma,
  .id "DVec4", .id "mint", .op .colon2, .id "Vector4", .op .lt, .id "f64", .op .gt, .op .lbrace, .id "x",
    .op .comma, .id "y", .op .comma, .id "z", .op .comma, .id "w", .op .rbrace, .op .comma,
  .id "DVec2", .id "mint", .op .colon2, .id "Point2", .op .lt, .id "f64", .op .gt, .op .lbrace, .id "x",
    .op .comma, .id "y", .op .rbrace, .op .comma,
  .id "DVec3", .id "mint", .op .colon2, .id "Point3", .op .lt, .id "f64", .op .gt, .op .lbrace, .id "x",
    .op .comma, .id "y", .op .comma, .id "z", .op .rbrace, .op .comma,
  .id "Mat2", .id "mint", .op .colon2, .id "ColumnMatrix2", .op .lt, .id "f32", .op .gt, .op .lbrace,
    .id "x", .op .comma, .id "y", .op .rbrace, .op .comma,
  .id "Mat3", .id "mint", .op .colon2, .id "ColumnMatrix3", .op .lt, .id "f32", .op .gt, .op .lbrace,
    .id "x", .op .comma, .id "y", .op .comma, .id "z", .op .rbrace, .op .comma,
  .id "Mat4", .id "mint", .op .colon2, .id "ColumnMatrix4", .op .lt, .id "f32", .op .gt, .op .lbrace,
    .id "x", .op .comma, .id "y", .op .comma, .id "z", .op .comma, .id "w", .op .rbrace, .op .comma,
  .id "DMat2", .id "mint", .op .colon2, .id "ColumnMatrix2", .op .lt, .id "f64", .op .gt, .op .lbrace,
    .id "x", .op .comma, .id "y", .op .rbrace, .op .comma,
  .id "DMat3", .id "mint", .op .colon2, .id "ColumnMatrix3", .op .lt, .id "f64", .op .gt, .op .lbrace,
    .id "x", .op .comma, .id "y", .op .comma, .id "z", .op .rbrace, .op .comma,
  .id "DMat4", .id "mint", .op .colon2, .id "ColumnMatrix4", .op .lt, .id "f64", .op .gt, .op .lbrace,
    .id "x", .op .comma, .id "y", .op .comma, .id "z", .op .comma, .id "w", .op .rbrace, .op .comma,
  .op .rbrace]

/-- `src/imp/imp_cgmath.rs:1-44`. -/
def impCgmath : List Tok := [
  .id "easy_impl", .op .bang, .op .lbrace,
  .id "Vec2", .id "cgmath", .op .colon2, .id "Vector2", .op .lt, .id "f32", .op .gt, .op .lbrace, .id "x",
    .op .comma, .id "y", .op .rbrace, .op .comma,
  .id "Vec3", .id "cgmath", .op .colon2, .id "Vector3", .op .lt, .id "f32", .op .gt, .op .lbrace, .id "x",
    .op .comma, .id "y", .op .comma, .id "z", .op .rbrace, .op .comma,
  .id "Vec4", .id "cgmath", .op .colon2, .id "Vector4", .op .lt, .id "f32", .op .gt, .op .lbrace, .id "x",
    .op .comma, .id "y", .op .comma, .id "z", .op .comma, .id "w", .op .rbrace, .op .comma,
  .id "Vec2", .id "cgmath", .op .colon2, .id "Point2", .op .lt, .id "f32", .op .gt, .op .lbrace, .id "x",
    .op .comma, .id "y", .op .rbrace, .op .comma,
  .id "Vec3", .id "cgmath", .op .colon2, .id "Point3", .op .lt, .id "f32", .op .gt, .op .lbrace, .id "x",
    .op .comma, .id "y", .op .comma, .id "z", .op .rbrace, .op .comma,
  .id "IVec2", .id "cgmath", .op .colon2, .id "Vector2", .op .lt, .id "i32", .op .gt, .op .lbrace,
    .id "x", .op .comma, .id "y", .op .rbrace, .op .comma,
  .id "IVec3", .id "cgmath", .op .colon2, .id "Vector3", .op .lt, .id "i32", .op .gt, .op .lbrace,
    .id "x", .op .comma, .id "y", .op .comma, .id "z", .op .rbrace, .op .comma,
  .id "IVec4", .id "cgmath", .op .colon2, .id "Vector4", .op .lt, .id "i32", .op .gt, .op .lbrace,
    .id "x", .op .comma, .id "y", .op .comma, .id "z", .op .comma, .id "w", .op .rbrace, .op .comma,
  .id "IVec2", .id "cgmath", .op .colon2, .id "Point2", .op .lt, .id "i32", .op .gt, .op .lbrace, .id "x",
    .op .comma, .id "y", .op .rbrace, .op .comma,
  .id "IVec3", .id "cgmath", .op .colon2, .id "Point3", .op .lt, .id "i32", .op .gt, .op .lbrace, .id "x",
    .op .comma, .id "y", .op .comma, .id "z", .op .rbrace, .op .comma,
  .id "UVec2", .id "cgmath", .op .colon2, .id "Vector2", .op .lt, .id "u32", .op .gt, .op .lbrace,
    .id "x", .op .comma, .id "y", .op .rbrace, .op .comma,
  .id "UVec3", .id "cgmath", .op .colon2, .id "Vector3", .op .lt, .id "u32", .op .gt, .op .lbrace,
    .id "x", .op .comma, .id "y", .op .comma, .id "z", .op .rbrace, .op .comma,
  .id "UVec4", .id "cgmath", .op .colon2, .id "Vector4", .op .lt, .id "u32", .op .gt, .op .lbrace,
    .id "x", .op .comma, .id "y", .op .comma, .id "z", .op .comma, .id "w", .op .rbrace, .op .comma,
  .id "UVec2", .id "cgmath", .op .colon2, .id "Point2", .op .lt, .id "u32", .op .gt, .op .lbrace, .id "x",
    .op .comma, .id "y", .op .rbrace, .op .comma,
  .id "UVec3", .id "cgmath", .op .colon2, .id "Point3", .op .lt, .id "u32", .op .gt, .op .lbrace, .id "x",
    .op .comma, .id "y", .op .comma, .id "z", .op .rbrace, .op .comma,
  .id "BVec2", .id "cgmath", .op .colon2, .id "Vector2", .op .lt, .id "bool", .op .gt, .op .lbrace,
    .id "x", .op .comma, .id "y", .op .rbrace, .op .comma,
  .id "BVec3", .id "cgmath", .op .colon2, .id "Vector3", .op .lt, .id "bool", .op .gt, .op .lbrace,
    .id "x", .op .comma, .id "y", .op .comma, .id "z", .op .rbrace, .op .comma,
  .id "BVec4", .id "cgmath", .op .colon2, .id "Vector4", .op .lt, .id "bool", .op .gt, .op .lbrace,
    .id "x", .op .comma, .id "y", .op .comma, .id "z", .op .comma, .id "w", .op .rbrace, .op .comma,
  .id "BVec2", .id "cgmath", .op .colon2, .id "Point2", .op .lt, .id "bool", .op .gt, .op .lbrace,
    .id "x", .op .comma, .id "y", .op .rbrace, .op .comma,
  .id "BVec3", .id "cgmath", .op .colon2, .id "Point3", .op .lt, .id "bool", .op .gt, .op .lbrace,
    .id "x", .op .comma, .id "y", .op .comma, .id "z", .op .rbrace, .op .comma,
  .id "DVec2", .id "cgmath", .op .colon2, .id "Vector2", .op .lt, .id "f64", .op .gt, .op .lbrace,
    .id "x", .op .comma, .id "y", .op .rbrace, .op .comma,
  .id "DVec3", .id "cgmath", .op .colon2, .id "Vector3", .op .lt, .id "f64", .op .gt, .op .lbrace,
    .id "x", .op .comma, .id "y", .op .comma, .id "z", .op .rbrace, .op .comma,
  .id "DVec4", .id "cgmath", .op .colon2, .id "Vector4", .op .lt, .id "f64", .op .gt, .op .lbrace,
    .id "x", .op .comma, .id "y", .op .comma, .id "z", .op .comma, .id "w", .op .rbrace, .op .comma,
  .id "DVec2", .id "cgmath", .op .colon2, .id "Point2", .op .lt, .id "f64", .op .gt, .op .lbrace, .id "x",
    .op .comma, .id "y", .op .rbrace, .op .comma,
  .id "DVec3", .id "cgmath", .op .colon2, .id "Point3", .op .lt, .id "f64", .op .gt, .op .lbrace, .id "x",
    .op .comma, .id "y", .op .comma, .id "z", .op .rbrace, .op .comma,
  .id "Mat2", .id "cgmath", .op .colon2, .id "Matrix2", .op .lt, .id "f32", .op .gt, .op .lbrace, .id "x",
    .op .comma, .id "y", .op .rbrace, .op .comma,
  .id "Mat3", .id "cgmath", .op .colon2, .id "Matrix3", .op .lt, .id "f32", .op .gt, .op .lbrace, .id "x",
    .op .comma, .id "y", .op .comma, .id "z", .op .rbrace, .op .comma,
  .id "Mat4", .id "cgmath", .op .colon2, .id "Matrix4", .op .lt, .id "f32", .op .gt, .op .lbrace, .id "x",
    .op .comma, .id "y", .op .comma, .id "z", .op .comma, .id "w", .op .rbrace, .op .comma,
  .id "DMat2", .id "cgmath", .op .colon2, .id "Matrix2", .op .lt, .id "f64", .op .gt, .op .lbrace,
    .id "x", .op .comma, .id "y", .op .rbrace, .op .comma,
  .id "DMat3", .id "cgmath", .op .colon2, .id "Matrix3", .op .lt, .id "f64", .op .gt, .op .lbrace,
    .id "x", .op .comma, .id "y", .op .comma, .id "z", .op .rbrace, .op .comma,
  .id "DMat4", .id "cgmath", .op .colon2, .id "Matrix4", .op .lt, .id "f64", .op .gt, .op .lbrace,
    .id "x", .op .comma, .id "y", .op .comma, .id "z", .op .comma, .id "w", .op .rbrace, .op .comma,
  .op .rbrace]

/-- `src/imp/imp_glam.rs:1-29`. -/
def impGlam : List Tok := [
  .id "minty_impl", .op .bang, .op .lbrace,
  .id "mint", .op .colon2, .id "Vector2", .op .lt, .id "f32", .op .gt, .op .fatArrow, .id "glam",
    .op .colon2, .id "Vec2", .op .comma,
  .id "mint", .op .colon2, .id "Vector3", .op .lt, .id "f32", .op .gt, .op .fatArrow, .id "glam",
    .op .colon2, .id "Vec3", .op .comma,
  .id "mint", .op .colon2, .id "Vector4", .op .lt, .id "f32", .op .gt, .op .fatArrow, .id "glam",
    .op .colon2, .id "Vec4", .op .comma,
  .id "mint", .op .colon2, .id "Vector2", .op .lt, .id "i32", .op .gt, .op .fatArrow, .id "glam",
    .op .colon2, .id "IVec2", .op .comma,
  .id "mint", .op .colon2, .id "Vector3", .op .lt, .id "i32", .op .gt, .op .fatArrow, .id "glam",
    .op .colon2, .id "IVec3", .op .comma,
  .id "mint", .op .colon2, .id "Vector4", .op .lt, .id "i32", .op .gt, .op .fatArrow, .id "glam",
    .op .colon2, .id "IVec4", .op .comma,
  .id "mint", .op .colon2, .id "Vector2", .op .lt, .id "u32", .op .gt, .op .fatArrow, .id "glam",
    .op .colon2, .id "UVec2", .op .comma,
  .id "mint", .op .colon2, .id "Vector3", .op .lt, .id "u32", .op .gt, .op .fatArrow, .id "glam",
    .op .colon2, .id "UVec3", .op .comma,
  .id "mint", .op .colon2, .id "Vector4", .op .lt, .id "u32", .op .gt, .op .fatArrow, .id "glam",
    .op .colon2, .id "UVec4", .op .comma,
  .id "mint", .op .colon2, .id "Vector2", .op .lt, .id "f64", .op .gt, .op .fatArrow, .id "glam",
    .op .colon2, .id "DVec2", .op .comma,
  .id "mint", .op .colon2, .id "Vector3", .op .lt, .id "f64", .op .gt, .op .fatArrow, .id "glam",
    .op .colon2, .id "DVec3", .op .comma,
  .id "mint", .op .colon2, .id "Vector4", .op .lt, .id "f64", .op .gt, .op .fatArrow, .id "glam",
    .op .colon2, .id "DVec4", .op .comma,
  .id "mint", .op .colon2, .id "ColumnMatrix2", .op .lt, .id "f32", .op .gt, .op .fatArrow, .id "glam",
    .op .colon2, .id "Mat2", .op .comma,
  .id "mint", .op .colon2, .id "ColumnMatrix3", .op .lt, .id "f32", .op .gt, .op .fatArrow, .id "glam",
    .op .colon2, .id "Mat3", .op .comma,
  .id "mint", .op .colon2, .id "ColumnMatrix4", .op .lt, .id "f32", .op .gt, .op .fatArrow, .id "glam",
    .op .colon2, .id "Mat4", .op .comma,
  .id "mint", .op .colon2, .id "ColumnMatrix2", .op .lt, .id "f64", .op .gt, .op .fatArrow, .id "glam",
    .op .colon2, .id "DMat2", .op .comma,
  .id "mint", .op .colon2, .id "ColumnMatrix3", .op .lt, .id "f64", .op .gt, .op .fatArrow, .id "glam",
    .op .colon2, .id "DMat3", .op .comma,
  .id "mint", .op .colon2, .id "ColumnMatrix4", .op .lt, .id "f64", .op .gt, .op .fatArrow, .id "glam",
    .op .colon2, .id "DMat4", .op .comma,
  .op .rbrace]

/-- `src/imp/imp_nalgebra.rs:1-44`. -/
def impNalgebra : List Tok := [
  .id "minty_impl", .op .bang, .op .lbrace,
  .id "mint", .op .colon2, .id "Vector2", .op .lt, .id "f32", .op .gt, .op .fatArrow, .id "nalgebra",
    .op .colon2, .id "Vector2", .op .lt, .id "f32", .op .gt, .op .comma,
  .id "mint", .op .colon2, .id "Vector3", .op .lt, .id "f32", .op .gt, .op .fatArrow, .id "nalgebra",
    .op .colon2, .id "Vector3", .op .lt, .id "f32", .op .gt, .op .comma,
  .id "mint", .op .colon2, .id "Vector4", .op .lt, .id "f32", .op .gt, .op .fatArrow, .id "nalgebra",
    .op .colon2, .id "Vector4", .op .lt, .id "f32", .op .gt, .op .comma,
  .id "mint", .op .colon2, .id "Point2", .op .lt, .id "f32", .op .gt, .op .fatArrow, .id "nalgebra",
    .op .colon2, .id "Point2", .op .lt, .id "f32", .op .gt, .op .comma,
  .id "mint", .op .colon2, .id "Point3", .op .lt, .id "f32", .op .gt, .op .fatArrow, .id "nalgebra",
    .op .colon2, .id "Point3", .op .lt, .id "f32", .op .gt, .op .comma,
  .id "mint", .op .colon2, .id "Vector2", .op .lt, .id "i32", .op .gt, .op .fatArrow, .id "nalgebra",
    .op .colon2, .id "Vector2", .op .lt, .id "i32", .op .gt, .op .comma,
  .id "mint", .op .colon2, .id "Vector3", .op .lt, .id "i32", .op .gt, .op .fatArrow, .id "nalgebra",
    .op .colon2, .id "Vector3", .op .lt, .id "i32", .op .gt, .op .comma,
  .id "mint", .op .colon2, .id "Vector4", .op .lt, .id "i32", .op .gt, .op .fatArrow, .id "nalgebra",
    .op .colon2, .id "Vector4", .op .lt, .id "i32", .op .gt, .op .comma,
  .id "mint", .op .colon2, .id "Point2", .op .lt, .id "i32", .op .gt, .op .fatArrow, .id "nalgebra",
    .op .colon2, .id "Point2", .op .lt, .id "i32", .op .gt, .op .comma,
  .id "mint", .op .colon2, .id "Point3", .op .lt, .id "i32", .op .gt, .op .fatArrow, .id "nalgebra",
    .op .colon2, .id "Point3", .op .lt, .id "i32", .op .gt, .op .comma,
  .id "mint", .op .colon2, .id "Vector2", .op .lt, .id "u32", .op .gt, .op .fatArrow, .id "nalgebra",
    .op .colon2, .id "Vector2", .op .lt, .id "u32", .op .gt, .op .comma,
  .id "mint", .op .colon2, .id "Vector3", .op .lt, .id "u32", .op .gt, .op .fatArrow, .id "nalgebra",
    .op .colon2, .id "Vector3", .op .lt, .id "u32", .op .gt, .op .comma,
  .id "mint", .op .colon2, .id "Vector4", .op .lt, .id "u32", .op .gt, .op .fatArrow, .id "nalgebra",
    .op .colon2, .id "Vector4", .op .lt, .id "u32", .op .gt, .op .comma,
  .id "mint", .op .colon2, .id "Point2", .op .lt, .id "u32", .op .gt, .op .fatArrow, .id "nalgebra",
    .op .colon2, .id "Point2", .op .lt, .id "u32", .op .gt, .op .comma,
  .id "mint", .op .colon2, .id "Point3", .op .lt, .id "u32", .op .gt, .op .fatArrow, .id "nalgebra",
    .op .colon2, .id "Point3", .op .lt, .id "u32", .op .gt, .op .comma,
  .id "mint", .op .colon2, .id "Vector2", .op .lt, .id "bool", .op .gt, .op .fatArrow, .id "nalgebra",
    .op .colon2, .id "Vector2", .op .lt, .id "bool", .op .gt, .op .comma,
  .id "mint", .op .colon2, .id "Vector3", .op .lt, .id "bool", .op .gt, .op .fatArrow, .id "nalgebra",
    .op .colon2, .id "Vector3", .op .lt, .id "bool", .op .gt, .op .comma,
  .id "mint", .op .colon2, .id "Vector4", .op .lt, .id "bool", .op .gt, .op .fatArrow, .id "nalgebra",
    .op .colon2, .id "Vector4", .op .lt, .id "bool", .op .gt, .op .comma,
  .id "mint", .op .colon2, .id "Point2", .op .lt, .id "bool", .op .gt, .op .fatArrow, .id "nalgebra",
    .op .colon2, .id "Point2", .op .lt, .id "bool", .op .gt, .op .comma,
  .id "mint", .op .colon2, .id "Point3", .op .lt, .id "bool", .op .gt, .op .fatArrow, .id "nalgebra",
    .op .colon2, .id "Point3", .op .lt, .id "bool", .op .gt, .op .comma,
  .id "mint", .op .colon2, .id "Vector2", .op .lt, .id "f64", .op .gt, .op .fatArrow, .id "nalgebra",
    .op .colon2, .id "Vector2", .op .lt, .id "f64", .op .gt, .op .comma,
  .id "mint", .op .colon2, .id "Vector3", .op .lt, .id "f64", .op .gt, .op .fatArrow, .id "nalgebra",
    .op .colon2, .id "Vector3", .op .lt, .id "f64", .op .gt, .op .comma,
  .id "mint", .op .colon2, .id "Vector4", .op .lt, .id "f64", .op .gt, .op .fatArrow, .id "nalgebra",
    .op .colon2, .id "Vector4", .op .lt, .id "f64", .op .gt, .op .comma,
  .id "mint", .op .colon2, .id "Point2", .op .lt, .id "f64", .op .gt, .op .fatArrow, .id "nalgebra",
    .op .colon2, .id "Point2", .op .lt, .id "f64", .op .gt, .op .comma,
  .id "mint", .op .colon2, .id "Point3", .op .lt, .id "f64", .op .gt, .op .fatArrow, .id "nalgebra",
    .op .colon2, .id "Point3", .op .lt, .id "f64", .op .gt, .op .comma,
  .id "mint", .op .colon2, .id "ColumnMatrix2", .op .lt, .id "f32", .op .gt, .op .fatArrow,
    .id "nalgebra", .op .colon2, .id "Matrix2", .op .lt, .id "f32", .op .gt, .op .comma,
  .id "mint", .op .colon2, .id "ColumnMatrix3", .op .lt, .id "f32", .op .gt, .op .fatArrow,
    .id "nalgebra", .op .colon2, .id "Matrix3", .op .lt, .id "f32", .op .gt, .op .comma,
  .id "mint", .op .colon2, .id "ColumnMatrix4", .op .lt, .id "f32", .op .gt, .op .fatArrow,
    .id "nalgebra", .op .colon2, .id "Matrix4", .op .lt, .id "f32", .op .gt, .op .comma,
  .id "mint", .op .colon2, .id "ColumnMatrix2", .op .lt, .id "f64", .op .gt, .op .fatArrow,
    .id "nalgebra", .op .colon2, .id "Matrix2", .op .lt, .id "f64", .op .gt, .op .comma,
  .id "mint", .op .colon2, .id "ColumnMatrix3", .op .lt, .id "f64", .op .gt, .op .fatArrow,
    .id "nalgebra", .op .colon2, .id "Matrix3", .op .lt, .id "f64", .op .gt, .op .comma,
  .id "mint", .op .colon2, .id "ColumnMatrix4", .op .lt, .id "f64", .op .gt, .op .fatArrow,
    .id "nalgebra", .op .colon2, .id "Matrix4", .op .lt, .id "f64", .op .gt, .op .comma,
  .op .rbrace]

end RustCode.Source
