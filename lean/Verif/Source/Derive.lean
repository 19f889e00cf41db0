import Verif.Spec.RustCode
/-
Token sequences of source files of crevice, written by `tools/gen_source.py`. Each line of a list is
one line of the file; comments and inner attributes `#![..]` are left out.
-/
namespace RustCode.Source
open Tok Kw Op

/-- `crevice-derive/src/lib.rs:1-30`. -/
def deriveLib : List Tok := [
  .kw .kMod, .id "glsl", .op .semi,
  .kw .kMod, .id "layout", .op .semi,
  .kw .kUse, .id "proc_macro", .op .colon2, .id "TokenStream", .kw .kAs, .id "CompilerTokenStream",
    .op .semi,
  .kw .kUse, .id "syn", .op .colon2, .op .lbrace, .id "parse_macro_input", .op .comma, .id "DeriveInput",
    .op .rbrace, .op .semi,
  .op .hash, .op .lbracket, .id "proc_macro_derive", .op .lparen, .id "AsStd140", .op .rparen,
    .op .rbracket,
  .kw .kPub, .kw .kFn, .id "derive_as_std140", .op .lparen, .id "input", .op .colon,
    .id "CompilerTokenStream", .op .rparen, .op .arrow, .id "CompilerTokenStream", .op .lbrace,
  .kw .kLet, .id "input", .op .eq, .id "parse_macro_input", .op .bang, .op .lparen, .id "input", .kw .kAs,
    .id "DeriveInput", .op .rparen, .op .semi,
  .kw .kLet, .id "expanded", .op .eq, .id "layout", .op .colon2, .id "emit", .op .lparen, .id "input",
    .op .comma, .str "Std140", .op .comma, .str "std140", .op .comma, .num 16 "", .op .rparen, .op .semi,
  .id "CompilerTokenStream", .op .colon2, .id "from", .op .lparen, .id "expanded", .op .rparen,
  .op .rbrace,
  .op .hash, .op .lbracket, .id "proc_macro_derive", .op .lparen, .id "AsStd430", .op .rparen,
    .op .rbracket,
  .kw .kPub, .kw .kFn, .id "derive_as_std430", .op .lparen, .id "input", .op .colon,
    .id "CompilerTokenStream", .op .rparen, .op .arrow, .id "CompilerTokenStream", .op .lbrace,
  .kw .kLet, .id "input", .op .eq, .id "parse_macro_input", .op .bang, .op .lparen, .id "input", .kw .kAs,
    .id "DeriveInput", .op .rparen, .op .semi,
  .kw .kLet, .id "expanded", .op .eq, .id "layout", .op .colon2, .id "emit", .op .lparen, .id "input",
    .op .comma, .str "Std430", .op .comma, .str "std430", .op .comma, .num 0 "", .op .rparen, .op .semi,
  .id "CompilerTokenStream", .op .colon2, .id "from", .op .lparen, .id "expanded", .op .rparen,
  .op .rbrace,
  .op .hash, .op .lbracket, .id "proc_macro_derive", .op .lparen, .id "GlslStruct", .op .rparen,
    .op .rbracket,
  .kw .kPub, .kw .kFn, .id "derive_glsl_struct", .op .lparen, .id "input", .op .colon,
    .id "CompilerTokenStream", .op .rparen, .op .arrow, .id "CompilerTokenStream", .op .lbrace,
  .kw .kLet, .id "input", .op .eq, .id "parse_macro_input", .op .bang, .op .lparen, .id "input", .kw .kAs,
    .id "DeriveInput", .op .rparen, .op .semi,
  .kw .kLet, .id "expanded", .op .eq, .id "glsl", .op .colon2, .id "emit", .op .lparen, .id "input",
    .op .rparen, .op .semi,
  .id "CompilerTokenStream", .op .colon2, .id "from", .op .lparen, .id "expanded", .op .rparen,
  .op .rbrace]

/-- `crevice-derive/src/layout.rs:1-265`. -/
def deriveLayout : List Tok := [
  .kw .kUse, .id "proc_macro2", .op .colon2, .op .lbrace, .id "Span", .op .comma, .id "TokenStream",
    .op .rbrace, .op .semi,
  .kw .kUse, .id "quote", .op .colon2, .op .lbrace, .id "format_ident", .op .comma, .id "quote",
    .op .rbrace, .op .semi,
  .kw .kUse, .id "syn", .op .colon2, .op .lbrace, .id "parse_quote", .op .comma, .id "Data", .op .comma,
    .id "DeriveInput", .op .comma, .id "Fields", .op .comma, .id "Ident", .op .comma, .id "Path",
    .op .comma, .id "Type", .op .rbrace, .op .semi,
  .kw .kPub, .kw .kFn, .id "emit", .op .lparen,
  .id "input", .op .colon, .id "DeriveInput", .op .comma,
  .id "trait_name", .op .colon, .op .amp, .lifetime "static", .id "str", .op .comma,
  .id "mod_name", .op .colon, .op .amp, .lifetime "static", .id "str", .op .comma,
  .id "min_struct_alignment", .op .colon, .id "usize", .op .comma,
  .op .rparen, .op .arrow, .id "TokenStream", .op .lbrace,
  .kw .kLet, .id "mod_name", .op .eq, .id "Ident", .op .colon2, .id "new", .op .lparen, .id "mod_name",
    .op .comma, .id "Span", .op .colon2, .id "call_site", .op .lparen, .op .rparen, .op .rparen,
    .op .semi,
  .kw .kLet, .id "trait_name", .op .eq, .id "Ident", .op .colon2, .id "new", .op .lparen,
    .id "trait_name", .op .comma, .id "Span", .op .colon2, .id "call_site", .op .lparen, .op .rparen,
    .op .rparen, .op .semi,
  .kw .kLet, .id "mod_path", .op .colon, .id "Path", .op .eq, .id "parse_quote", .op .bang, .op .lparen,
    .op .colon2, .id "crevice", .op .colon2, .op .hash, .id "mod_name", .op .rparen, .op .semi,
  .kw .kLet, .id "trait_path", .op .colon, .id "Path", .op .eq, .id "parse_quote", .op .bang, .op .lparen,
    .op .hash, .id "mod_path", .op .colon2, .op .hash, .id "trait_name", .op .rparen, .op .semi,
  .kw .kLet, .id "as_trait_name", .op .eq, .id "format_ident", .op .bang, .op .lparen, .str "As{}",
    .op .comma, .id "trait_name", .op .rparen, .op .semi,
  .kw .kLet, .id "as_trait_path", .op .colon, .id "Path", .op .eq, .id "parse_quote", .op .bang,
    .op .lparen, .op .hash, .id "mod_path", .op .colon2, .op .hash, .id "as_trait_name", .op .rparen,
    .op .semi,
  .kw .kLet, .id "as_trait_method", .op .eq, .id "format_ident", .op .bang, .op .lparen, .str "as_{}",
    .op .comma, .id "mod_name", .op .rparen, .op .semi,
  .kw .kLet, .id "from_trait_method", .op .eq, .id "format_ident", .op .bang, .op .lparen, .str "from_{}",
    .op .comma, .id "mod_name", .op .rparen, .op .semi,
  .kw .kLet, .id "visibility", .op .eq, .id "input", .op .dot, .id "vis", .op .semi,
  .kw .kLet, .id "input_name", .op .eq, .id "input", .op .dot, .id "ident", .op .semi,
  .kw .kLet, .op .lparen, .id "impl_generics", .op .comma, .id "ty_generics", .op .comma,
    .id "where_clause", .op .rparen, .op .eq, .id "input", .op .dot, .id "generics", .op .dot,
    .id "split_for_impl", .op .lparen, .op .rparen, .op .semi,
  .kw .kLet, .id "generated_name", .op .eq, .id "format_ident", .op .bang, .op .lparen, .str "{}{}",
    .op .comma, .id "trait_name", .op .comma, .id "input_name", .op .rparen, .op .semi,
  .kw .kLet, .id "fields", .op .colon, .id "Vec", .op .lt, .id "_", .op .gt, .op .eq, .kw .kMatch,
    .op .amp, .id "input", .op .dot, .id "data", .op .lbrace,
  .id "Data", .op .colon2, .id "Struct", .op .lparen, .id "data", .op .rparen, .op .fatArrow, .kw .kMatch,
    .op .amp, .id "data", .op .dot, .id "fields", .op .lbrace,
  .id "Fields", .op .colon2, .id "Named", .op .lparen, .id "fields", .op .rparen, .op .fatArrow,
    .id "fields", .op .dot, .id "named", .op .dot, .id "iter", .op .lparen, .op .rparen, .op .dot,
    .id "collect", .op .lparen, .op .rparen, .op .comma,
  .id "Fields", .op .colon2, .id "Unnamed", .op .lparen, .id "_", .op .rparen, .op .fatArrow, .id "panic",
    .op .bang, .op .lparen, .str "Tuple structs are not supported", .op .rparen, .op .comma,
  .id "Fields", .op .colon2, .id "Unit", .op .fatArrow, .id "panic", .op .bang, .op .lparen,
    .str "Unit structs are not supported", .op .rparen, .op .comma,
  .op .rbrace, .op .comma,
  .id "Data", .op .colon2, .id "Enum", .op .lparen, .id "_", .op .rparen, .op .bar, .id "Data",
    .op .colon2, .id "Union", .op .lparen, .id "_", .op .rparen, .op .fatArrow, .id "panic", .op .bang,
    .op .lparen, .str "Only structs are supported", .op .rparen, .op .comma,
  .op .rbrace, .op .semi,
  .kw .kLet, .id "layout_version_of_ty", .op .eq, .op .bar, .id "ty", .op .colon, .op .amp, .id "Type",
    .op .bar, .op .lbrace,
  .id "quote", .op .bang, .op .lbrace,
  .op .lt, .op .hash, .id "ty", .kw .kAs, .op .hash, .id "as_trait_path", .op .gt, .op .colon2,
    .id "Output",
  .op .rbrace,
  .op .rbrace, .op .semi,
  .kw .kLet, .id "layout_alignment_of_ty", .op .eq, .op .bar, .id "ty", .op .colon, .op .amp, .id "Type",
    .op .bar, .op .lbrace,
  .id "quote", .op .bang, .op .lbrace,
  .op .lt, .op .lt, .op .hash, .id "ty", .kw .kAs, .op .hash, .id "as_trait_path", .op .gt, .op .colon2,
    .id "Output", .kw .kAs, .op .hash, .id "trait_path", .op .gt, .op .colon2, .id "ALIGNMENT",
  .op .rbrace,
  .op .rbrace, .op .semi,
  .kw .kLet, .id "field_alignments", .op .eq, .id "fields", .op .dot, .id "iter", .op .lparen,
    .op .rparen, .op .dot, .id "map", .op .lparen, .op .bar, .id "field", .op .bar,
    .id "layout_alignment_of_ty", .op .lparen, .op .amp, .id "field", .op .dot, .id "ty", .op .rparen,
    .op .rparen, .op .semi,
  .kw .kLet, .id "struct_alignment", .op .eq, .id "quote", .op .bang, .op .lbrace,
  .op .colon2, .id "crevice", .op .colon2, .id "internal", .op .colon2, .id "max_arr", .op .lparen,
    .op .lbracket,
  .op .hash, .id "min_struct_alignment", .op .comma,
  .op .hash, .op .lparen, .op .hash, .id "field_alignments", .op .comma, .op .rparen, .op .star,
  .op .rbracket, .op .rparen,
  .op .rbrace, .op .semi,
  .kw .kLet, .id "pad_fns", .op .colon, .id "Vec", .op .lt, .id "_", .op .gt, .op .eq, .op .lparen,
    .num 0 "", .op .dot2, .id "fields", .op .dot, .id "len", .op .lparen, .op .rparen, .op .rparen,
  .op .dot, .id "map", .op .lparen, .op .bar, .id "index", .op .bar, .id "format_ident", .op .bang,
    .op .lparen, .str "_{}__{}Pad{}", .op .comma, .id "input_name", .op .comma, .id "trait_name",
    .op .comma, .id "index", .op .rparen, .op .rparen,
  .op .dot, .id "collect", .op .lparen, .op .rparen, .op .semi,
  .kw .kLet, .id "offset_after_field", .op .eq, .op .bar, .id "target", .op .colon, .id "usize", .op .bar,
    .op .lbrace,
  .kw .kLet, .kw .kMut, .id "output", .op .eq, .id "vec", .op .bang, .op .lbracket, .id "quote",
    .op .bang, .op .lparen, .num 0 "usize", .op .rparen, .op .rbracket, .op .semi,
  .kw .kFor, .id "index", .kw .kIn, .num 0 "", .op .dot2eq, .id "target", .op .lbrace,
  .kw .kLet, .id "field_ty", .op .eq, .op .amp, .id "fields", .op .lbracket, .id "index", .op .rbracket,
    .op .dot, .id "ty", .op .semi,
  .kw .kLet, .id "layout_ty", .op .eq, .id "layout_version_of_ty", .op .lparen, .id "field_ty",
    .op .rparen, .op .semi,
  .id "output", .op .dot, .id "push", .op .lparen, .id "quote", .op .bang, .op .lbrace,
  .op .plus, .op .colon2, .id "core", .op .colon2, .id "mem", .op .colon2, .id "size_of", .op .colon2,
    .op .lt, .op .hash, .id "layout_ty", .op .gt, .op .lparen, .op .rparen,
  .op .rbrace, .op .rparen, .op .semi,
  .kw .kIf, .id "index", .op .lt, .id "target", .op .lbrace,
  .kw .kLet, .id "pad_fn", .op .eq, .op .amp, .id "pad_fns", .op .lbracket, .id "index", .op .rbracket,
    .op .semi,
  .id "output", .op .dot, .id "push", .op .lparen, .id "quote", .op .bang, .op .lbrace,
  .op .plus, .op .hash, .id "pad_fn", .op .lparen, .op .rparen,
  .op .rbrace, .op .rparen, .op .semi,
  .op .rbrace,
  .op .rbrace,
  .id "output", .op .dot, .id "into_iter", .op .lparen, .op .rparen, .op .dot, .id "collect", .op .colon2,
    .op .lt, .id "TokenStream", .op .gt, .op .lparen, .op .rparen,
  .op .rbrace, .op .semi,
  .kw .kLet, .id "pad_fn_impls", .op .colon, .id "TokenStream", .op .eq, .id "pad_fns",
  .op .dot, .id "iter", .op .lparen, .op .rparen,
  .op .dot, .id "enumerate", .op .lparen, .op .rparen,
  .op .dot, .id "map", .op .lparen, .op .bar, .op .lparen, .id "index", .op .comma, .id "pad_fn",
    .op .rparen, .op .bar, .op .lbrace,
  .kw .kLet, .id "starting_offset", .op .eq, .id "offset_after_field", .op .lparen, .id "index",
    .op .rparen, .op .semi,
  .kw .kLet, .id "next_field_or_self_alignment", .op .eq, .id "fields",
  .op .dot, .id "get", .op .lparen, .id "index", .op .plus, .num 1 "", .op .rparen,
  .op .dot, .id "map", .op .lparen, .op .bar, .id "next_field", .op .bar, .id "layout_alignment_of_ty",
    .op .lparen, .op .amp, .id "next_field", .op .dot, .id "ty", .op .rparen, .op .rparen,
  .op .dot, .id "unwrap_or", .op .lparen, .id "quote", .op .bang, .op .lparen, .op .hash,
    .id "struct_alignment", .op .rparen, .op .rparen, .op .semi,
  .id "quote", .op .bang, .op .lbrace,
  .op .hash, .op .lbracket, .id "doc", .op .eq,
    .str " Tells how many bytes of padding have to be inserted after", .op .rbracket,
  .op .hash, .op .lbracket, .id "doc", .op .eq, .str " the field with index #index.", .op .rbracket,
  .op .hash, .op .lbracket, .id "allow", .op .lparen, .id "non_snake_case", .op .rparen, .op .rbracket,
  .kw .kConst, .kw .kFn, .op .hash, .id "pad_fn", .op .lparen, .op .rparen, .op .arrow, .id "usize",
    .op .lbrace,
  .kw .kLet, .id "starting_offset", .op .eq, .op .hash, .id "starting_offset", .op .semi,
  .kw .kLet, .id "alignment", .op .eq, .op .hash, .id "next_field_or_self_alignment", .op .semi,
  .op .colon2, .id "crevice", .op .colon2, .id "internal", .op .colon2, .id "align_offset", .op .lparen,
    .id "starting_offset", .op .comma, .id "alignment", .op .rparen,
  .op .rbrace,
  .op .rbrace,
  .op .rbrace, .op .rparen,
  .op .dot, .id "collect", .op .lparen, .op .rparen, .op .semi,
  .kw .kLet, .id "generated_struct_fields", .op .colon, .id "TokenStream", .op .eq, .id "fields",
  .op .dot, .id "iter", .op .lparen, .op .rparen,
  .op .dot, .id "enumerate", .op .lparen, .op .rparen,
  .op .dot, .id "map", .op .lparen, .op .bar, .op .lparen, .id "index", .op .comma, .id "field",
    .op .rparen, .op .bar, .op .lbrace,
  .kw .kLet, .id "field_name", .op .eq, .id "field", .op .dot, .id "ident", .op .dot, .id "as_ref",
    .op .lparen, .op .rparen, .op .dot, .id "unwrap", .op .lparen, .op .rparen, .op .semi,
  .kw .kLet, .id "field_ty", .op .eq, .id "layout_version_of_ty", .op .lparen, .op .amp, .id "field",
    .op .dot, .id "ty", .op .rparen, .op .semi,
  .kw .kLet, .id "pad_field_name", .op .eq, .id "format_ident", .op .bang, .op .lparen, .str "_pad{}",
    .op .comma, .id "index", .op .rparen, .op .semi,
  .kw .kLet, .id "pad_fn", .op .eq, .op .amp, .id "pad_fns", .op .lbracket, .id "index", .op .rbracket,
    .op .semi,
  .id "quote", .op .bang, .op .lbrace,
  .op .hash, .id "field_name", .op .colon, .op .hash, .id "field_ty", .op .comma,
  .op .hash, .id "pad_field_name", .op .colon, .op .lbracket, .id "u8", .op .semi, .op .hash,
    .id "pad_fn", .op .lparen, .op .rparen, .op .rbracket, .op .comma,
  .op .rbrace,
  .op .rbrace, .op .rparen,
  .op .dot, .id "collect", .op .lparen, .op .rparen, .op .semi,
  .kw .kLet, .id "generated_struct_field_init", .op .colon, .id "TokenStream", .op .eq, .id "fields",
  .op .dot, .id "iter", .op .lparen, .op .rparen,
  .op .dot, .id "map", .op .lparen, .op .bar, .id "field", .op .bar, .op .lbrace,
  .kw .kLet, .id "field_name", .op .eq, .id "field", .op .dot, .id "ident", .op .dot, .id "as_ref",
    .op .lparen, .op .rparen, .op .dot, .id "unwrap", .op .lparen, .op .rparen, .op .semi,
  .id "quote", .op .bang, .op .lbrace,
  .op .hash, .id "field_name", .op .colon, .kw .kSelf, .op .dot, .op .hash, .id "field_name", .op .dot,
    .op .hash, .id "as_trait_method", .op .lparen, .op .rparen, .op .comma,
  .op .rbrace,
  .op .rbrace, .op .rparen,
  .op .dot, .id "collect", .op .lparen, .op .rparen, .op .semi,
  .kw .kLet, .id "input_struct_field_init", .op .colon, .id "TokenStream", .op .eq, .id "fields",
  .op .dot, .id "iter", .op .lparen, .op .rparen,
  .op .dot, .id "map", .op .lparen, .op .bar, .id "field", .op .bar, .op .lbrace,
  .kw .kLet, .id "field_name", .op .eq, .id "field", .op .dot, .id "ident", .op .dot, .id "as_ref",
    .op .lparen, .op .rparen, .op .dot, .id "unwrap", .op .lparen, .op .rparen, .op .semi,
  .id "quote", .op .bang, .op .lbrace,
  .op .hash, .id "field_name", .op .colon, .op .hash, .id "as_trait_path", .op .colon2, .op .hash,
    .id "from_trait_method", .op .lparen, .id "input", .op .dot, .op .hash, .id "field_name", .op .rparen,
    .op .comma,
  .op .rbrace,
  .op .rbrace, .op .rparen,
  .op .dot, .id "collect", .op .lparen, .op .rparen, .op .semi,
  .kw .kLet, .id "struct_definition", .op .eq, .id "quote", .op .bang, .op .lbrace,
  .op .hash, .op .lbracket, .id "derive", .op .lparen, .id "Debug", .op .comma, .id "Clone", .op .comma,
    .id "Copy", .op .rparen, .op .rbracket,
  .op .hash, .op .lbracket, .id "repr", .op .lparen, .id "C", .op .rparen, .op .rbracket,
  .op .hash, .op .lbracket, .id "doc", .op .lparen, .id "hidden", .op .rparen, .op .rbracket,
  .op .hash, .op .lbracket, .id "allow", .op .lparen, .id "warnings", .op .rparen, .op .rbracket,
  .op .hash, .id "visibility", .kw .kStruct, .op .hash, .id "generated_name", .op .hash,
    .id "ty_generics", .op .hash, .id "where_clause", .op .lbrace,
  .op .hash, .id "generated_struct_fields",
  .op .rbrace,
  .op .rbrace, .op .semi,
  .kw .kLet, .id "debug_methods", .op .eq, .kw .kIf, .id "cfg", .op .bang, .op .lparen, .id "feature",
    .op .eq, .str "debug-methods", .op .rparen, .op .lbrace,
  .kw .kLet, .id "debug_fields", .op .colon, .id "TokenStream", .op .eq, .id "fields",
  .op .dot, .id "iter", .op .lparen, .op .rparen,
  .op .dot, .id "map", .op .lparen, .op .bar, .id "field", .op .bar, .op .lbrace,
  .kw .kLet, .id "field_name", .op .eq, .id "field", .op .dot, .id "ident", .op .dot, .id "as_ref",
    .op .lparen, .op .rparen, .op .dot, .id "unwrap", .op .lparen, .op .rparen, .op .semi,
  .kw .kLet, .id "field_ty", .op .eq, .op .amp, .id "field", .op .dot, .id "ty", .op .semi,
  .id "quote", .op .bang, .op .lbrace,
  .id "fields", .op .dot, .id "push", .op .lparen, .id "Field", .op .lbrace,
  .id "name", .op .colon, .id "stringify", .op .bang, .op .lparen, .op .hash, .id "field_name",
    .op .rparen, .op .comma,
  .id "size", .op .colon, .op .colon2, .id "core", .op .colon2, .id "mem", .op .colon2, .id "size_of",
    .op .colon2, .op .lt, .op .hash, .id "field_ty", .op .gt, .op .lparen, .op .rparen, .op .comma,
  .id "offset", .op .colon, .op .lparen, .op .amp, .id "zeroed", .op .dot, .op .hash, .id "field_name",
    .kw .kAs, .op .star, .kw .kConst, .id "_", .kw .kAs, .id "usize", .op .rparen,
  .op .minus, .op .lparen, .op .amp, .id "zeroed", .kw .kAs, .op .star, .kw .kConst, .id "_", .kw .kAs,
    .id "usize", .op .rparen, .op .comma,
  .op .rbrace, .op .rparen, .op .semi,
  .op .rbrace,
  .op .rbrace, .op .rparen,
  .op .dot, .id "collect", .op .lparen, .op .rparen, .op .semi,
  .id "quote", .op .bang, .op .lbrace,
  .kw .kImpl, .op .hash, .id "impl_generics", .op .hash, .id "generated_name", .op .hash,
    .id "ty_generics", .op .hash, .id "where_clause", .op .lbrace,
  .kw .kFn, .id "debug_metrics", .op .lparen, .op .rparen, .op .arrow, .id "String", .op .lbrace,
  .kw .kLet, .id "size", .op .eq, .op .colon2, .id "core", .op .colon2, .id "mem", .op .colon2,
    .id "size_of", .op .colon2, .op .lt, .kw .kSelfTy, .op .gt, .op .lparen, .op .rparen, .op .semi,
  .kw .kLet, .id "align", .op .eq, .op .lt, .kw .kSelfTy, .kw .kAs, .op .hash, .id "trait_path", .op .gt,
    .op .colon2, .id "ALIGNMENT", .op .semi,
  .kw .kLet, .id "zeroed", .op .colon, .kw .kSelfTy, .op .eq, .op .colon2, .id "crevice", .op .colon2,
    .id "internal", .op .colon2, .id "bytemuck", .op .colon2, .id "Zeroable", .op .colon2, .id "zeroed",
    .op .lparen, .op .rparen, .op .semi,
  .op .hash, .op .lbracket, .id "derive", .op .lparen, .id "Debug", .op .rparen, .op .rbracket,
  .kw .kStruct, .id "Field", .op .lbrace,
  .id "name", .op .colon, .op .amp, .lifetime "static", .id "str", .op .comma,
  .id "offset", .op .colon, .id "usize", .op .comma,
  .id "size", .op .colon, .id "usize", .op .comma,
  .op .rbrace,
  .kw .kLet, .kw .kMut, .id "fields", .op .eq, .id "Vec", .op .colon2, .id "new", .op .lparen,
    .op .rparen, .op .semi,
  .op .hash, .id "debug_fields",
  .id "format", .op .bang, .op .lparen, .str "Size {}, Align {}, fields: {:#?}", .op .comma, .id "size",
    .op .comma, .id "align", .op .comma, .id "fields", .op .rparen,
  .op .rbrace,
  .kw .kFn, .id "debug_definitions", .op .lparen, .op .rparen, .op .arrow, .op .amp, .lifetime "static",
    .id "str", .op .lbrace,
  .id "stringify", .op .bang, .op .lparen,
  .op .hash, .id "struct_definition",
  .op .hash, .id "pad_fn_impls",
  .op .rparen,
  .op .rbrace,
  .op .rbrace,
  .op .rbrace,
  .op .rbrace, .kw .kElse, .op .lbrace,
  .id "quote", .op .bang, .op .lparen, .op .rparen,
  .op .rbrace, .op .semi,
  .id "quote", .op .bang, .op .lbrace,
  .op .hash, .id "pad_fn_impls",
  .op .hash, .id "struct_definition",
  .kw .kImpl, .op .hash, .id "impl_generics", .op .hash, .id "generated_name", .op .hash,
    .id "ty_generics", .op .hash, .id "where_clause", .op .lbrace,
  .op .hash, .op .lbracket, .id "allow", .op .lparen, .id "warnings", .op .rparen, .op .rbracket,
  .kw .kPub, .kw .kFn, .id "as_bytes", .op .lparen, .op .amp, .kw .kSelf, .op .rparen, .op .arrow,
    .op .amp, .op .lbracket, .id "u8", .op .rbracket, .op .lbrace,
  .op .lt, .op .hash, .id "generated_name", .op .hash, .id "ty_generics", .kw .kAs, .op .hash,
    .id "trait_path", .op .gt, .op .colon2, .id "as_bytes", .op .lparen, .kw .kSelf, .op .rparen,
  .op .rbrace,
  .op .rbrace,
  .kw .kUnsafe, .kw .kImpl, .op .hash, .id "impl_generics", .op .colon2, .id "crevice", .op .colon2,
    .id "internal", .op .colon2, .id "bytemuck", .op .colon2, .id "Zeroable", .kw .kFor, .op .hash,
    .id "generated_name", .op .hash, .id "ty_generics", .op .hash, .id "where_clause", .op .lbrace,
    .op .rbrace,
  .kw .kUnsafe, .kw .kImpl, .op .hash, .id "impl_generics", .op .colon2, .id "crevice", .op .colon2,
    .id "internal", .op .colon2, .id "bytemuck", .op .colon2, .id "Pod", .kw .kFor, .op .hash,
    .id "generated_name", .op .hash, .id "ty_generics", .op .hash, .id "where_clause", .op .lbrace,
    .op .rbrace,
  .kw .kUnsafe, .kw .kImpl, .op .hash, .id "impl_generics", .op .hash, .id "trait_path", .kw .kFor,
    .op .hash, .id "generated_name", .op .hash, .id "ty_generics", .op .hash, .id "where_clause",
    .op .lbrace,
  .kw .kConst, .id "ALIGNMENT", .op .colon, .id "usize", .op .eq, .op .hash, .id "struct_alignment",
    .op .semi,
  .op .rbrace,
  .kw .kImpl, .op .hash, .id "impl_generics", .op .hash, .id "as_trait_path", .kw .kFor, .op .hash,
    .id "input_name", .op .hash, .id "ty_generics", .op .hash, .id "where_clause", .op .lbrace,
  .kw .kType, .id "Output", .op .eq, .op .hash, .id "generated_name", .op .semi,
  .kw .kFn, .op .hash, .id "as_trait_method", .op .lparen, .op .amp, .kw .kSelf, .op .rparen, .op .arrow,
    .kw .kSelfTy, .op .colon2, .id "Output", .op .lbrace,
  .kw .kSelfTy, .op .colon2, .id "Output", .op .lbrace,
  .op .hash, .id "generated_struct_field_init",
  .op .dot2, .op .colon2, .id "crevice", .op .colon2, .id "internal", .op .colon2, .id "bytemuck",
    .op .colon2, .id "Zeroable", .op .colon2, .id "zeroed", .op .lparen, .op .rparen,
  .op .rbrace,
  .op .rbrace,
  .kw .kFn, .op .hash, .id "from_trait_method", .op .lparen, .id "input", .op .colon, .kw .kSelfTy,
    .op .colon2, .id "Output", .op .rparen, .op .arrow, .kw .kSelfTy, .op .lbrace,
  .kw .kSelfTy, .op .lbrace,
  .op .hash, .id "input_struct_field_init",
  .op .rbrace,
  .op .rbrace,
  .op .rbrace,
  .op .hash, .id "debug_methods",
  .op .rbrace,
  .op .rbrace]

/-- `crevice-derive/src/glsl.rs:1-46`. -/
def deriveGlsl : List Tok := [
  .kw .kUse, .id "proc_macro2", .op .colon2, .op .lbrace, .id "Literal", .op .comma, .id "TokenStream",
    .op .rbrace, .op .semi,
  .kw .kUse, .id "quote", .op .colon2, .id "quote", .op .semi,
  .kw .kUse, .id "syn", .op .colon2, .op .lbrace, .id "parse_quote", .op .comma, .id "Data", .op .comma,
    .id "DeriveInput", .op .comma, .id "Fields", .op .comma, .id "Path", .op .rbrace, .op .semi,
  .kw .kPub, .kw .kFn, .id "emit", .op .lparen, .id "input", .op .colon, .id "DeriveInput", .op .rparen,
    .op .arrow, .id "TokenStream", .op .lbrace,
  .kw .kLet, .id "fields", .op .eq, .kw .kMatch, .op .amp, .id "input", .op .dot, .id "data", .op .lbrace,
  .id "Data", .op .colon2, .id "Struct", .op .lparen, .id "data", .op .rparen, .op .fatArrow, .kw .kMatch,
    .op .amp, .id "data", .op .dot, .id "fields", .op .lbrace,
  .id "Fields", .op .colon2, .id "Named", .op .lparen, .id "fields", .op .rparen, .op .fatArrow,
    .id "fields", .op .comma,
  .id "Fields", .op .colon2, .id "Unnamed", .op .lparen, .id "_", .op .rparen, .op .fatArrow, .id "panic",
    .op .bang, .op .lparen, .str "Tuple structs are not supported", .op .rparen, .op .comma,
  .id "Fields", .op .colon2, .id "Unit", .op .fatArrow, .id "panic", .op .bang, .op .lparen,
    .str "Unit structs are not supported", .op .rparen, .op .comma,
  .op .rbrace, .op .comma,
  .id "Data", .op .colon2, .id "Enum", .op .lparen, .id "_", .op .rparen, .op .bar, .id "Data",
    .op .colon2, .id "Union", .op .lparen, .id "_", .op .rparen, .op .fatArrow, .id "panic", .op .bang,
    .op .lparen, .str "Only structs are supported", .op .rparen, .op .comma,
  .op .rbrace, .op .semi,
  .kw .kLet, .id "base_trait_path", .op .colon, .id "Path", .op .eq, .id "parse_quote", .op .bang,
    .op .lparen, .op .colon2, .id "crevice", .op .colon2, .id "glsl", .op .colon2, .id "Glsl",
    .op .rparen, .op .semi,
  .kw .kLet, .id "struct_trait_path", .op .colon, .id "Path", .op .eq, .id "parse_quote", .op .bang,
    .op .lparen, .op .colon2, .id "crevice", .op .colon2, .id "glsl", .op .colon2, .id "GlslStruct",
    .op .rparen, .op .semi,
  .kw .kLet, .id "name", .op .eq, .id "input", .op .dot, .id "ident", .op .semi,
  .kw .kLet, .id "name_str", .op .eq, .id "Literal", .op .colon2, .id "string", .op .lparen, .op .amp,
    .id "name", .op .dot, .id "to_string", .op .lparen, .op .rparen, .op .rparen, .op .semi,
  .kw .kLet, .op .lparen, .id "impl_generics", .op .comma, .id "ty_generics", .op .comma,
    .id "where_clause", .op .rparen, .op .eq, .id "input", .op .dot, .id "generics", .op .dot,
    .id "split_for_impl", .op .lparen, .op .rparen, .op .semi,
  .kw .kLet, .id "glsl_fields", .op .eq, .id "fields", .op .dot, .id "named", .op .dot, .id "iter",
    .op .lparen, .op .rparen, .op .dot, .id "map", .op .lparen, .op .bar, .id "field", .op .bar,
    .op .lbrace,
  .kw .kLet, .id "field_ty", .op .eq, .op .amp, .id "field", .op .dot, .id "ty", .op .semi,
  .kw .kLet, .id "field_name_str", .op .eq, .id "Literal", .op .colon2, .id "string", .op .lparen,
    .op .amp, .id "field", .op .dot, .id "ident", .op .dot, .id "as_ref", .op .lparen, .op .rparen,
    .op .dot, .id "unwrap", .op .lparen, .op .rparen, .op .dot, .id "to_string", .op .lparen, .op .rparen,
    .op .rparen, .op .semi,
  .id "quote", .op .bang, .op .lbrace,
  .op .colon2, .id "crevice", .op .colon2, .id "glsl", .op .colon2, .id "GlslField", .op .lbrace,
  .id "ty", .op .colon, .op .lt, .op .hash, .id "field_ty", .kw .kAs, .op .colon2, .id "crevice",
    .op .colon2, .id "glsl", .op .colon2, .id "Glsl", .op .gt, .op .colon2, .id "NAME", .op .comma,
  .id "name", .op .colon, .op .hash, .id "field_name_str", .op .comma,
  .op .rbrace,
  .op .rbrace,
  .op .rbrace, .op .rparen, .op .semi,
  .id "quote", .op .bang, .op .lbrace,
  .kw .kUnsafe, .kw .kImpl, .op .hash, .id "impl_generics", .op .hash, .id "base_trait_path", .kw .kFor,
    .op .hash, .id "name", .op .hash, .id "ty_generics", .op .hash, .id "where_clause", .op .lbrace,
  .kw .kConst, .id "NAME", .op .colon, .op .amp, .lifetime "static", .id "str", .op .eq, .op .hash,
    .id "name_str", .op .semi,
  .op .rbrace,
  .kw .kUnsafe, .kw .kImpl, .op .hash, .id "impl_generics", .op .hash, .id "struct_trait_path", .kw .kFor,
    .op .hash, .id "name", .op .hash, .id "ty_generics", .op .hash, .id "where_clause", .op .lbrace,
  .kw .kConst, .id "FIELDS", .op .colon, .op .amp, .lifetime "static", .op .lbracket, .op .colon2,
    .id "crevice", .op .colon2, .id "glsl", .op .colon2, .id "GlslField", .op .rbracket, .op .eq,
    .op .amp, .op .lbracket,
  .op .hash, .op .lparen, .op .hash, .id "glsl_fields", .op .comma, .op .rparen, .op .star,
  .op .rbracket, .op .semi,
  .op .rbrace,
  .op .rbrace,
  .op .rbrace]

end RustCode.Source
