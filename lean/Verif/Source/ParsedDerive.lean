import Verif.Source.Derive
/-
Syntax trees of the source files, written by `tools/gen_parsed.py`.
-/
namespace RustCode.Parsed
set_option maxRecDepth 100000

/-- `derive_as_std140` of item 4. -/
def deriveLib4_derive_as_std140 : Fn :=
{ name := "derive_as_std140",
  generics := { types := [], consts := [], bounds := [] },
  receiver := .static,
  params := [("input", .path ["CompilerTokenStream"] [])],
  ret := .path ["CompilerTokenStream"] [],
  body := some (.block
            [.bind
               false
               "input"
               (.unit)
               (.mac
                 "parse_macro_input"
                 [.id "input",
                  .kw (.kAs),
                  .id "DeriveInput"]),
             .bind
               false
               "expanded"
               (.unit)
               (.call
                 (.path (.path ["layout", "emit"] []))
                 [.var "input",
                  .str "Std140",
                  .str "std140",
                  .num 16 ""])]
            (.call
              (.path (.path ["CompilerTokenStream", "from"] []))
              [.var "expanded"])) }

/-- `derive_as_std430` of item 5. -/
def deriveLib5_derive_as_std430 : Fn :=
{ name := "derive_as_std430",
  generics := { types := [], consts := [], bounds := [] },
  receiver := .static,
  params := [("input", .path ["CompilerTokenStream"] [])],
  ret := .path ["CompilerTokenStream"] [],
  body := some (.block
            [.bind
               false
               "input"
               (.unit)
               (.mac
                 "parse_macro_input"
                 [.id "input",
                  .kw (.kAs),
                  .id "DeriveInput"]),
             .bind
               false
               "expanded"
               (.unit)
               (.call
                 (.path (.path ["layout", "emit"] []))
                 [.var "input",
                  .str "Std430",
                  .str "std430",
                  .num 0 ""])]
            (.call
              (.path (.path ["CompilerTokenStream", "from"] []))
              [.var "expanded"])) }

/-- `derive_glsl_struct` of item 6. -/
def deriveLib6_derive_glsl_struct : Fn :=
{ name := "derive_glsl_struct",
  generics := { types := [], consts := [], bounds := [] },
  receiver := .static,
  params := [("input", .path ["CompilerTokenStream"] [])],
  ret := .path ["CompilerTokenStream"] [],
  body := some (.block
            [.bind
               false
               "input"
               (.unit)
               (.mac
                 "parse_macro_input"
                 [.id "input",
                  .kw (.kAs),
                  .id "DeriveInput"]),
             .bind
               false
               "expanded"
               (.unit)
               (.call
                 (.path (.path ["glsl", "emit"] []))
                 [.var "input"])]
            (.call
              (.path (.path ["CompilerTokenStream", "from"] []))
              [.var "expanded"])) }

/-- The items of `Source.deriveLib`. -/
def deriveLib : List Item := [
.other,
.other,
.other,
.other,
.fn deriveLib4_derive_as_std140,
.fn deriveLib5_derive_as_std430,
.fn deriveLib6_derive_glsl_struct]

/-- They are what the tokens parse to. -/
theorem parse_deriveLib : parse Source.deriveLib = some deriveLib := by rfl

/-- `emit` of item 3. -/
def deriveLayout3_emit : Fn :=
{ name := "emit",
  generics := { types := [], consts := [], bounds := [] },
  receiver := .static,
  params := [("input", .path ["DeriveInput"] []),
             ("trait_name", .ref false (.path ["str"] [])),
             ("mod_name", .ref false (.path ["str"] [])),
             ("min_struct_alignment", .path ["usize"] [])],
  ret := .path ["TokenStream"] [],
  body := some (.block
            [.bind
               false
               "mod_name"
               (.unit)
               (.call
                 (.path (.path ["Ident", "new"] []))
                 [.var "mod_name",
                  .call
                    (.path (.path ["Span", "call_site"] []))
                    []]),
             .bind
               false
               "trait_name"
               (.unit)
               (.call
                 (.path (.path ["Ident", "new"] []))
                 [.var "trait_name",
                  .call
                    (.path (.path ["Span", "call_site"] []))
                    []]),
             .bind
               false
               "mod_path"
               (.path ["Path"] [])
               (.mac
                 "parse_quote"
                 [.op (.colon2),
                  .id "crevice",
                  .op (.colon2),
                  .op (.hash),
                  .id "mod_name"]),
             .bind
               false
               "trait_path"
               (.path ["Path"] [])
               (.mac
                 "parse_quote"
                 [.op (.hash),
                  .id "mod_path",
                  .op (.colon2),
                  .op (.hash),
                  .id "trait_name"]),
             .bind
               false
               "as_trait_name"
               (.unit)
               (.mac
                 "format_ident"
                 [.str "As{}",
                  .op (.comma),
                  .id "trait_name"]),
             .bind
               false
               "as_trait_path"
               (.path ["Path"] [])
               (.mac
                 "parse_quote"
                 [.op (.hash),
                  .id "mod_path",
                  .op (.colon2),
                  .op (.hash),
                  .id "as_trait_name"]),
             .bind
               false
               "as_trait_method"
               (.unit)
               (.mac
                 "format_ident"
                 [.str "as_{}",
                  .op (.comma),
                  .id "mod_name"]),
             .bind
               false
               "from_trait_method"
               (.unit)
               (.mac
                 "format_ident"
                 [.str "from_{}",
                  .op (.comma),
                  .id "mod_name"]),
             .bind
               false
               "visibility"
               (.unit)
               (.field (.var "input") "vis"),
             .bind
               false
               "input_name"
               (.unit)
               (.field (.var "input") "ident"),
             .bindTuple
               ["impl_generics", "ty_generics", "where_clause"]
               (.method
                 (.field (.var "input") "generics")
                 "split_for_impl"
                 []),
             .bind
               false
               "generated_name"
               (.unit)
               (.mac
                 "format_ident"
                 [.str "{}{}",
                  .op (.comma),
                  .id "trait_name",
                  .op (.comma),
                  .id "input_name"]),
             .bind
               false
               "fields"
               (.path ["Vec"] [.path ["_"] []])
               (.arms
                 (.ref false (.field (.var "input") "data"))
                 [[.variant ["Data", "Struct"] "data"],
                  [.variant ["Data", "Enum"] "_",
                   .variant ["Data", "Union"] "_"]]
                 [.arms
                    (.ref
                      false
                      (.field (.var "data") "fields"))
                    [[.variant ["Fields", "Named"] "fields"],
                     [.variant ["Fields", "Unnamed"] "_"],
                     [.variant ["Fields", "Unit"] ""]]
                    [.method
                       (.method
                         (.field (.var "fields") "named")
                         "iter"
                         [])
                       "collect"
                       [],
                     .mac "panic" [.str "Tuple structs are not supported"],
                     .mac "panic" [.str "Unit structs are not supported"]],
                  .mac "panic" [.str "Only structs are supported"]]),
             .bind
               false
               "layout_version_of_ty"
               (.unit)
               (.closure
                 [.var "ty"]
                 (.block
                   []
                   (.mac
                     "quote"
                     [.op (.lt),
                      .op (.hash),
                      .id "ty",
                      .kw (.kAs),
                      .op (.hash),
                      .id "as_trait_path",
                      .op (.gt),
                      .op (.colon2),
                      .id "Output"]))),
             .bind
               false
               "layout_alignment_of_ty"
               (.unit)
               (.closure
                 [.var "ty"]
                 (.block
                   []
                   (.mac
                     "quote"
                     [.op (.lt),
                      .op (.lt),
                      .op (.hash),
                      .id "ty",
                      .kw (.kAs),
                      .op (.hash),
                      .id "as_trait_path",
                      .op (.gt),
                      .op (.colon2),
                      .id "Output",
                      .kw (.kAs),
                      .op (.hash),
                      .id "trait_path",
                      .op (.gt),
                      .op (.colon2),
                      .id "ALIGNMENT"]))),
             .bind
               false
               "field_alignments"
               (.unit)
               (.method
                 (.method (.var "fields") "iter" [])
                 "map"
                 [.closure
                    [.var "field"]
                    (.call
                      (.var "layout_alignment_of_ty")
                      [.ref
                         false
                         (.field (.var "field") "ty")])]),
             .bind
               false
               "struct_alignment"
               (.unit)
               (.mac
                 "quote"
                 [.op (.colon2),
                  .id "crevice",
                  .op (.colon2),
                  .id "internal",
                  .op (.colon2),
                  .id "max_arr",
                  .op (.lparen),
                  .op (.lbracket),
                  .op (.hash),
                  .id "min_struct_alignment",
                  .op (.comma),
                  .op (.hash),
                  .op (.lparen),
                  .op (.hash),
                  .id "field_alignments",
                  .op (.comma),
                  .op (.rparen),
                  .op (.star),
                  .op (.rbracket),
                  .op (.rparen)]),
             .bind
               false
               "pad_fns"
               (.path ["Vec"] [.path ["_"] []])
               (.method
                 (.method
                   (.range
                     (.num 0 "")
                     (.method (.var "fields") "len" []))
                   "map"
                   [.closure
                      [.var "index"]
                      (.mac
                        "format_ident"
                        [.str "_{}__{}Pad{}",
                         .op (.comma),
                         .id "input_name",
                         .op (.comma),
                         .id "trait_name",
                         .op (.comma),
                         .id "index"])])
                 "collect"
                 []),
             .bind
               false
               "offset_after_field"
               (.unit)
               (.closure
                 [.var "target"]
                 (.block
                   [.bind
                      true
                      "output"
                      (.unit)
                      (.array
                        [.mac "quote" [.num 0 "usize"]]),
                    .expr
                      (.each
                        (.var "index")
                        (.rangeIncl
                          (.num 0 "")
                          (.var "target"))
                        (.block
                          [.bind
                             false
                             "field_ty"
                             (.unit)
                             (.ref
                               false
                               (.field
                                 (.index
                                   (.var "fields")
                                   (.var "index"))
                                 "ty")),
                           .bind
                             false
                             "layout_ty"
                             (.unit)
                             (.call
                               (.var "layout_version_of_ty")
                               [.var "field_ty"]),
                           .expr
                             (.method
                               (.var "output")
                               "push"
                               [.mac
                                  "quote"
                                  [.op (.plus),
                                   .op (.colon2),
                                   .id "core",
                                   .op (.colon2),
                                   .id "mem",
                                   .op (.colon2),
                                   .id "size_of",
                                   .op (.colon2),
                                   .op (.lt),
                                   .op (.hash),
                                   .id "layout_ty",
                                   .op (.gt),
                                   .op (.lparen),
                                   .op (.rparen)]])]
                          (.cond
                            (.bin
                              (.lt)
                              (.var "index")
                              (.var "target"))
                            (.block
                              [.bind
                                 false
                                 "pad_fn"
                                 (.unit)
                                 (.ref
                                   false
                                   (.index
                                     (.var "pad_fns")
                                     (.var "index"))),
                               .expr
                                 (.method
                                   (.var "output")
                                   "push"
                                   [.mac
                                      "quote"
                                      [.op (.plus),
                                       .op (.hash),
                                       .id "pad_fn",
                                       .op (.lparen),
                                       .op (.rparen)]])]
                              (.unit))
                            (.unit))))]
                   (.turbofish
                     (.method (.var "output") "into_iter" [])
                     "collect"
                     [.path ["TokenStream"] []]
                     []))),
             .bind
               false
               "pad_fn_impls"
               (.path ["TokenStream"] [])
               (.method
                 (.method
                   (.method
                     (.method (.var "pad_fns") "iter" [])
                     "enumerate"
                     [])
                   "map"
                   [.closure
                      [.tuple ["index", "pad_fn"]]
                      (.block
                        [.bind
                           false
                           "starting_offset"
                           (.unit)
                           (.call
                             (.var "offset_after_field")
                             [.var "index"]),
                         .bind
                           false
                           "next_field_or_self_alignment"
                           (.unit)
                           (.method
                             (.method
                               (.method
                                 (.var "fields")
                                 "get"
                                 [.bin
                                    (.add)
                                    (.var "index")
                                    (.num 1 "")])
                               "map"
                               [.closure
                                  [.var "next_field"]
                                  (.call
                                    (.var "layout_alignment_of_ty")
                                    [.ref
                                       false
                                       (.field
                                         (.var "next_field")
                                         "ty")])])
                             "unwrap_or"
                             [.mac
                                "quote"
                                [.op (.hash),
                                 .id "struct_alignment"]])]
                        (.mac
                          "quote"
                          [.op (.hash),
                           .op (.lbracket),
                           .id "doc",
                           .op (.eq),
                           .str
                             " Tells how many bytes of padding have to be inserted after",
                           .op (.rbracket),
                           .op (.hash),
                           .op (.lbracket),
                           .id "doc",
                           .op (.eq),
                           .str " the field with index #index.",
                           .op (.rbracket),
                           .op (.hash),
                           .op (.lbracket),
                           .id "allow",
                           .op (.lparen),
                           .id "non_snake_case",
                           .op (.rparen),
                           .op (.rbracket),
                           .kw (.kConst),
                           .kw (.kFn),
                           .op (.hash),
                           .id "pad_fn",
                           .op (.lparen),
                           .op (.rparen),
                           .op (.arrow),
                           .id "usize",
                           .op (.lbrace),
                           .kw (.kLet),
                           .id "starting_offset",
                           .op (.eq),
                           .op (.hash),
                           .id "starting_offset",
                           .op (.semi),
                           .kw (.kLet),
                           .id "alignment",
                           .op (.eq),
                           .op (.hash),
                           .id "next_field_or_self_alignment",
                           .op (.semi),
                           .op (.colon2),
                           .id "crevice",
                           .op (.colon2),
                           .id "internal",
                           .op (.colon2),
                           .id "align_offset",
                           .op (.lparen),
                           .id "starting_offset",
                           .op (.comma),
                           .id "alignment",
                           .op (.rparen),
                           .op (.rbrace)]))])
                 "collect"
                 []),
             .bind
               false
               "generated_struct_fields"
               (.path ["TokenStream"] [])
               (.method
                 (.method
                   (.method
                     (.method (.var "fields") "iter" [])
                     "enumerate"
                     [])
                   "map"
                   [.closure
                      [.tuple ["index", "field"]]
                      (.block
                        [.bind
                           false
                           "field_name"
                           (.unit)
                           (.method
                             (.method
                               (.field (.var "field") "ident")
                               "as_ref"
                               [])
                             "unwrap"
                             []),
                         .bind
                           false
                           "field_ty"
                           (.unit)
                           (.call
                             (.var "layout_version_of_ty")
                             [.ref
                                false
                                (.field (.var "field") "ty")]),
                         .bind
                           false
                           "pad_field_name"
                           (.unit)
                           (.mac
                             "format_ident"
                             [.str "_pad{}",
                              .op (.comma),
                              .id "index"]),
                         .bind
                           false
                           "pad_fn"
                           (.unit)
                           (.ref
                             false
                             (.index
                               (.var "pad_fns")
                               (.var "index")))]
                        (.mac
                          "quote"
                          [.op (.hash),
                           .id "field_name",
                           .op (.colon),
                           .op (.hash),
                           .id "field_ty",
                           .op (.comma),
                           .op (.hash),
                           .id "pad_field_name",
                           .op (.colon),
                           .op (.lbracket),
                           .id "u8",
                           .op (.semi),
                           .op (.hash),
                           .id "pad_fn",
                           .op (.lparen),
                           .op (.rparen),
                           .op (.rbracket),
                           .op (.comma)]))])
                 "collect"
                 []),
             .bind
               false
               "generated_struct_field_init"
               (.path ["TokenStream"] [])
               (.method
                 (.method
                   (.method (.var "fields") "iter" [])
                   "map"
                   [.closure
                      [.var "field"]
                      (.block
                        [.bind
                           false
                           "field_name"
                           (.unit)
                           (.method
                             (.method
                               (.field (.var "field") "ident")
                               "as_ref"
                               [])
                             "unwrap"
                             [])]
                        (.mac
                          "quote"
                          [.op (.hash),
                           .id "field_name",
                           .op (.colon),
                           .kw (.kSelf),
                           .op (.dot),
                           .op (.hash),
                           .id "field_name",
                           .op (.dot),
                           .op (.hash),
                           .id "as_trait_method",
                           .op (.lparen),
                           .op (.rparen),
                           .op (.comma)]))])
                 "collect"
                 []),
             .bind
               false
               "input_struct_field_init"
               (.path ["TokenStream"] [])
               (.method
                 (.method
                   (.method (.var "fields") "iter" [])
                   "map"
                   [.closure
                      [.var "field"]
                      (.block
                        [.bind
                           false
                           "field_name"
                           (.unit)
                           (.method
                             (.method
                               (.field (.var "field") "ident")
                               "as_ref"
                               [])
                             "unwrap"
                             [])]
                        (.mac
                          "quote"
                          [.op (.hash),
                           .id "field_name",
                           .op (.colon),
                           .op (.hash),
                           .id "as_trait_path",
                           .op (.colon2),
                           .op (.hash),
                           .id "from_trait_method",
                           .op (.lparen),
                           .id "input",
                           .op (.dot),
                           .op (.hash),
                           .id "field_name",
                           .op (.rparen),
                           .op (.comma)]))])
                 "collect"
                 []),
             .bind
               false
               "struct_definition"
               (.unit)
               (.mac
                 "quote"
                 [.op (.hash),
                  .op (.lbracket),
                  .id "derive",
                  .op (.lparen),
                  .id "Debug",
                  .op (.comma),
                  .id "Clone",
                  .op (.comma),
                  .id "Copy",
                  .op (.rparen),
                  .op (.rbracket),
                  .op (.hash),
                  .op (.lbracket),
                  .id "repr",
                  .op (.lparen),
                  .id "C",
                  .op (.rparen),
                  .op (.rbracket),
                  .op (.hash),
                  .op (.lbracket),
                  .id "doc",
                  .op (.lparen),
                  .id "hidden",
                  .op (.rparen),
                  .op (.rbracket),
                  .op (.hash),
                  .op (.lbracket),
                  .id "allow",
                  .op (.lparen),
                  .id "warnings",
                  .op (.rparen),
                  .op (.rbracket),
                  .op (.hash),
                  .id "visibility",
                  .kw (.kStruct),
                  .op (.hash),
                  .id "generated_name",
                  .op (.hash),
                  .id "ty_generics",
                  .op (.hash),
                  .id "where_clause",
                  .op (.lbrace),
                  .op (.hash),
                  .id "generated_struct_fields",
                  .op (.rbrace)]),
             .bind
               false
               "debug_methods"
               (.unit)
               (.cond
                 (.mac
                   "cfg"
                   [.id "feature",
                    .op (.eq),
                    .str "debug-methods"])
                 (.block
                   [.bind
                      false
                      "debug_fields"
                      (.path ["TokenStream"] [])
                      (.method
                        (.method
                          (.method (.var "fields") "iter" [])
                          "map"
                          [.closure
                             [.var "field"]
                             (.block
                               [.bind
                                  false
                                  "field_name"
                                  (.unit)
                                  (.method
                                    (.method
                                      (.field (.var "field") "ident")
                                      "as_ref"
                                      [])
                                    "unwrap"
                                    []),
                                .bind
                                  false
                                  "field_ty"
                                  (.unit)
                                  (.ref
                                    false
                                    (.field (.var "field") "ty"))]
                               (.mac
                                 "quote"
                                 [.id "fields",
                                  .op (.dot),
                                  .id "push",
                                  .op (.lparen),
                                  .id "Field",
                                  .op (.lbrace),
                                  .id "name",
                                  .op (.colon),
                                  .id "stringify",
                                  .op (.bang),
                                  .op (.lparen),
                                  .op (.hash),
                                  .id "field_name",
                                  .op (.rparen),
                                  .op (.comma),
                                  .id "size",
                                  .op (.colon),
                                  .op (.colon2),
                                  .id "core",
                                  .op (.colon2),
                                  .id "mem",
                                  .op (.colon2),
                                  .id "size_of",
                                  .op (.colon2),
                                  .op (.lt),
                                  .op (.hash),
                                  .id "field_ty",
                                  .op (.gt),
                                  .op (.lparen),
                                  .op (.rparen),
                                  .op (.comma),
                                  .id "offset",
                                  .op (.colon),
                                  .op (.lparen),
                                  .op (.amp),
                                  .id "zeroed",
                                  .op (.dot),
                                  .op (.hash),
                                  .id "field_name",
                                  .kw (.kAs),
                                  .op (.star),
                                  .kw (.kConst),
                                  .id "_",
                                  .kw (.kAs),
                                  .id "usize",
                                  .op (.rparen),
                                  .op (.minus),
                                  .op (.lparen),
                                  .op (.amp),
                                  .id "zeroed",
                                  .kw (.kAs),
                                  .op (.star),
                                  .kw (.kConst),
                                  .id "_",
                                  .kw (.kAs),
                                  .id "usize",
                                  .op (.rparen),
                                  .op (.comma),
                                  .op (.rbrace),
                                  .op (.rparen),
                                  .op (.semi)]))])
                        "collect"
                        [])]
                   (.mac
                     "quote"
                     [.kw (.kImpl),
                      .op (.hash),
                      .id "impl_generics",
                      .op (.hash),
                      .id "generated_name",
                      .op (.hash),
                      .id "ty_generics",
                      .op (.hash),
                      .id "where_clause",
                      .op (.lbrace),
                      .kw (.kFn),
                      .id "debug_metrics",
                      .op (.lparen),
                      .op (.rparen),
                      .op (.arrow),
                      .id "String",
                      .op (.lbrace),
                      .kw (.kLet),
                      .id "size",
                      .op (.eq),
                      .op (.colon2),
                      .id "core",
                      .op (.colon2),
                      .id "mem",
                      .op (.colon2),
                      .id "size_of",
                      .op (.colon2),
                      .op (.lt),
                      .kw (.kSelfTy),
                      .op (.gt),
                      .op (.lparen),
                      .op (.rparen),
                      .op (.semi),
                      .kw (.kLet),
                      .id "align",
                      .op (.eq),
                      .op (.lt),
                      .kw (.kSelfTy),
                      .kw (.kAs),
                      .op (.hash),
                      .id "trait_path",
                      .op (.gt),
                      .op (.colon2),
                      .id "ALIGNMENT",
                      .op (.semi),
                      .kw (.kLet),
                      .id "zeroed",
                      .op (.colon),
                      .kw (.kSelfTy),
                      .op (.eq),
                      .op (.colon2),
                      .id "crevice",
                      .op (.colon2),
                      .id "internal",
                      .op (.colon2),
                      .id "bytemuck",
                      .op (.colon2),
                      .id "Zeroable",
                      .op (.colon2),
                      .id "zeroed",
                      .op (.lparen),
                      .op (.rparen),
                      .op (.semi),
                      .op (.hash),
                      .op (.lbracket),
                      .id "derive",
                      .op (.lparen),
                      .id "Debug",
                      .op (.rparen),
                      .op (.rbracket),
                      .kw (.kStruct),
                      .id "Field",
                      .op (.lbrace),
                      .id "name",
                      .op (.colon),
                      .op (.amp),
                      .lifetime "static",
                      .id "str",
                      .op (.comma),
                      .id "offset",
                      .op (.colon),
                      .id "usize",
                      .op (.comma),
                      .id "size",
                      .op (.colon),
                      .id "usize",
                      .op (.comma),
                      .op (.rbrace),
                      .kw (.kLet),
                      .kw (.kMut),
                      .id "fields",
                      .op (.eq),
                      .id "Vec",
                      .op (.colon2),
                      .id "new",
                      .op (.lparen),
                      .op (.rparen),
                      .op (.semi),
                      .op (.hash),
                      .id "debug_fields",
                      .id "format",
                      .op (.bang),
                      .op (.lparen),
                      .str "Size {}, Align {}, fields: {:#?}",
                      .op (.comma),
                      .id "size",
                      .op (.comma),
                      .id "align",
                      .op (.comma),
                      .id "fields",
                      .op (.rparen),
                      .op (.rbrace),
                      .kw (.kFn),
                      .id "debug_definitions",
                      .op (.lparen),
                      .op (.rparen),
                      .op (.arrow),
                      .op (.amp),
                      .lifetime "static",
                      .id "str",
                      .op (.lbrace),
                      .id "stringify",
                      .op (.bang),
                      .op (.lparen),
                      .op (.hash),
                      .id "struct_definition",
                      .op (.hash),
                      .id "pad_fn_impls",
                      .op (.rparen),
                      .op (.rbrace),
                      .op (.rbrace)]))
                 (.block [] (.mac "quote" [])))]
            (.mac
              "quote"
              [.op (.hash),
               .id "pad_fn_impls",
               .op (.hash),
               .id "struct_definition",
               .kw (.kImpl),
               .op (.hash),
               .id "impl_generics",
               .op (.hash),
               .id "generated_name",
               .op (.hash),
               .id "ty_generics",
               .op (.hash),
               .id "where_clause",
               .op (.lbrace),
               .op (.hash),
               .op (.lbracket),
               .id "allow",
               .op (.lparen),
               .id "warnings",
               .op (.rparen),
               .op (.rbracket),
               .kw (.kPub),
               .kw (.kFn),
               .id "as_bytes",
               .op (.lparen),
               .op (.amp),
               .kw (.kSelf),
               .op (.rparen),
               .op (.arrow),
               .op (.amp),
               .op (.lbracket),
               .id "u8",
               .op (.rbracket),
               .op (.lbrace),
               .op (.lt),
               .op (.hash),
               .id "generated_name",
               .op (.hash),
               .id "ty_generics",
               .kw (.kAs),
               .op (.hash),
               .id "trait_path",
               .op (.gt),
               .op (.colon2),
               .id "as_bytes",
               .op (.lparen),
               .kw (.kSelf),
               .op (.rparen),
               .op (.rbrace),
               .op (.rbrace),
               .kw (.kUnsafe),
               .kw (.kImpl),
               .op (.hash),
               .id "impl_generics",
               .op (.colon2),
               .id "crevice",
               .op (.colon2),
               .id "internal",
               .op (.colon2),
               .id "bytemuck",
               .op (.colon2),
               .id "Zeroable",
               .kw (.kFor),
               .op (.hash),
               .id "generated_name",
               .op (.hash),
               .id "ty_generics",
               .op (.hash),
               .id "where_clause",
               .op (.lbrace),
               .op (.rbrace),
               .kw (.kUnsafe),
               .kw (.kImpl),
               .op (.hash),
               .id "impl_generics",
               .op (.colon2),
               .id "crevice",
               .op (.colon2),
               .id "internal",
               .op (.colon2),
               .id "bytemuck",
               .op (.colon2),
               .id "Pod",
               .kw (.kFor),
               .op (.hash),
               .id "generated_name",
               .op (.hash),
               .id "ty_generics",
               .op (.hash),
               .id "where_clause",
               .op (.lbrace),
               .op (.rbrace),
               .kw (.kUnsafe),
               .kw (.kImpl),
               .op (.hash),
               .id "impl_generics",
               .op (.hash),
               .id "trait_path",
               .kw (.kFor),
               .op (.hash),
               .id "generated_name",
               .op (.hash),
               .id "ty_generics",
               .op (.hash),
               .id "where_clause",
               .op (.lbrace),
               .kw (.kConst),
               .id "ALIGNMENT",
               .op (.colon),
               .id "usize",
               .op (.eq),
               .op (.hash),
               .id "struct_alignment",
               .op (.semi),
               .op (.rbrace),
               .kw (.kImpl),
               .op (.hash),
               .id "impl_generics",
               .op (.hash),
               .id "as_trait_path",
               .kw (.kFor),
               .op (.hash),
               .id "input_name",
               .op (.hash),
               .id "ty_generics",
               .op (.hash),
               .id "where_clause",
               .op (.lbrace),
               .kw (.kType),
               .id "Output",
               .op (.eq),
               .op (.hash),
               .id "generated_name",
               .op (.semi),
               .kw (.kFn),
               .op (.hash),
               .id "as_trait_method",
               .op (.lparen),
               .op (.amp),
               .kw (.kSelf),
               .op (.rparen),
               .op (.arrow),
               .kw (.kSelfTy),
               .op (.colon2),
               .id "Output",
               .op (.lbrace),
               .kw (.kSelfTy),
               .op (.colon2),
               .id "Output",
               .op (.lbrace),
               .op (.hash),
               .id "generated_struct_field_init",
               .op (.dot2),
               .op (.colon2),
               .id "crevice",
               .op (.colon2),
               .id "internal",
               .op (.colon2),
               .id "bytemuck",
               .op (.colon2),
               .id "Zeroable",
               .op (.colon2),
               .id "zeroed",
               .op (.lparen),
               .op (.rparen),
               .op (.rbrace),
               .op (.rbrace),
               .kw (.kFn),
               .op (.hash),
               .id "from_trait_method",
               .op (.lparen),
               .id "input",
               .op (.colon),
               .kw (.kSelfTy),
               .op (.colon2),
               .id "Output",
               .op (.rparen),
               .op (.arrow),
               .kw (.kSelfTy),
               .op (.lbrace),
               .kw (.kSelfTy),
               .op (.lbrace),
               .op (.hash),
               .id "input_struct_field_init",
               .op (.rbrace),
               .op (.rbrace),
               .op (.rbrace),
               .op (.hash),
               .id "debug_methods"])) }

/-- The items of `Source.deriveLayout`. -/
def deriveLayout : List Item := [
.other,
.other,
.other,
.fn deriveLayout3_emit]

/-- They are what the tokens parse to. -/
theorem parse_deriveLayout : parse Source.deriveLayout = some deriveLayout := by rfl

/-- `emit` of item 3. -/
def deriveGlsl3_emit : Fn :=
{ name := "emit",
  generics := { types := [], consts := [], bounds := [] },
  receiver := .static,
  params := [("input", .path ["DeriveInput"] [])],
  ret := .path ["TokenStream"] [],
  body := some (.block
            [.bind
               false
               "fields"
               (.unit)
               (.arms
                 (.ref false (.field (.var "input") "data"))
                 [[.variant ["Data", "Struct"] "data"],
                  [.variant ["Data", "Enum"] "_",
                   .variant ["Data", "Union"] "_"]]
                 [.arms
                    (.ref
                      false
                      (.field (.var "data") "fields"))
                    [[.variant ["Fields", "Named"] "fields"],
                     [.variant ["Fields", "Unnamed"] "_"],
                     [.variant ["Fields", "Unit"] ""]]
                    [.var "fields",
                     .mac "panic" [.str "Tuple structs are not supported"],
                     .mac "panic" [.str "Unit structs are not supported"]],
                  .mac "panic" [.str "Only structs are supported"]]),
             .bind
               false
               "base_trait_path"
               (.path ["Path"] [])
               (.mac
                 "parse_quote"
                 [.op (.colon2),
                  .id "crevice",
                  .op (.colon2),
                  .id "glsl",
                  .op (.colon2),
                  .id "Glsl"]),
             .bind
               false
               "struct_trait_path"
               (.path ["Path"] [])
               (.mac
                 "parse_quote"
                 [.op (.colon2),
                  .id "crevice",
                  .op (.colon2),
                  .id "glsl",
                  .op (.colon2),
                  .id "GlslStruct"]),
             .bind
               false
               "name"
               (.unit)
               (.field (.var "input") "ident"),
             .bind
               false
               "name_str"
               (.unit)
               (.call
                 (.path (.path ["Literal", "string"] []))
                 [.ref
                    false
                    (.method (.var "name") "to_string" [])]),
             .bindTuple
               ["impl_generics", "ty_generics", "where_clause"]
               (.method
                 (.field (.var "input") "generics")
                 "split_for_impl"
                 []),
             .bind
               false
               "glsl_fields"
               (.unit)
               (.method
                 (.method
                   (.field (.var "fields") "named")
                   "iter"
                   [])
                 "map"
                 [.closure
                    [.var "field"]
                    (.block
                      [.bind
                         false
                         "field_ty"
                         (.unit)
                         (.ref
                           false
                           (.field (.var "field") "ty")),
                       .bind
                         false
                         "field_name_str"
                         (.unit)
                         (.call
                           (.path (.path ["Literal", "string"] []))
                           [.ref
                              false
                              (.method
                                (.method
                                  (.method
                                    (.field (.var "field") "ident")
                                    "as_ref"
                                    [])
                                  "unwrap"
                                  [])
                                "to_string"
                                [])])]
                      (.mac
                        "quote"
                        [.op (.colon2),
                         .id "crevice",
                         .op (.colon2),
                         .id "glsl",
                         .op (.colon2),
                         .id "GlslField",
                         .op (.lbrace),
                         .id "ty",
                         .op (.colon),
                         .op (.lt),
                         .op (.hash),
                         .id "field_ty",
                         .kw (.kAs),
                         .op (.colon2),
                         .id "crevice",
                         .op (.colon2),
                         .id "glsl",
                         .op (.colon2),
                         .id "Glsl",
                         .op (.gt),
                         .op (.colon2),
                         .id "NAME",
                         .op (.comma),
                         .id "name",
                         .op (.colon),
                         .op (.hash),
                         .id "field_name_str",
                         .op (.comma),
                         .op (.rbrace)]))])]
            (.mac
              "quote"
              [.kw (.kUnsafe),
               .kw (.kImpl),
               .op (.hash),
               .id "impl_generics",
               .op (.hash),
               .id "base_trait_path",
               .kw (.kFor),
               .op (.hash),
               .id "name",
               .op (.hash),
               .id "ty_generics",
               .op (.hash),
               .id "where_clause",
               .op (.lbrace),
               .kw (.kConst),
               .id "NAME",
               .op (.colon),
               .op (.amp),
               .lifetime "static",
               .id "str",
               .op (.eq),
               .op (.hash),
               .id "name_str",
               .op (.semi),
               .op (.rbrace),
               .kw (.kUnsafe),
               .kw (.kImpl),
               .op (.hash),
               .id "impl_generics",
               .op (.hash),
               .id "struct_trait_path",
               .kw (.kFor),
               .op (.hash),
               .id "name",
               .op (.hash),
               .id "ty_generics",
               .op (.hash),
               .id "where_clause",
               .op (.lbrace),
               .kw (.kConst),
               .id "FIELDS",
               .op (.colon),
               .op (.amp),
               .lifetime "static",
               .op (.lbracket),
               .op (.colon2),
               .id "crevice",
               .op (.colon2),
               .id "glsl",
               .op (.colon2),
               .id "GlslField",
               .op (.rbracket),
               .op (.eq),
               .op (.amp),
               .op (.lbracket),
               .op (.hash),
               .op (.lparen),
               .op (.hash),
               .id "glsl_fields",
               .op (.comma),
               .op (.rparen),
               .op (.star),
               .op (.rbracket),
               .op (.semi),
               .op (.rbrace)])) }

/-- The items of `Source.deriveGlsl`. -/
def deriveGlsl : List Item := [
.other,
.other,
.other,
.fn deriveGlsl3_emit]

/-- They are what the tokens parse to. -/
theorem parse_deriveGlsl : parse Source.deriveGlsl = some deriveGlsl := by rfl

end RustCode.Parsed
