{
 "claims": [
  {
   "property": "C01",
   "status": "proved",
   "theorems": [
    "Crevice.C01_padding",
    "Crevice.C01_padding_unique"
   ],
   "note": ""
  },
  {
   "property": "C02",
   "status": "proved",
   "theorems": [
    "Crevice.C02_derive",
    "Crevice.C02_struct_alignment"
   ],
   "note": ""
  },
  {
   "property": "C03",
   "status": "proved",
   "theorems": [
    "Crevice.C03_derive",
    "Crevice.C03_placement",
    "Crevice.C03_disjoint"
   ],
   "note": ""
  },
  {
   "property": "C04",
   "status": "proved",
   "theorems": [
    "Crevice.C04_std140",
    "Crevice.C04_C05_counterpart"
   ],
   "note": "C04_C05_counterpart: every accepted type without layout types in its fields has a GLSL counterpart, so the correspondence is not vacuous."
  },
  {
   "property": "C05",
   "status": "proved",
   "theorems": [
    "Crevice.C05_std430",
    "Crevice.C04_C05_counterpart"
   ],
   "note": ""
  },
  {
   "property": "C06",
   "status": "proved",
   "theorems": [
    "Crevice.C06_shader_reads_value",
    "Crevice.C06_view_determines_value"
   ],
   "note": ""
  },
  {
   "property": "C07",
   "status": "proved",
   "theorems": [
    "Crevice.C07_no_uninit"
   ],
   "note": ""
  },
  {
   "property": "C08",
   "status": "proved",
   "theorems": [
    "Crevice.C08_pod",
    "Crevice.C08_length",
    "Crevice.C08_zeroed"
   ],
   "note": ""
  },
  {
   "property": "C09",
   "status": "proved",
   "theorems": [
    "Crevice.C09_padding_zero",
    "Crevice.C09_exception"
   ],
   "note": "C09_exception: a field whose declared type already is a layout type (e.g. std140::Mat3) keeps its public padding."
  },
  {
   "property": "C10",
   "status": "proved",
   "theorems": [
    "Crevice.C10_round_trip"
   ],
   "note": ""
  },
  {
   "property": "C11",
   "status": "proved",
   "theorems": [
    "Crevice.C11_byte_round_trip",
    "Crevice.C11_injective"
   ],
   "note": ""
  },
  {
   "property": "C12",
   "status": "proved",
   "theorems": [
    "Crevice.C12_read_back",
    "Crevice.C12_padding_ignored",
    "Crevice.C12_padding_ignored_view"
   ],
   "note": "C12_read_back and C12_padding_ignored_view assume in addition that hand-written conversions lose nothing (ForeignEnv.Exact); C12_padding_ignored does not."
  },
  {
   "property": "C13",
   "status": "proved",
   "theorems": [
    "Crevice.C13_pow2",
    "Crevice.C13_exception"
   ],
   "note": "C13_exception: the property is false of the code for an empty std430 struct (ALIGNMENT 0); C13_pow2 assumes the struct contains no empty struct in std430."
  },
  {
   "property": "C14",
   "status": "proved",
   "theorems": [
    "Crevice.C14_hereditary",
    "Crevice.C14_size",
    "Crevice.C14_array"
   ],
   "note": ""
  },
  {
   "property": "C15",
   "status": "proved",
   "theorems": [
    "Crevice.C15_sizes_agree",
    "Crevice.C15_fresh_writer"
   ],
   "note": ""
  },
  {
   "property": "C16",
   "status": "proved",
   "theorems": [
    "Crevice.C16_std430_le_std140",
    "Crevice.C16_factor"
   ],
   "note": ""
  },
  {
   "property": "C17",
   "status": "proved",
   "theorems": [
    "Crevice.C17_write_std",
    "Crevice.C17_write",
    "Crevice.C17_succeeds"
   ],
   "note": ""
  },
  {
   "property": "C18",
   "status": "proved",
   "theorems": [
    "Crevice.C18_history",
    "Crevice.C18_history_general"
   ],
   "note": ""
  },
  {
   "property": "C19",
   "status": "proved",
   "theorems": [
    "Crevice.C19_sizer_predicts_writer",
    "Crevice.C19_sizer_placement"
   ],
   "note": ""
  },
  {
   "property": "C20",
   "status": "proved",
   "theorems": [
    "Crevice.C20_iter_eq_slice",
    "Crevice.C20_elementwise",
    "Crevice.C20_each_once",
    "Crevice.C20_append"
   ],
   "note": ""
  },
  {
   "property": "C21",
   "status": "proved",
   "theorems": [
    "Crevice.C21_constant_stride",
    "Crevice.C21_std430",
    "Crevice.C21_std140_iff",
    "Crevice.C21_std140_struct",
    "Crevice.C21_exception"
   ],
   "note": "C21_exception: the property is false of the code for std140 slices of 4- and 8-byte aligned elements; C21_std140_iff says exactly when it holds."
  },
  {
   "property": "C22",
   "status": "proved",
   "theorems": [
    "Crevice.C22_block",
    "Crevice.C22_header_then_structs",
    "Crevice.C22_exception"
   ],
   "note": "C22_exception: a member after an array of small std140 elements is not where GLSL puts it; C22_block states the side conditions."
  },
  {
   "property": "C23",
   "status": "proved",
   "theorems": [
    "Crevice.C23_fieldwise",
    "Crevice.C23_fields_exist"
   ],
   "note": ""
  },
  {
   "property": "C24",
   "status": "proved",
   "theorems": [
    "Crevice.C24_error",
    "Crevice.C24_len",
    "Crevice.C24_len_fresh",
    "Crevice.C24_retry_misaligns",
    "Crevice.C24_reports"
   ],
   "note": "C24_retry_misaligns: after an error the Writer may not be reused."
  },
  {
   "property": "C25",
   "status": "proved",
   "theorems": [
    "Crevice.C25_general",
    "Crevice.C25_fixed_buffer"
   ],
   "note": ""
  },
  {
   "property": "C26",
   "status": "proved",
   "theorems": [
    "Crevice.C26_exists",
    "Crevice.C26_dynamic",
    "Crevice.C26_write"
   ],
   "note": ""
  },
  {
   "property": "C27",
   "status": "proved",
   "theorems": [
    "Crevice.C27_bool_word",
    "Crevice.C27_nonzero_is_true",
    "Crevice.C27_round_trips"
   ],
   "note": ""
  },
  {
   "property": "C28",
   "status": "proved",
   "theorems": [
    "Crevice.C28_parses",
    "Crevice.C28_injective",
    "Crevice.C28_valid_iff",
    "Crevice.C28_exists",
    "Crevice.C28_exception",
    "Crevice.C28_no_bool"
   ],
   "note": "C28_exception: Rust identifiers that are no GLSL identifiers (raw identifiers, GLSL keywords) and empty structs give text that does not parse; C28_no_bool: bool and DynamicUniform have no Glsl impl, so structs with such fields have no definition."
  },
  {
   "property": "C29",
   "status": "proved",
   "theorems": [
    "Crevice.C29_text",
    "Crevice.C29_bytes"
   ],
   "note": "Quantifies over struct trees for which glsl_definition exists for every struct (C28_exists)."
  },
  {
   "property": "C30",
   "status": "proved",
   "theorems": [
    "Crevice.C30_macro",
    "Crevice.C30_macro_glsl",
    "Crevice.C30_derives_agree",
    "Crevice.C30_no_recursion",
    "Crevice.C30_terminates",
    "Crevice.C30_compiles",
    "Crevice.C30_generics",
    "Crevice.C30_convertible",
    "Crevice.C30_reserved_name",
    "Crevice.C30_no_dynamic_field"
   ],
   "note": "C30_reserved_name: a field called _pad<i> is rejected. C30_no_dynamic_field: a field whose Output is a DynamicUniformStd140 is rejected (no Debug). C30_generics: a struct with generic parameters expands but is never accepted (Output is written without the arguments)."
  },
  {
   "property": "C31",
   "status": "proved",
   "theorems": [
    "Crevice.C31_items_distinct",
    "Crevice.C31_fields_distinct",
    "Crevice.C31_user_collision"
   ],
   "note": "C31_user_collision: a user item that is itself called Std140Foo collides, which the property does not exclude."
  },
  {
   "property": "C32",
   "status": "proved",
   "theorems": [
    "Crevice.C32_same_bytes",
    "Crevice.C32_same_impl",
    "Crevice.C32_glsl_name"
   ],
   "note": "Assumes that glam/nalgebra conversions into mint preserve components (ForeignEnv.Lawful)."
  },
  {
   "property": "C33",
   "status": "proved",
   "theorems": [
    "Crevice.C33_align_offset",
    "Crevice.C33_max",
    "Crevice.C33_max_arr",
    "Crevice.C33_writer_checked",
    "Crevice.C33_writer_unchecked",
    "Crevice.C33_writer_wrapping",
    "Crevice.C33_alignments",
    "Crevice.C33_items",
    "Crevice.C33_sizer_checked",
    "Crevice.C33_sizer_wrapping",
    "Crevice.C33_consts",
    "Crevice.C33_size"
   ],
   "note": "Machine-word versions of align_offset, max, max_arr, Sizer, Writer and the derive's const functions against the Nat model."
  },
  {
   "property": "C34",
   "status": "proved",
   "theorems": [
    "Crevice.C34_size_is_len",
    "Crevice.C34_size_anywhere"
   ],
   "note": ""
  },
  {
   "property": "C35",
   "status": "proved",
   "theorems": [
    "Crevice.C35_identity",
    "Crevice.C35_write"
   ],
   "note": ""
  },
  {
   "property": "C36",
   "status": "proved",
   "theorems": [
    "Crevice.C36_nesting",
    "Crevice.C36_any_depth"
   ],
   "note": ""
  },
  {
   "property": "C37",
   "status": "proved",
   "theorems": [
    "Crevice.C37_prefix",
    "Crevice.C37_rename_layout",
    "Crevice.C37_rename_offsets",
    "Crevice.C37_rename_bytes",
    "Crevice.C37_rename_any_depth"
   ],
   "note": ""
  },
  {
   "property": "C38",
   "status": "proved",
   "theorems": [
    "Crevice.C38_normalise"
   ],
   "note": "C38_normalise assumes that hand-written conversions lose nothing (ForeignEnv.Exact)."
  },
  {
   "property": "C39",
   "status": "proved",
   "theorems": [
    "Crevice.C39_sink_independent"
   ],
   "note": ""
  },
  {
   "property": "C40",
   "status": "proved",
   "theorems": [
    "Crevice.C40_metrics",
    "Crevice.C40_exists",
    "Crevice.C40_empty_exception",
    "Crevice.C40_glsl_offsets",
    "Crevice.C40_field_size_exception",
    "Crevice.C40_shadowed_exception",
    "Crevice.C40_text_injective"
   ],
   "note": "C40_field_size_exception: the reported per-field size is that of the declared Rust type. C40_shadowed_exception: for a user type called Field it is the size of debug_metrics' own local struct. C40_empty_exception: with the feature a struct without fields does not compile."
  },
  {
   "property": "C41",
   "status": "proved",
   "theorems": [
    "Crevice.C41_read_back",
    "Crevice.C41_slice_read_back"
   ],
   "note": ""
  },
  {
   "property": "C42",
   "status": "proved",
   "theorems": [
    "Crevice.C42_align_of",
    "Crevice.C42_cast_in_place"
   ],
   "note": ""
  },
  {
   "property": "C43",
   "status": "proved",
   "theorems": [
    "Crevice.C43_bound",
    "Crevice.C43_any_base"
   ],
   "note": ""
  },
  {
   "property": "C44",
   "status": "proved",
   "theorems": [
    "Crevice.C44_layout",
    "Crevice.C44_bytes",
    "Crevice.C44_byte_order"
   ],
   "note": ""
  },
  {
   "property": "C45",
   "status": "proved",
   "theorems": [
    "Crevice.C45_coincide",
    "Crevice.C45_narrow_struct"
   ],
   "note": ""
  },
  {
   "property": "C46",
   "status": "proved",
   "theorems": [
    "Crevice.C46_derive",
    "Crevice.C46_writer",
    "Crevice.C46_overhead",
    "Crevice.C46_writer_overhead"
   ],
   "note": ""
  },
  {
   "property": "C47",
   "status": "proved",
   "theorems": [
    "Crevice.C47_any_implementation",
    "Crevice.C47_propagating",
    "Crevice.C47_std_size",
    "Crevice.C47_instances",
    "Crevice.C47_relocatable",
    "Crevice.C47_closed"
   ],
   "note": ""
  },
  {
   "property": "C48",
   "status": "proved",
   "theorems": [
    "Crevice.C48_layout",
    "Crevice.C48_bytes",
    "Crevice.C48_conversions_irrelevant"
   ],
   "note": "The implementations covered are those that go through another convertible type (possibly a layout type); an implementation with a hand-written `unsafe impl StdN` for its own Output is the subject of C58."
  },
  {
   "property": "C49",
   "status": "proved",
   "theorems": [
    "Crevice.C49_vector_eq",
    "Crevice.C49_reflexive",
    "Crevice.C49_words",
    "Crevice.C49_std430",
    "Crevice.C49_bool_eq",
    "Crevice.C49_bool_debug"
   ],
   "note": ""
  },
  {
   "property": "C50",
   "status": "proved",
   "theorems": [
    "Crevice.C50_deterministic",
    "Crevice.C50_ok",
    "Crevice.C50_error",
    "Crevice.C50_empty",
    "Crevice.C50_resumes",
    "Crevice.C50_offset_exception",
    "Crevice.C50_diverges",
    "Crevice.C50_fixed_buffer"
   ],
   "note": "C50_offset_exception: for an iterator that is not fused the returned offset need not be that of the first item written."
  },
  {
   "property": "C51",
   "status": "proved",
   "theorems": [
    "Crevice.C51_buffer",
    "Crevice.C51_field",
    "Crevice.C51_buffer_field",
    "Crevice.C51_slice"
   ],
   "note": ""
  },
  {
   "property": "C52",
   "status": "proved",
   "theorems": [
    "Crevice.C52_sessions",
    "Crevice.C52_positions",
    "Crevice.C52_split",
    "Crevice.C52_cursor_slice",
    "Crevice.C52_cursor_vec",
    "Crevice.C52_cursor_vec_gap",
    "Crevice.C52_cursor_slice_past"
   ],
   "note": ""
  },
  {
   "property": "C53",
   "status": "proved",
   "theorems": [
    "Crevice.C53_contents"
   ],
   "note": ""
  },
  {
   "property": "C54",
   "status": "proved",
   "theorems": [
    "Crevice.C54_as_bytes",
    "Crevice.C54_reference",
    "Crevice.C54_characterisation",
    "Crevice.C54_meaning_only",
    "Crevice.C54_block",
    "Crevice.C54_write"
   ],
   "note": ""
  },
  {
   "property": "C55",
   "status": "proved",
   "theorems": [
    "Crevice.C55_calls",
    "Crevice.C55_abandoned"
   ],
   "note": ""
  },
  {
   "property": "C56",
   "status": "proved",
   "theorems": [
    "Crevice.C56_buffered_lawful",
    "Crevice.C56_flushed",
    "Crevice.C56_held_back",
    "Crevice.C56_late_error"
   ],
   "note": ""
  },
  {
   "property": "C57",
   "status": "proved",
   "theorems": [
    "Crevice.C57_one",
    "Crevice.C57_all",
    "Crevice.C57_text"
   ],
   "note": "Counts executions of the generated functions by their bodies; whether rustc remembers the results of const fn calls is not modelled (C57_text gives the count if it does)."
  },
  {
   "property": "C58",
   "status": "proved",
   "theorems": [
    "Crevice.C58_compiles",
    "Crevice.C58_layout",
    "Crevice.C58_contract",
    "Crevice.C58_conversion",
    "Crevice.C58_bytes",
    "Crevice.C58_supported",
    "Crevice.C58_needs_align",
    "Crevice.C58_needs_pow2"
   ],
   "note": "C58_needs_align, C58_needs_pow2: the two alignment conditions cannot be dropped. The contract is asked for on every target."
  },
  {
   "property": "C59",
   "status": "proved",
   "theorems": [
    "Crevice.C59_unwind",
    "Crevice.C59_history",
    "Crevice.C59_vec",
    "Crevice.C59_size"
   ],
   "note": ""
  },
  {
   "property": "C60",
   "status": "proved",
   "theorems": [
    "Crevice.C60_which",
    "Crevice.C60_derive",
    "Crevice.C60_missing",
    "Crevice.C60_accepted",
    "Crevice.C60_no_fields",
    "Crevice.C60_shadowed_exception",
    "Crevice.C60_rest",
    "Crevice.C60_no_round_trip"
   ],
   "note": ""
  },
  {
   "property": "C61",
   "status": "proved",
   "theorems": [
    "Crevice.C61_read_fields",
    "Crevice.C61_monotone",
    "Crevice.C61_compatible",
    "Crevice.C61_old_reads_new"
   ],
   "note": ""
  },
  {
   "property": "C62",
   "status": "proved",
   "theorems": [
    "Crevice.C62_expansion",
    "Crevice.C62_resolve",
    "Crevice.C62_generics",
    "Crevice.C62_errors",
    "Crevice.C62_struct",
    "Crevice.C62_as_bytes",
    "Crevice.C62_debug_definitions",
    "Crevice.C62_glsl"
   ],
   "note": "Attributes, bounds and where clauses of the input and the code of the feature debug-methods are left out of the tokens; the types of fields are spliced in as one token. Names in the emitted text are taken to mean the prelude and ::crevice items (u8, usize, derive macros can be shadowed by the user)."
  },
  {
   "property": "C63",
   "status": "proved",
   "theorems": [
    "Crevice.C63_new",
    "Crevice.C63_len",
    "Crevice.C63_write",
    "Crevice.C63_session",
    "Crevice.C63_write_iter_list",
    "Crevice.C63_write_iter",
    "Crevice.C63_write_iter_unwinds",
    "Crevice.C63_write_iter_diverges",
    "Crevice.C63_size",
    "Crevice.C63_provided_size",
    "Crevice.C63_blanket",
    "Crevice.C63_size_static",
    "Crevice.C63_as_bytes",
    "Crevice.C63_sizer_new_len",
    "Crevice.C63_sizer_add",
    "Crevice.C63_sizer_add_dynamic",
    "Crevice.C63_dynamic_uniform",
    "Crevice.C63_dynamic_from",
    "Crevice.C63_write_slice",
    "Crevice.C63_internal",
    "Crevice.C63_bool",
    "Crevice.C63_glsl_definition",
    "Crevice.C63_end_to_end"
   ],
   "note": "The tokens in Source/ are written by tools/gen_source.py and compared with /repo by its option --check. Module paths, `use`, visibility and type checking are not modelled; a call finds its function by name and run-time type. derive(Debug) and fmt implementations are not executed."
  },
  {
   "property": "C64",
   "status": "proved",
   "theorems": [
    "Crevice.C64_layout",
    "Crevice.C64_glsl",
    "Crevice.C64_expansion",
    "Crevice.C64_resolve",
    "Crevice.C64_outcome",
    "Crevice.C64_debug",
    "Crevice.C64_glsl_expansion"
   ],
   "note": "syn is represented by the value it parses the derive input to (synInput); attributes, bounds and where clauses of the input are left out; parse_quote! and parse_macro_input! are taken to succeed. A panic while expanding is what rustc reports as the error."
  },
  {
   "property": "C65",
   "status": "proved",
   "theorems": [
    "Crevice.C65_resolve",
    "Crevice.C65_output",
    "Crevice.C65_name",
    "Crevice.C65_only",
    "Crevice.C65_coherent",
    "Crevice.C65_at_most_one"
   ],
   "note": "Derived structs and the user's own implementations are not among the written types (C62, C64 and C48 are about them). Spec/RustTypes assumes that rustc accepts the text (no type checking of arguments); names are resolved within a module or, if only one module declares them, through `use`. Recursion is bounded by a number: the theorems are about all large enough numbers. The fields of mint's and cgmath's structs, the traits of machine types and the conversions of glam and nalgebra are given (Model/TextTypes: outside)."
  },
  {
   "property": "C66",
   "status": "proved",
   "theorems": [
    "Crevice.C66_resolve",
    "Crevice.C66_name",
    "Crevice.C66_additive",
    "Crevice.C66_all",
    "Crevice.C66_coherent",
    "Crevice.C66_at_most_one",
    "Crevice.C66_std"
   ],
   "note": "As C65. Which items are configured out is computed from the tokens of the files, with the module declarations of lib.rs, imp.rs, std140.rs and std430.rs (`mod x;` under `#[cfg(feature = ..)]`); `pub use self::x::*` is taken to export everything. `#![cfg_attr(..)]` on files (documentation, no_std) is left out. Feature unification by Cargo, and what the features change inside the other crates, is not modelled."
  },
  {
   "property": "C67",
   "status": "proved",
   "theorems": [
    "Crevice.C67_client",
    "Crevice.C67_resolve",
    "Crevice.C67_output",
    "Crevice.C67_underived",
    "Crevice.C67_shader",
    "Crevice.C67_at_most_one"
   ],
   "note": "As C64 and C65. The crate is one module whose items are its structs and what the derives return; `::crevice` is the crate of C65 and what `crevice::internal` reexports is known by its name there (Spec/ClientText). Structs have no generic parameters and no attributes; the types of their fields are those of C65, structs of the crate, and DynamicUniform and Output of all of these. As rustc asks, no two items have the same name; in addition no item of the crate is called like a machine type, Zeroable or Pod (the inserted code says `u8`). C67_resolve starts from what the model accepts: what rustc rejects otherwise (a field called _pad0) is not looked for in the text."
  },
  {
   "property": "C68",
   "status": "proved",
   "theorems": [
    "Crevice.C68_name",
    "Crevice.C68_struct",
    "Crevice.C68_underived",
    "Crevice.C68_unnamed",
    "Crevice.C68_definition",
    "Crevice.C68_shader"
   ],
   "note": "As C67. FIELDS is read as the array of GlslField expressions it is, whose strings are constant expressions of the semantics of C65. C68_definition runs the text of glsl_definition (C63) on the NAME and the FIELDS that the text of the crate says; the semantics of C63 knows types by single names, so the types of the fields appear there under their GLSL names. The types of fields are those of C65 and structs of the crate that derive GlslStruct; Output types of structs have no GLSL name. C68_unnamed is about the types of C65 without a GLSL name."
  },
  {
   "property": "C69",
   "status": "proved",
   "theorems": [
    "Crevice.C69_resolve",
    "Crevice.C69_output",
    "Crevice.C69_absent",
    "Crevice.C69_name",
    "Crevice.C69_fields",
    "Crevice.C69_no_std",
    "Crevice.C69_shader",
    "Crevice.C69_at_most_one"
   ],
   "note": "As C66 and C67. The crate of C67 next to crevice with a set of features. C69_absent asks that the type of the field is one that crevice supports with its feature on; it is about the struct that has the field, and structs that contain that one are not accepted by the model of C69_resolve either, because a part of them is not enabled."
  },
  {
   "property": "C70",
   "status": "proved",
   "theorems": [
    "Crevice.C70_library",
    "Crevice.C70_no_writer",
    "Crevice.C70_any",
    "Crevice.C70_sizer_new_len",
    "Crevice.C70_sizer",
    "Crevice.C70_program"
   ],
   "note": "C63, C66 and C69 together. The same bound N on the search for implementations is used for the derived code and for crevice; the step bound of the Writer is m. main is the list of calls, not text; a session is the sequence of w.write(&x) (each of which is text)."
  },
  {
   "property": "C71",
   "status": "proved",
   "theorems": [
    "Crevice.C71_layout",
    "Crevice.C71_glsl",
    "Crevice.C71_glsl_needs_std",
    "Crevice.C71_exports",
    "Crevice.C71_additive",
    "Crevice.C71_imports",
    "Crevice.C71_crates"
   ],
   "note": "Method calls (self.f.as_stdN()) are not paths: C60 is about them. That bytemuck has Pod, Zeroable and zeroed and core has mem::size_of is assumed (Spec/TextNames). The debug-methods feature is off. Of imports from other crates only the name of the crate is looked at."
  },
  {
   "property": "C72",
   "status": "proved",
   "theorems": [
    "Crevice.C72_block",
    "Crevice.C72_size",
    "Crevice.C72_structs"
   ],
   "note": "C70 with slices, and C22 for the block. A slice holds values of one level (nested slices are impossible for [T] with T: AsStdN, whose elements are Sized); main is the list of calls, not text. The block is read as a struct named Block whose members are the arguments."
  },
  {
   "property": "C73",
   "status": "proved",
   "theorems": [
    "Crevice.C73_layout",
    "Crevice.C73_generic",
    "Crevice.C73_glsl"
   ],
   "note": "The rules (Spec/Typing) cover the forms that derived code is made of and nothing else; lifetimes, coherence with the blanket implementation for T: StdN, ambiguity of inference and constants that panic are not covered. A trait is known by the last segment of its path after C71 has resolved the path. The traits of bytemuck and of the prelude are written by hand (outsideDecls); those of crevice are read from the text. Patterns (let, parameters) are taken to bind: a constant of the user called alignment, starting_offset or input would be matched instead. The debug-methods feature is off; the name Self is excluded (no struct can have it)."
  },
  {
   "property": "C74",
   "status": "proved",
   "theorems": [
    "Crevice.C74_items",
    "Crevice.C74_types",
    "Crevice.C74_crate"
   ],
   "note": "As C73 and C69. C74_types says exactly when; C74_crate gives sufficient conditions in terms of the model. Client.user says what types implement by the semantics of the text (C69); both AsStdN traits are taken to be in scope, and the types to have no other methods as_stdN (C60 is about those). Structs have no generic parameters and there are no user items besides."
  }
 ]
}