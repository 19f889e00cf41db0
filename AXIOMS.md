# Axioms

Generated by `tools/axioms.py` with `Lean.collectAxioms`.

All 6488 theorems of the project together use: `Classical.choice` (2048), `Quot.sound` (2458), `propext` (4580).

| theorem | axioms |
|---|---|
| `Crevice.C01_padding` | Classical.choice, Quot.sound, propext |
| `Crevice.C01_padding_unique` | Classical.choice, Quot.sound, propext |
| `Crevice.C02_derive` | Classical.choice, Quot.sound, propext |
| `Crevice.C02_struct_alignment` | Classical.choice, Quot.sound, propext |
| `Crevice.C03_derive` | Classical.choice, Quot.sound, propext |
| `Crevice.C03_disjoint` | Classical.choice, Quot.sound, propext |
| `Crevice.C03_placement` | Classical.choice, Quot.sound, propext |
| `Crevice.C04_C05_counterpart` | Classical.choice, Quot.sound, propext |
| `Crevice.C04_std140` | Classical.choice, Quot.sound, propext |
| `Crevice.C05_std430` | Classical.choice, Quot.sound, propext |
| `Crevice.C06_shader_reads_value` | Classical.choice, Quot.sound, propext |
| `Crevice.C06_view_determines_value` | Classical.choice, Quot.sound, propext |
| `Crevice.C07_no_uninit` | Classical.choice, Quot.sound, propext |
| `Crevice.C08_length` | Classical.choice, Quot.sound, propext |
| `Crevice.C08_pod` | Classical.choice, Quot.sound, propext |
| `Crevice.C08_zeroed` | Classical.choice, Quot.sound, propext |
| `Crevice.C09_exception` | Classical.choice, Quot.sound, propext |
| `Crevice.C09_padding_zero` | Classical.choice, Quot.sound, propext |
| `Crevice.C10_round_trip` | Classical.choice, Quot.sound, propext |
| `Crevice.C11_byte_round_trip` | Classical.choice, Quot.sound, propext |
| `Crevice.C11_injective` | Classical.choice, Quot.sound, propext |
| `Crevice.C12_padding_ignored` | Classical.choice, Quot.sound, propext |
| `Crevice.C12_padding_ignored_view` | Classical.choice, Quot.sound, propext |
| `Crevice.C12_read_back` | Classical.choice, Quot.sound, propext |
| `Crevice.C13_exception` | Classical.choice, Quot.sound, propext |
| `Crevice.C13_pow2` | Classical.choice, Quot.sound, propext |
| `Crevice.C14_array` | Classical.choice, Quot.sound, propext |
| `Crevice.C14_hereditary` | Classical.choice, Quot.sound, propext |
| `Crevice.C14_size` | Classical.choice, Quot.sound, propext |
| `Crevice.C15_fresh_writer` | Classical.choice, Quot.sound, propext |
| `Crevice.C15_sizes_agree` | Classical.choice, Quot.sound, propext |
| `Crevice.C16_factor` | Classical.choice, Quot.sound, propext |
| `Crevice.C16_std430_le_std140` | Classical.choice, Quot.sound, propext |
| `Crevice.C17_succeeds` | Classical.choice, Quot.sound, propext |
| `Crevice.C17_write` | Classical.choice, Quot.sound, propext |
| `Crevice.C17_write_std` | Classical.choice, Quot.sound, propext |
| `Crevice.C18_history` | Classical.choice, Quot.sound, propext |
| `Crevice.C18_history_general` | Classical.choice, Quot.sound, propext |
| `Crevice.C19_sizer_placement` | Classical.choice, Quot.sound, propext |
| `Crevice.C19_sizer_predicts_writer` | Classical.choice, Quot.sound, propext |
| `Crevice.C20_append` | Classical.choice, Quot.sound, propext |
| `Crevice.C20_each_once` | Classical.choice, Quot.sound, propext |
| `Crevice.C20_elementwise` | Classical.choice, Quot.sound, propext |
| `Crevice.C20_iter_eq_slice` | propext |
| `Crevice.C21_constant_stride` | Classical.choice, Quot.sound, propext |
| `Crevice.C21_exception` | Classical.choice, Quot.sound, propext |
| `Crevice.C21_std140_iff` | Classical.choice, Quot.sound, propext |
| `Crevice.C21_std140_struct` | Classical.choice, Quot.sound, propext |
| `Crevice.C21_std430` | Classical.choice, Quot.sound, propext |
| `Crevice.C22_block` | Classical.choice, Quot.sound, propext |
| `Crevice.C22_exception` | Classical.choice, Quot.sound, propext |
| `Crevice.C22_header_then_structs` | Classical.choice, Quot.sound, propext |
| `Crevice.C23_fields_exist` | Classical.choice, Quot.sound, propext |
| `Crevice.C23_fieldwise` | Classical.choice, Quot.sound, propext |
| `Crevice.C24_error` | Classical.choice, Quot.sound, propext |
| `Crevice.C24_len` | Classical.choice, Quot.sound, propext |
| `Crevice.C24_len_fresh` | Classical.choice, Quot.sound, propext |
| `Crevice.C24_reports` | Classical.choice, Quot.sound, propext |
| `Crevice.C24_retry_misaligns` | propext |
| `Crevice.C25_fixed_buffer` | Classical.choice, Quot.sound, propext |
| `Crevice.C25_general` | Classical.choice, Quot.sound, propext |
| `Crevice.C26_dynamic` | Classical.choice, Quot.sound, propext |
| `Crevice.C26_exists` | Classical.choice, Quot.sound, propext |
| `Crevice.C26_write` | Classical.choice, Quot.sound, propext |
| `Crevice.C27_bool_word` | Classical.choice, Quot.sound, propext |
| `Crevice.C27_nonzero_is_true` | Classical.choice, Quot.sound, propext |
| `Crevice.C27_round_trips` | Classical.choice, Quot.sound, propext |
| `Crevice.C28_exception` | Classical.choice, Quot.sound, propext |
| `Crevice.C28_exists` | Quot.sound, propext |
| `Crevice.C28_injective` | Classical.choice, Quot.sound, propext |
| `Crevice.C28_no_bool` | propext |
| `Crevice.C28_parses` | Classical.choice, Quot.sound, propext |
| `Crevice.C28_valid_iff` | Classical.choice, Quot.sound, propext |
| `Crevice.C29_bytes` | Classical.choice, Quot.sound, propext |
| `Crevice.C29_text` | Classical.choice, Quot.sound, propext |
| `Crevice.C30_compiles` | Classical.choice, Quot.sound, propext |
| `Crevice.C30_convertible` | Classical.choice, Quot.sound, propext |
| `Crevice.C30_derives_agree` | Classical.choice, Quot.sound, propext |
| `Crevice.C30_generics` | Classical.choice, Quot.sound, propext |
| `Crevice.C30_macro` | Classical.choice, Quot.sound, propext |
| `Crevice.C30_macro_glsl` | none |
| `Crevice.C30_no_dynamic_field` | Classical.choice, Quot.sound, propext |
| `Crevice.C30_no_recursion` | Classical.choice, Quot.sound, propext |
| `Crevice.C30_reserved_name` | Classical.choice, Quot.sound, propext |
| `Crevice.C30_terminates` | Classical.choice, Quot.sound, propext |
| `Crevice.C31_fields_distinct` | Classical.choice, Quot.sound, propext |
| `Crevice.C31_items_distinct` | Classical.choice, Quot.sound, propext |
| `Crevice.C31_user_collision` | Classical.choice, Quot.sound, propext |
| `Crevice.C32_glsl_name` | Classical.choice, Quot.sound, propext |
| `Crevice.C32_same_bytes` | Classical.choice, Quot.sound, propext |
| `Crevice.C32_same_impl` | Classical.choice, Quot.sound, propext |
| `Crevice.C33_align_offset` | Classical.choice, Quot.sound, propext |
| `Crevice.C33_alignments` | Classical.choice, Quot.sound, propext |
| `Crevice.C33_consts` | Classical.choice, Quot.sound, propext |
| `Crevice.C33_items` | Classical.choice, Quot.sound, propext |
| `Crevice.C33_max` | Quot.sound, propext |
| `Crevice.C33_max_arr` | Quot.sound, propext |
| `Crevice.C33_size` | Classical.choice, Quot.sound, propext |
| `Crevice.C33_sizer_checked` | Quot.sound, propext |
| `Crevice.C33_sizer_wrapping` | Classical.choice, Quot.sound, propext |
| `Crevice.C33_writer_checked` | Classical.choice, Quot.sound, propext |
| `Crevice.C33_writer_unchecked` | Classical.choice, Quot.sound, propext |
| `Crevice.C33_writer_wrapping` | Classical.choice, Quot.sound, propext |
| `Crevice.C34_size_anywhere` | Classical.choice, Quot.sound, propext |
| `Crevice.C34_size_is_len` | Classical.choice, Quot.sound, propext |
| `Crevice.C35_identity` | Classical.choice, Quot.sound, propext |
| `Crevice.C35_write` | Classical.choice, Quot.sound, propext |
| `Crevice.C36_any_depth` | Classical.choice, Quot.sound, propext |
| `Crevice.C36_nesting` | Classical.choice, Quot.sound, propext |
| `Crevice.C37_prefix` | Classical.choice, Quot.sound, propext |
| `Crevice.C37_rename_any_depth` | Classical.choice, Quot.sound, propext |
| `Crevice.C37_rename_bytes` | Classical.choice, Quot.sound, propext |
| `Crevice.C37_rename_layout` | Classical.choice, Quot.sound, propext |
| `Crevice.C37_rename_offsets` | Classical.choice, Quot.sound, propext |
| `Crevice.C38_normalise` | Classical.choice, Quot.sound, propext |
| `Crevice.C39_sink_independent` | Classical.choice, Quot.sound, propext |
| `Crevice.C40_empty_exception` | Classical.choice, Quot.sound, propext |
| `Crevice.C40_exists` | Classical.choice, Quot.sound, propext |
| `Crevice.C40_field_size_exception` | Classical.choice, Quot.sound, propext |
| `Crevice.C40_glsl_offsets` | Classical.choice, Quot.sound, propext |
| `Crevice.C40_metrics` | Classical.choice, Quot.sound, propext |
| `Crevice.C40_shadowed_exception` | Classical.choice, Quot.sound, propext |
| `Crevice.C40_text_injective` | Classical.choice, Quot.sound, propext |
| `Crevice.C41_read_back` | Classical.choice, Quot.sound, propext |
| `Crevice.C41_slice_read_back` | Classical.choice, Quot.sound, propext |
| `Crevice.C42_align_of` | Classical.choice, Quot.sound, propext |
| `Crevice.C42_cast_in_place` | Classical.choice, Quot.sound, propext |
| `Crevice.C43_any_base` | Classical.choice, Quot.sound, propext |
| `Crevice.C43_bound` | Classical.choice, Quot.sound, propext |
| `Crevice.C44_byte_order` | Classical.choice, Quot.sound, propext |
| `Crevice.C44_bytes` | Classical.choice, Quot.sound, propext |
| `Crevice.C44_layout` | Classical.choice, Quot.sound, propext |
| `Crevice.C45_coincide` | Classical.choice, Quot.sound, propext |
| `Crevice.C45_narrow_struct` | Classical.choice, Quot.sound, propext |
| `Crevice.C46_derive` | Classical.choice, Quot.sound, propext |
| `Crevice.C46_overhead` | Classical.choice, Quot.sound, propext |
| `Crevice.C46_writer` | Classical.choice, Quot.sound, propext |
| `Crevice.C46_writer_overhead` | Classical.choice, Quot.sound, propext |
| `Crevice.C47_any_implementation` | Classical.choice, Quot.sound, propext |
| `Crevice.C47_closed` | Quot.sound, propext |
| `Crevice.C47_instances` | propext |
| `Crevice.C47_propagating` | Classical.choice, Quot.sound, propext |
| `Crevice.C47_relocatable` | Classical.choice, Quot.sound, propext |
| `Crevice.C47_std_size` | Classical.choice, Quot.sound, propext |
| `Crevice.C48_bytes` | Classical.choice, Quot.sound, propext |
| `Crevice.C48_conversions_irrelevant` | Classical.choice, Quot.sound, propext |
| `Crevice.C48_layout` | Classical.choice, Quot.sound, propext |
| `Crevice.C49_bool_debug` | propext |
| `Crevice.C49_bool_eq` | propext |
| `Crevice.C49_reflexive` | Classical.choice, Quot.sound, propext |
| `Crevice.C49_std430` | propext |
| `Crevice.C49_vector_eq` | Classical.choice, Quot.sound, propext |
| `Crevice.C49_words` | Classical.choice, Quot.sound, propext |
| `Crevice.C50_deterministic` | Quot.sound, propext |
| `Crevice.C50_diverges` | Classical.choice, Quot.sound, propext |
| `Crevice.C50_empty` | propext |
| `Crevice.C50_error` | propext |
| `Crevice.C50_fixed_buffer` | Classical.choice, Quot.sound, propext |
| `Crevice.C50_offset_exception` | none |
| `Crevice.C50_ok` | propext |
| `Crevice.C50_resumes` | Classical.choice, Quot.sound, propext |
| `Crevice.C51_buffer` | Classical.choice, Quot.sound, propext |
| `Crevice.C51_buffer_field` | Classical.choice, Quot.sound, propext |
| `Crevice.C51_field` | Classical.choice, Quot.sound, propext |
| `Crevice.C51_slice` | Classical.choice, Quot.sound, propext |
| `Crevice.C52_cursor_slice` | Classical.choice, Quot.sound, propext |
| `Crevice.C52_cursor_slice_past` | Classical.choice, Quot.sound, propext |
| `Crevice.C52_cursor_vec` | Classical.choice, Quot.sound, propext |
| `Crevice.C52_cursor_vec_gap` | Classical.choice, Quot.sound, propext |
| `Crevice.C52_positions` | Classical.choice, Quot.sound, propext |
| `Crevice.C52_sessions` | Classical.choice, Quot.sound, propext |
| `Crevice.C52_split` | Classical.choice, Quot.sound, propext |
| `Crevice.C53_contents` | Classical.choice, Quot.sound, propext |
| `Crevice.C54_as_bytes` | Classical.choice, Quot.sound, propext |
| `Crevice.C54_block` | Classical.choice, Quot.sound, propext |
| `Crevice.C54_characterisation` | Classical.choice, Quot.sound, propext |
| `Crevice.C54_meaning_only` | Classical.choice, Quot.sound, propext |
| `Crevice.C54_reference` | Classical.choice, Quot.sound, propext |
| `Crevice.C54_write` | Classical.choice, Quot.sound, propext |
| `Crevice.C55_abandoned` | Classical.choice, Quot.sound, propext |
| `Crevice.C55_calls` | Classical.choice, Quot.sound, propext |
| `Crevice.C56_buffered_lawful` | Quot.sound, propext |
| `Crevice.C56_flushed` | Classical.choice, Quot.sound, propext |
| `Crevice.C56_held_back` | Classical.choice, Quot.sound, propext |
| `Crevice.C56_late_error` | none |
| `Crevice.C57_all` | Classical.choice, Quot.sound, propext |
| `Crevice.C57_one` | Classical.choice, Quot.sound, propext |
| `Crevice.C57_text` | Classical.choice, Quot.sound, propext |
| `Crevice.C58_bytes` | Classical.choice, Quot.sound, propext |
| `Crevice.C58_compiles` | Classical.choice, Quot.sound, propext |
| `Crevice.C58_contract` | Classical.choice, Quot.sound, propext |
| `Crevice.C58_conversion` | Classical.choice, Quot.sound, propext |
| `Crevice.C58_layout` | Classical.choice, Quot.sound, propext |
| `Crevice.C58_needs_align` | Classical.choice, Quot.sound, propext |
| `Crevice.C58_needs_pow2` | Classical.choice, Quot.sound, propext |
| `Crevice.C58_supported` | Classical.choice, Quot.sound, propext |
| `Crevice.C59_history` | Classical.choice, Quot.sound, propext |
| `Crevice.C59_size` | Classical.choice, Quot.sound, propext |
| `Crevice.C59_unwind` | Classical.choice, Quot.sound, propext |
| `Crevice.C59_vec` | Classical.choice, Quot.sound, propext |
| `Crevice.C60_accepted` | Classical.choice, Quot.sound, propext |
| `Crevice.C60_derive` | Classical.choice, Quot.sound, propext |
| `Crevice.C60_missing` | Classical.choice, Quot.sound, propext |
| `Crevice.C60_no_fields` | Classical.choice, Quot.sound, propext |
| `Crevice.C60_no_round_trip` | Classical.choice, Quot.sound, propext |
| `Crevice.C60_rest` | Classical.choice, Quot.sound, propext |
| `Crevice.C60_shadowed_exception` | Classical.choice, Quot.sound, propext |
| `Crevice.C60_which` | Classical.choice, Quot.sound, propext |
| `Crevice.C61_compatible` | Classical.choice, Quot.sound, propext |
| `Crevice.C61_monotone` | Classical.choice, Quot.sound, propext |
| `Crevice.C61_old_reads_new` | Classical.choice, Quot.sound, propext |
| `Crevice.C61_read_fields` | Classical.choice, Quot.sound, propext |
| `Crevice.C62_as_bytes` | Classical.choice, Quot.sound, propext |
| `Crevice.C62_debug_definitions` | Classical.choice, Quot.sound, propext |
| `Crevice.C62_errors` | Classical.choice, Quot.sound, propext |
| `Crevice.C62_expansion` | Classical.choice, Quot.sound, propext |
| `Crevice.C62_generics` | Classical.choice, Quot.sound, propext |
| `Crevice.C62_glsl` | Classical.choice, Quot.sound, propext |
| `Crevice.C62_resolve` | Classical.choice, Quot.sound, propext |
| `Crevice.C62_struct` | Classical.choice, Quot.sound, propext |
| `Crevice.C63_as_bytes` | Classical.choice, Quot.sound, propext |
| `Crevice.C63_blanket` | Classical.choice, Quot.sound, propext |
| `Crevice.C63_bool` | Classical.choice, Quot.sound, propext |
| `Crevice.C63_dynamic_from` | Classical.choice, Quot.sound, propext |
| `Crevice.C63_dynamic_uniform` | Classical.choice, Quot.sound, propext |
| `Crevice.C63_end_to_end` | Classical.choice, Quot.sound, propext |
| `Crevice.C63_glsl_definition` | Classical.choice, Quot.sound, propext |
| `Crevice.C63_internal` | Classical.choice, Quot.sound, propext |
| `Crevice.C63_len` | Classical.choice, Quot.sound, propext |
| `Crevice.C63_new` | Classical.choice, Quot.sound, propext |
| `Crevice.C63_provided_size` | Classical.choice, Quot.sound, propext |
| `Crevice.C63_session` | Classical.choice, Quot.sound, propext |
| `Crevice.C63_size` | Classical.choice, Quot.sound, propext |
| `Crevice.C63_size_static` | Quot.sound, propext |
| `Crevice.C63_sizer_add` | Classical.choice, Quot.sound, propext |
| `Crevice.C63_sizer_add_dynamic` | Classical.choice, Quot.sound, propext |
| `Crevice.C63_sizer_new_len` | Classical.choice, Quot.sound, propext |
| `Crevice.C63_write` | Classical.choice, Quot.sound, propext |
| `Crevice.C63_write_iter` | Classical.choice, Quot.sound, propext |
| `Crevice.C63_write_iter_diverges` | Classical.choice, Quot.sound, propext |
| `Crevice.C63_write_iter_list` | Classical.choice, Quot.sound, propext |
| `Crevice.C63_write_iter_unwinds` | Classical.choice, Quot.sound, propext |
| `Crevice.C63_write_slice` | Classical.choice, Quot.sound, propext |
| `Crevice.C64_debug` | Classical.choice, Quot.sound, propext |
| `Crevice.C64_expansion` | Classical.choice, Quot.sound, propext |
| `Crevice.C64_glsl` | Classical.choice, Quot.sound, propext |
| `Crevice.C64_glsl_expansion` | Classical.choice, Quot.sound, propext |
| `Crevice.C64_layout` | Classical.choice, Quot.sound, propext |
| `Crevice.C64_outcome` | Classical.choice, Quot.sound, propext |
| `Crevice.C64_resolve` | Classical.choice, Quot.sound, propext |
| `Crevice.C65_at_most_one` | Classical.choice, Quot.sound, propext |
| `Crevice.C65_coherent` | Classical.choice, Quot.sound, propext |
| `Crevice.C65_name` | Classical.choice, Quot.sound, propext |
| `Crevice.C65_only` | Classical.choice, Quot.sound, propext |
| `Crevice.C65_output` | Classical.choice, Quot.sound, propext |
| `Crevice.C65_resolve` | Classical.choice, Quot.sound, propext |
| `Crevice.C66_additive` | Classical.choice, Quot.sound, propext |
| `Crevice.C66_all` | Classical.choice, Quot.sound, propext |
| `Crevice.C66_at_most_one` | Classical.choice, Quot.sound, propext |
| `Crevice.C66_coherent` | Classical.choice, Quot.sound, propext |
| `Crevice.C66_name` | Classical.choice, Quot.sound, propext |
| `Crevice.C66_resolve` | Classical.choice, Quot.sound, propext |
| `Crevice.C66_std` | Classical.choice, Quot.sound, propext |
| `Crevice.C67_at_most_one` | Classical.choice, Quot.sound, propext |
| `Crevice.C67_client` | Classical.choice, Quot.sound, propext |
| `Crevice.C67_output` | Classical.choice, Quot.sound, propext |
| `Crevice.C67_resolve` | Classical.choice, Quot.sound, propext |
| `Crevice.C67_shader` | Classical.choice, Quot.sound, propext |
| `Crevice.C67_underived` | Classical.choice, Quot.sound, propext |
| `Crevice.C68_definition` | Classical.choice, Quot.sound, propext |
| `Crevice.C68_name` | Classical.choice, Quot.sound, propext |
| `Crevice.C68_shader` | Classical.choice, Quot.sound, propext |
| `Crevice.C68_struct` | Classical.choice, Quot.sound, propext |
| `Crevice.C68_underived` | Classical.choice, Quot.sound, propext |
| `Crevice.C68_unnamed` | Classical.choice, Quot.sound, propext |
| `Crevice.C69_absent` | Classical.choice, Quot.sound, propext |
| `Crevice.C69_at_most_one` | Classical.choice, Quot.sound, propext |
| `Crevice.C69_fields` | Classical.choice, Quot.sound, propext |
| `Crevice.C69_name` | Classical.choice, Quot.sound, propext |
| `Crevice.C69_no_std` | Classical.choice, Quot.sound, propext |
| `Crevice.C69_output` | Classical.choice, Quot.sound, propext |
| `Crevice.C69_resolve` | Classical.choice, Quot.sound, propext |
| `Crevice.C69_shader` | Classical.choice, Quot.sound, propext |
| `Crevice.C70_any` | Classical.choice, Quot.sound, propext |
| `Crevice.C70_library` | propext |
| `Crevice.C70_no_writer` | propext |
| `Crevice.C70_program` | Classical.choice, Quot.sound, propext |
| `Crevice.C70_sizer` | Classical.choice, Quot.sound, propext |
| `Crevice.C70_sizer_new_len` | Classical.choice, Quot.sound, propext |
| `Crevice.C71_additive` | Classical.choice, Quot.sound, propext |
| `Crevice.C71_crates` | Classical.choice, Quot.sound, propext |
| `Crevice.C71_exports` | Classical.choice, Quot.sound, propext |
| `Crevice.C71_glsl` | Classical.choice, Quot.sound, propext |
| `Crevice.C71_glsl_needs_std` | Classical.choice, Quot.sound, propext |
| `Crevice.C71_imports` | Classical.choice, Quot.sound, propext |
| `Crevice.C71_layout` | Classical.choice, Quot.sound, propext |
| `Crevice.C72_block` | Classical.choice, Quot.sound, propext |
| `Crevice.C72_size` | Classical.choice, Quot.sound, propext |
| `Crevice.C72_structs` | Classical.choice, Quot.sound, propext |
| `Crevice.C73_generic` | Classical.choice, Quot.sound, propext |
| `Crevice.C73_glsl` | Classical.choice, Quot.sound, propext |
| `Crevice.C73_layout` | Classical.choice, Quot.sound, propext |
| `Crevice.C74_crate` | Classical.choice, Quot.sound, propext |
| `Crevice.C74_items` | Classical.choice, Quot.sound, propext |
| `Crevice.C74_types` | Classical.choice, Quot.sound, propext |
