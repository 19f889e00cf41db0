PARTIAL = set()
NOTES.update({
"C04": "C04_C05_counterpart: every accepted type without layout types in its fields has a GLSL counterpart, so the correspondence is not vacuous.",
"C09": "C09_exception: a field whose declared type already is a layout type (e.g. std140::Mat3) keeps its public padding.",
"C13": "C13_exception: the property is false of the code for an empty std430 struct (ALIGNMENT 0); C13_pow2 assumes the struct contains no empty struct in std430.",
"C21": "C21_exception: the property is false of the code for std140 slices of 4- and 8-byte aligned elements; C21_std140_iff says exactly when it holds.",
"C22": "C22_exception: a member after an array of small std140 elements is not where GLSL puts it; C22_block states the side conditions.",
"C24": "C24_retry_misaligns: after an error the Writer may not be reused.",
"C28": "C28_exception: Rust identifiers that are no GLSL identifiers (raw identifiers, GLSL keywords) and empty structs give text that does not parse; C28_no_bool: bool and DynamicUniform have no Glsl impl, so structs with such fields have no definition.",
"C29": "Quantifies over struct trees for which glsl_definition exists for every struct (C28_exists).",
"C30": "C30_reserved_name: a field called _pad<i> is rejected. C30_no_dynamic_field: a field whose Output is a DynamicUniformStd140 is rejected (no Debug). C30_generics: a struct with generic parameters expands but is never accepted (Output is written without the arguments).",
"C31": "C31_user_collision: a user item that is itself called Std140Foo collides, which the property does not exclude.",
"C32": "Assumes that glam/nalgebra conversions into mint preserve components (ForeignEnv.Lawful).",
"C33": "Machine-word versions of align_offset, max, max_arr, Sizer, Writer and the derive's const functions against the Nat model.",
"C40": "C40_field_size_exception: the reported per-field size is that of the declared Rust type. C40_shadowed_exception: for a user type called Field it is the size of debug_metrics' own local struct. C40_empty_exception: with the feature a struct without fields does not compile.",
"C12": "C12_read_back and C12_padding_ignored_view assume in addition that hand-written conversions lose nothing (ForeignEnv.Exact); C12_padding_ignored does not.",
"C38": "C38_normalise assumes that hand-written conversions lose nothing (ForeignEnv.Exact).",
"C48": "The implementations covered are those that go through another convertible type (possibly a layout type); an implementation with a hand-written `unsafe impl StdN` for its own Output is the subject of C58.",
"C50": "C50_offset_exception: for an iterator that is not fused the returned offset need not be that of the first item written.",
"C57": "Counts executions of the generated functions by their bodies; whether rustc remembers the results of const fn calls is not modelled (C57_text gives the count if it does).",
"C58": "C58_needs_align, C58_needs_pow2: the two alignment conditions cannot be dropped. The contract is asked for on every target.",
"C62": "Attributes, bounds and where clauses of the input and the code of the feature debug-methods are left out of the tokens; the types of fields are spliced in as one token. Names in the emitted text are taken to mean the prelude and ::crevice items (u8, usize, derive macros can be shadowed by the user).",
"C63": "The tokens in Source/ are written by tools/gen_source.py and compared with /repo by its option --check. Module paths, `use`, visibility and type checking are not modelled; a call finds its function by name and run-time type. derive(Debug) and fmt implementations are not executed.",
"C64": "syn is represented by the value it parses the derive input to (synInput); attributes, bounds and where clauses of the input are left out; parse_quote! and parse_macro_input! are taken to succeed. A panic while expanding is what rustc reports as the error.",
"C65": "Derived structs and the user's own implementations are not among the written types (C62, C64 and C48 are about them). Spec/RustTypes assumes that rustc accepts the text (no type checking of arguments); names are resolved within a module or, if only one module declares them, through `use`. Recursion is bounded by a number: the theorems are about all large enough numbers. The fields of mint's and cgmath's structs, the traits of machine types and the conversions of glam and nalgebra are given (Model/TextTypes: outside).",
"C66": "As C65. Which items are configured out is computed from the tokens of the files, with the module declarations of lib.rs, imp.rs, std140.rs and std430.rs (`mod x;` under `#[cfg(feature = ..)]`); `pub use self::x::*` is taken to export everything. `#![cfg_attr(..)]` on files (documentation, no_std) is left out. Feature unification by Cargo, and what the features change inside the other crates, is not modelled.",
"C67": "As C64 and C65. The crate is one module whose items are its structs and what the derives return; `::crevice` is the crate of C65 and what `crevice::internal` reexports is known by its name there (Spec/ClientText). Structs have no generic parameters and no attributes; the types of their fields are those of C65, structs of the crate, and DynamicUniform and Output of all of these. As rustc asks, no two items have the same name; in addition no item of the crate is called like a machine type, Zeroable or Pod (the inserted code says `u8`). C67_resolve starts from what the model accepts: what rustc rejects otherwise (a field called _pad0) is not looked for in the text.",
"C68": "As C67. FIELDS is read as the array of GlslField expressions it is, whose strings are constant expressions of the semantics of C65. C68_definition runs the text of glsl_definition (C63) on the NAME and the FIELDS that the text of the crate says; the semantics of C63 knows types by single names, so the types of the fields appear there under their GLSL names. The types of fields are those of C65 and structs of the crate that derive GlslStruct; Output types of structs have no GLSL name. C68_unnamed is about the types of C65 without a GLSL name.",
"C69": "As C66 and C67. The crate of C67 next to crevice with a set of features. C69_absent asks that the type of the field is one that crevice supports with its feature on; it is about the struct that has the field, and structs that contain that one are not accepted by the model of C69_resolve either, because a part of them is not enabled.",
"C70": "C63, C66 and C69 together. The same bound N on the search for implementations is used for the derived code and for crevice; the step bound of the Writer is m. main is the list of calls, not text; a session is the sequence of w.write(&x) (each of which is text).",
"C71": "Method calls (self.f.as_stdN()) are not paths: C60 is about them. That bytemuck has Pod, Zeroable and zeroed and core has mem::size_of is assumed (Spec/TextNames). The debug-methods feature is off. Of imports from other crates only the name of the crate is looked at.",
"C72": "C70 with slices, and C22 for the block. A slice holds values of one level (nested slices are impossible for [T] with T: AsStdN, whose elements are Sized); main is the list of calls, not text. The block is read as a struct named Block whose members are the arguments.",
"C73": "The rules (Spec/Typing) cover the forms that derived code is made of and nothing else; lifetimes, coherence with the blanket implementation for T: StdN, ambiguity of inference and constants that panic are not covered. A trait is known by the last segment of its path after C71 has resolved the path. The traits of bytemuck and of the prelude are written by hand (outsideDecls); those of crevice are read from the text. Patterns (let, parameters) are taken to bind: a constant of the user called alignment, starting_offset or input would be matched instead. The debug-methods feature is off; the name Self is excluded (no struct can have it).",
"C74": "As C73 and C69. C74_types says exactly when; C74_crate gives sufficient conditions in terms of the model. Client.user says what types implement by the semantics of the text (C69); both AsStdN traits are taken to be in scope, and the types to have no other methods as_stdN (C60 is about those). Structs have no generic parameters and there are no user items besides.",
})
