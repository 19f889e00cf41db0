{"id": "C01", "title": "Padding computation is exact and minimal", "statement": "For every byte offset and every alignment, the padding crevice inserts is the smallest number of bytes that brings the offset to a multiple of the alignment (zero for alignment 0), and is always smaller than a non-zero alignment.", "quantifier": "all offsets and all alignments (unbounded naturals)", "why_tests_cant": "The claim ranges over infinitely many (offset, alignment) pairs; tests sample a handful.", "anchors": ["src/internal.rs: align_offset"]}
{"id": "C02", "title": "Struct alignment is the largest requirement", "statement": "The ALIGNMENT of a derived struct is exactly the maximum of the layout's minimum (16 for std140, 0 for std430) and its fields' ALIGNMENTs: it is an upper bound on all of them and equal to one of them.", "quantifier": "all field lists of any length with any alignments", "why_tests_cant": "Any number of fields in any order; tests fix a few structs.", "anchors": ["src/internal.rs: max_arr, max", "crevice-derive/src/layout.rs: emit"]}
{"id": "C03", "title": "Derived fields are placed at the least aligned offset", "statement": "In the generated struct as laid out by rustc's repr(C) rule, the first field is at offset 0, every later field is at the least multiple of its ALIGNMENT that is not before the end of the previous field, fields never overlap, and the struct's size is the least multiple of its ALIGNMENT not before the end of the last field.", "quantifier": "all structs that the derive accepts, any nesting, both layouts, every target data layout (alignment of f32/f64 chosen by the platform)", "why_tests_cant": "Unboundedly many struct shapes and several target ABIs; offset tests check a dozen shapes on one host.", "anchors": ["crevice-derive/src/layout.rs: emit", "src/internal.rs: align_offset"]}
{"id": "C04", "title": "std140 layout agrees with the GLSL specification", "statement": "For every type convertible to std140 (scalars, bools, vectors, matrices, nested derived structs, dynamic uniforms), its alignment, its size and the offset of every member at every depth are those the OpenGL std140 rules assign to the corresponding GLSL type.", "quantifier": "all type trees of any depth and width", "why_tests_cant": "GPU round-trip tests cover a few shapes (and skip mat2, mat3 and all doubles because of naga bugs); the rule must hold for every shape.", "anchors": ["crevice-derive/src/layout.rs: emit", "src/std140/primitives.rs", "src/std140/dynamic_uniform.rs"]}
{"id": "C05", "title": "std430 layout agrees with the GLSL specification", "statement": "Same as C04 for std430: structs and matrices are not rounded up to 16, everything else as in std140.", "quantifier": "all type trees of any depth and width", "why_tests_cant": "As C04.", "anchors": ["crevice-derive/src/layout.rs: emit", "src/std430/primitives.rs"]}
{"id": "C06", "title": "A shader reads back exactly the values that were converted", "statement": "For every type and every value of it, decoding value.as_stdN().as_bytes() by the GLSL layout rules (at offset 0, column-major matrices, bool = non-zero word) yields that value, component by component.", "quantifier": "all types, all values (all bit patterns of floats and integers), both layouts, both endiannesses", "why_tests_cant": "Value and type spaces are infinite; requires a GPU to test even one.", "anchors": ["crevice-derive/src/layout.rs: emit", "src/std140/traits.rs: Std140, AsStd140, WriteStd140", "src/std430/traits.rs: Std430, AsStd430, WriteStd430", "src/util.rs: easy_impl", "src/bool.rs"]}
{"id": "C07", "title": "as_bytes never exposes uninitialised memory", "statement": "The repr(C) layout of every Output type has no implicit padding: every byte of as_bytes() is an initialised byte of some field, so the unsafe Pod impls are sound in this respect.", "quantifier": "all types the derive accepts, all values, every target data layout", "why_tests_cant": "Uninitialised bytes are undefined behaviour, not an observable test failure; and it must hold for every struct and every platform alignment.", "anchors": ["crevice-derive/src/layout.rs: emit (unsafe impl Pod)", "src/std140/primitives.rs", "src/std430/primitives.rs"]}
{"id": "C08", "title": "Every byte pattern is a valid Output (Pod/Zeroable)", "statement": "Every byte string of the right length is the byte image of exactly one value of the Output type; in particular the all-zero string is.", "quantifier": "all types, all byte strings of length size_of::<Output>()", "why_tests_cant": "2^(8n) byte strings for each of infinitely many types.", "anchors": ["crevice-derive/src/layout.rs: emit (unsafe impl Pod, Zeroable)", "src/bool.rs: Bool", "src/std140/primitives.rs", "src/std430/primitives.rs"]}
{"id": "C09", "title": "All padding bytes are zero", "statement": "For every value converted with as_stdN, every byte of as_bytes() that does not belong to a scalar component of the GLSL layout is zero. (Exception proved separately: a field whose declared type already is a layout type, e.g. std140::Mat3, is passed through unchanged, including whatever its public _pad fields hold.)", "quantifier": "all types without raw layout-typed fields, all values, every byte position", "why_tests_cant": "Must hold at every padding position of every shape.", "anchors": ["crevice-derive/src/layout.rs: emit (..Zeroable::zeroed())", "src/util.rs: easy_impl"]}
{"id": "C10", "title": "Conversion round-trips", "statement": "from_stdN(as_stdN(x)) == x for every value x of every convertible type.", "quantifier": "all types and values, both layouts", "why_tests_cant": "One type/one value is tested in tests/test.rs.", "anchors": ["crevice-derive/src/layout.rs: emit", "src/util.rs: easy_impl, minty_impl", "src/std140/traits.rs: Std140, AsStd140, WriteStd140", "src/std430/traits.rs: Std430, AsStd430, WriteStd430", "src/bool.rs", "src/std140/dynamic_uniform.rs"]}
{"id": "C11", "title": "Byte-level round trip", "statement": "Reinterpreting as_stdN(x).as_bytes() as the Output type and converting with from_stdN gives back x; as_bytes is injective.", "quantifier": "all types, values, endiannesses, targets", "why_tests_cant": "Infinite value space.", "anchors": ["crevice-derive/src/layout.rs: emit", "src/std140/traits.rs: Std140, AsStd140, WriteStd140", "src/std430/traits.rs: Std430, AsStd430, WriteStd430"]}
{"id": "C12", "title": "Read-back of any GPU buffer agrees with the GLSL view and ignores padding", "statement": "For every byte buffer of the right length (including arbitrary garbage in the padding), from_stdN(from_bytes(buffer)) succeeds and is the value a GLSL shader sees in that buffer; two buffers that agree on all non-padding bytes convert to the same value.", "quantifier": "all types, all byte buffers", "why_tests_cant": "Garbage in padding and all bit patterns cannot be enumerated.", "anchors": ["crevice-derive/src/layout.rs: emit", "src/std140/traits.rs: Std140, AsStd140, WriteStd140", "src/std430/traits.rs: Std430, AsStd430, WriteStd430", "src/bool.rs"]}
{"id": "C13", "title": "ALIGNMENT is a power of two", "statement": "Std140::ALIGNMENT and Std430::ALIGNMENT of every Output type are powers of two, as the trait documents. (False of the code in exactly one case, proved: a struct that contains no scalar at all in std430 gets ALIGNMENT 0.)", "quantifier": "all type trees", "why_tests_cant": "Needs induction over nested structs.", "anchors": ["crevice-derive/src/layout.rs: emit (min_struct_alignment)", "crevice-derive/src/lib.rs: derive_as_std430", "src/std140/traits.rs: Std140, AsStd140, WriteStd140", "src/std430/traits.rs: Std430, AsStd430, WriteStd430"]}
{"id": "C14", "title": "Alignment is hereditary: every nested leaf is absolutely aligned", "statement": "If a derived struct is placed at a multiple of its ALIGNMENT, every member at every depth lies at a multiple of its own GLSL alignment; the size of a derived struct is a multiple of its ALIGNMENT, so arrays of it keep every element aligned.", "quantifier": "all types, all paths, all base offsets and array indices", "why_tests_cant": "Unbounded depth and index.", "anchors": ["crevice-derive/src/layout.rs: emit"]}
{"id": "C15", "title": "All size queries agree", "statement": "size_of::<Output>() = stdN_size_static() = value.stdN_size() = as_bytes().len() for every value; the size does not depend on the value; and writing the value to a fresh Writer makes len() equal to it.", "quantifier": "all types and values", "why_tests_cant": "Ranges over all types and values.", "anchors": ["src/std140/traits.rs: Std140, AsStd140, WriteStd140", "src/std430/traits.rs: Std430, AsStd430, WriteStd430", "src/std140/writer.rs: Writer", "src/std430/writer.rs: Writer"]}
{"id": "C16", "title": "std430 never needs more room than std140", "statement": "For any type convertible to both layouts, std430 alignment, size and every member offset are at most the std140 ones, and the std140 ones are at most four times the std430 ones (a bound a struct of one f32 attains).", "quantifier": "all type trees convertible to both", "why_tests_cant": "Relational claim over all shapes.", "anchors": ["crevice-derive/src/layout.rs: emit", "src/std140/primitives.rs", "src/std430/primitives.rs"]}
{"id": "C17", "title": "Writer::write places the value at the least aligned offset and pads with zeros", "statement": "A successful write of a value returns the least multiple of its ALIGNMENT that is >= len(), delivers to the sink exactly that many zero bytes followed by the value's bytes, and advances len() to the end of the value.", "quantifier": "all writer states, values, and sinks that accept the bytes", "why_tests_cant": "All offsets x alignments x values.", "anchors": ["src/std140/writer.rs: Writer", "src/std430/writer.rs: Writer"]}
{"id": "C18", "title": "Writer histories: everything written stays where write said it is", "statement": "After any sequence of successful writes, for each write the bytes at its returned offset are that value's bytes, the regions are disjoint and in order, every other byte is zero, and len() is the total number of bytes delivered.", "quantifier": "all histories of writes of any length over any values", "why_tests_cant": "Unbounded histories.", "anchors": ["src/std140/writer.rs: Writer", "src/std430/writer.rs: Writer"]}
{"id": "C19", "title": "Sizer predicts Writer", "statement": "For every sequence of types, adding them to a Sizer returns the same offsets, one by one, and the same final len() as successfully writing values of those types with a Writer.", "quantifier": "all sequences of types and values of those types", "why_tests_cant": "Unbounded sequences.", "anchors": ["src/std140/sizer.rs: Sizer", "src/std430/sizer.rs: Sizer", "src/std140/writer.rs: Writer", "src/std430/writer.rs: Writer"]}
{"id": "C20", "title": "Slices, iterators and element-wise writes are interchangeable", "statement": "Writing a slice, calling write_iter, or writing each element in turn deliver the same bytes and leave the same len(); the returned offset is that of the first element, or len() when there is none; each element is written exactly once; writing xs ++ ys equals writing xs then ys.", "quantifier": "all slices of any length and nesting, all writer states, all sinks including failing ones", "why_tests_cant": "Slice lengths are unbounded (a released version wrote the first element twice).", "anchors": ["src/std140/writer.rs: Writer", "src/std430/writer.rs: Writer", "src/std140/traits.rs: Std140, AsStd140, WriteStd140", "src/std430/traits.rs: Std430, AsStd430, WriteStd430", "CHANGELOG.md: #46"]}
{"id": "C21", "title": "Slice elements have the GLSL array stride", "statement": "Elements of a homogeneous slice are at a constant stride from the returned offset; in std430 that stride is the GLSL array stride for every element type, in std140 it is the GLSL stride exactly when the element alignment is at least 16. (Proved false of the code for std140 scalars and two-component vectors, e.g. [f32]: stride 4 instead of 16.)", "quantifier": "all element types, all slice lengths, all indices, all starting positions", "why_tests_cant": "All indices and types.", "anchors": ["src/std140/traits.rs: Std140, AsStd140, WriteStd140", "src/std430/traits.rs: Std430, AsStd430, WriteStd430"]}
{"id": "C22", "title": "Header plus array buffers match the GLSL block layout", "statement": "Writing the members of a GLSL block in order with a Writer and then a slice of derived structs puts every member and every array element at the offset GLSL assigns in `buffer { members...; T[] items; }`, and a shader reading the buffer sees the written values.", "quantifier": "all member lists, element types, array lengths and values", "why_tests_cant": "This is the documented use; shapes and lengths are unbounded.", "anchors": ["src/std140/writer.rs: Writer", "src/std430/writer.rs: Writer", "src/lib.rs: Sequential Types example"]}
{"id": "C23", "title": "Writing the fields one by one equals writing the struct", "statement": "Writing a struct's fields in order with a fresh Writer delivers exactly the struct's as_bytes() without its trailing padding, at exactly the derived field offsets.", "quantifier": "all derived structs and values", "why_tests_cant": "Relational claim across two implementations of the padding logic, for all shapes.", "anchors": ["src/std140/writer.rs: Writer", "src/std430/writer.rs: Writer", "crevice-derive/src/layout.rs: emit"]}
{"id": "C24", "title": "Behaviour under sink errors", "statement": "If the sink fails at any point, the bytes delivered are a prefix of what a successful write would deliver, write returns the error (an error exactly if some call to the sink failed), len() never exceeds the number of bytes delivered, and no value is reported as written; before the first error len() equals the number of bytes delivered. (Proved: after an error inside the padding, retrying puts later values at misaligned positions in the sink.)", "quantifier": "all values, all sinks, all failure points, all subsequent histories", "why_tests_cant": "Every failure point of every history.", "anchors": ["src/std140/writer.rs: Writer", "src/std430/writer.rs: Writer"]}
{"id": "C25", "title": "A buffer of Sizer::len() bytes is exactly enough", "statement": "Writing a sequence of values into a fixed buffer (&mut [u8]) succeeds if and only if the buffer has at least Sizer::len() bytes; on success the bytes beyond len() are untouched.", "quantifier": "all sequences, all buffer lengths and contents", "why_tests_cant": "All capacities and sequences.", "anchors": ["src/std140/sizer.rs: Sizer", "src/std430/sizer.rs: Sizer", "src/std140/writer.rs: Writer", "src/std430/writer.rs: Writer"]}
{"id": "C26", "title": "DynamicUniform aligns to 256 and changes nothing else", "statement": "DynamicUniform<T> has the size, bytes and round-trip of T, an ALIGNMENT that is max(256, T's) and a multiple of both; every successful write lands at a multiple of 256.", "quantifier": "all T, all values, all writer states", "why_tests_cant": "All T.", "anchors": ["src/std140/dynamic_uniform.rs"]}
{"id": "C27", "title": "bool <-> Bool conversion", "statement": "true converts to the word 1, false to 0, any non-zero word converts back to true and only zero to false; bool -> Bool -> bool is the identity, Bool -> bool -> Bool normalises to 0/1.", "quantifier": "all 2^32 words", "why_tests_cant": "2^32 words.", "anchors": ["src/bool.rs: Bool"]}
{"id": "C28", "title": "glsl_definition is unambiguous GLSL text", "statement": "Parsing the text of glsl_definition() with the GLSL struct grammar gives back the struct's name and its fields' type and name, in order, whenever the Rust identifiers are GLSL identifiers, and does not parse otherwise (raw identifiers such as r#type, GLSL keywords, structs without fields); whatever the identifiers, different structs give different text.", "quantifier": "all struct names and field lists", "why_tests_cant": "All identifiers and lengths.", "anchors": ["src/glsl.rs: GlslStruct::glsl_definition", "crevice-derive/src/glsl.rs: emit"]}
{"id": "C29", "title": "Generated GLSL and generated bytes agree", "statement": "Take the GLSL text generated for a struct and for the structs it contains, parse it, resolve the type names as GLSL does and lay the result out by the GLSL rules: the offsets are those of the Output type and a shader reads the converted values.", "quantifier": "all struct trees deriving GlslStruct and AsStdN, all values", "why_tests_cant": "Joint correctness of two derives over all shapes.", "anchors": ["crevice-derive/src/glsl.rs: emit", "src/glsl.rs", "crevice-derive/src/layout.rs: emit"]}
{"id": "C30", "title": "The derive accepts exactly named-field structs and its const functions terminate", "statement": "The derive macros panic on tuple structs, unit structs, enums and unions and on nothing else; for a named-field struct without generic parameters whose field types are convertible to something other than a DynamicUniformStd140 (which has no Debug) and none of whose fields is called _pad<i> the generated code resolves: padding functions are not recursive and evaluate to a value. A field called _pad<i> (i < number of fields) is rejected by the compiler, and so is every struct with generic parameters (the macro expands it, but leaves the arguments off the generated type).", "quantifier": "all derive inputs", "why_tests_cant": "All field lists; non-termination and name clashes surface only for particular inputs.", "anchors": ["crevice-derive/src/layout.rs: emit", "crevice-derive/src/glsl.rs: emit"]}
{"id": "C31", "title": "Generated item names do not collide", "statement": "The names of the structs and padding functions generated for any set of distinct struct names, deriving either or both layouts, are pairwise distinct, and the generated field names are distinct when no user field is called _pad<i>.", "quantifier": "all sets of struct names and numbers of fields", "why_tests_cant": "All identifiers.", "anchors": ["crevice-derive/src/layout.rs: emit (format_ident!)"]}
{"id": "C32", "title": "Every math library gives the same bytes", "statement": "A mint, cgmath, glam or nalgebra vector, point or matrix converts to the same bytes as any other library's value with the same components; each is mapped to the layout type with its dimension and scalar type, and to the GLSL name of that type.", "quantifier": "all table rows, all values; library conversions into/from mint are assumed to preserve components", "why_tests_cant": "All values; every row of four tables.", "anchors": ["src/imp/imp_mint.rs", "src/imp/imp_cgmath.rs", "src/imp/imp_glam.rs", "src/imp/imp_nalgebra.rs", "src/util.rs"]}
{"id": "C33", "title": "usize arithmetic: overflow is the only deviation", "statement": "With w-bit usize, Sizer and Writer offsets and stdN_size equal the mathematical ones whenever the total fits; with overflow checks a panic happens exactly when it does not; without, offsets and sizes are the mathematical ones modulo 2^w.", "quantifier": "all sequences of types with power-of-two alignments, all word widths", "why_tests_cant": "Needs totals near 2^32/2^64.", "anchors": ["src/std140/sizer.rs: Sizer", "src/std430/sizer.rs: Sizer", "src/std140/writer.rs: Writer", "src/std430/writer.rs: Writer", "src/internal.rs: align_offset"]}
{"id": "C34", "title": "stdN_size of slices", "statement": "stdN_size() of a slice is the number of bytes written to an empty Writer; for slices of one AsStdN type it is also the distance from the returned offset to len() when written at any position; it never panics.", "quantifier": "all slices, all positions", "why_tests_cant": "All lengths and positions.", "anchors": ["src/std140/traits.rs: Std140, AsStd140, WriteStd140", "src/std430/traits.rs: Std430, AsStd430, WriteStd430"]}
{"id": "C35", "title": "Output types pass through unchanged", "statement": "Converting a value that already is an Output type is the identity; writing x and writing x.as_stdN() (via write or write_stdN) have the same effect.", "quantifier": "all Output types and values, all writer states and sinks", "why_tests_cant": "All types.", "anchors": ["src/std140/traits.rs: Std140, AsStd140, WriteStd140", "src/std430/traits.rs: Std430, AsStd430, WriteStd430", "src/std140/writer.rs: Writer", "src/std430/writer.rs: Writer"]}
{"id": "C36", "title": "Nesting is compositional", "statement": "The bytes of a field inside a converted struct are exactly the bytes that field gives when converted alone, at the field's offset, at any nesting depth.", "quantifier": "all structs, fields and values", "why_tests_cant": "All shapes and values.", "anchors": ["crevice-derive/src/layout.rs: emit"]}
{"id": "C37", "title": "Layout depends only on the sequence of field types", "statement": "Renaming structs or fields, at any nesting depth, changes no offset, size, alignment or byte; appending a field never moves earlier fields.", "quantifier": "all structs and renamings", "why_tests_cant": "Metamorphic claim over all shapes.", "anchors": ["crevice-derive/src/layout.rs: emit"]}
{"id": "C38", "title": "Re-encoding normalises", "statement": "as_stdN(from_stdN(o)) has zero padding and 0/1 bools, has the same GLSL view as o, and applying it twice equals applying it once.", "quantifier": "all types without raw layout fields, all Output values", "why_tests_cant": "All Output bit patterns.", "anchors": ["crevice-derive/src/layout.rs: emit", "src/bool.rs"]}
{"id": "C39", "title": "Offsets do not depend on the sink", "statement": "Successful writes return the same offsets and len() whatever the sink; different writers fed the same values deliver the same bytes.", "quantifier": "all values, all pairs of sinks", "why_tests_cant": "All histories and sinks.", "anchors": ["src/std140/writer.rs: Writer", "src/std430/writer.rs: Writer"]}
{"id": "C40", "title": "debug_metrics reports the real layout offsets", "statement": "With the debug-methods feature, the size, alignment and per-field offsets reported by debug_metrics are the real ones, and the text determines them. (Proved: the per-field size is that of the source type, e.g. 1 for a bool that occupies 4 bytes; and for a field whose type is called Field it is the size of a struct local to debug_metrics; a struct without fields does not compile with the feature.)", "quantifier": "all derived structs", "why_tests_cant": "All shapes.", "anchors": ["crevice-derive/src/layout.rs: emit (debug_methods)"]}
{"id": "C41", "title": "Written buffers read back", "statement": "After any sequence of successful writes (single values or slices), reading the buffer at the returned offsets gives the written values: in Rust with from_bytes and from_stdN, and in a shader.", "quantifier": "all types and values, all sequences of writes, all lawful sinks", "why_tests_cant": "Round trip over unboundedly many histories.", "anchors": ["src/std140/writer.rs: Writer", "src/std430/writer.rs: Writer", "src/std140/traits.rs: Std140, AsStd140, WriteStd140", "src/std430/traits.rs: Std430, AsStd430, WriteStd430"]}
{"id": "C42", "title": "Output types can be viewed in place", "statement": "align_of of an Output type divides its ALIGNMENT and divides 8, so in a buffer whose address is a multiple of 8 the bytes at a returned offset can be cast (bytemuck) to the Output type and are the converted value.", "quantifier": "all targets, all types and values, all sequences of writes", "why_tests_cant": "All shapes and targets.", "anchors": ["src/std140/writer.rs: Writer", "src/std430/writer.rs: Writer", "crevice-derive/src/layout.rs: emit", "src/std140/traits.rs: Std140, AsStd140, WriteStd140", "src/std430/traits.rs: Std430, AsStd430, WriteStd430"]}
{"id": "C43", "title": "ALIGNMENT is bounded", "statement": "ALIGNMENT is at most 32, and exactly 256 for DynamicUniform; every multiple of 256 (of 32 without DynamicUniform) is a suitable position for every type.", "quantifier": "all accepted types", "why_tests_cant": "All nesting depths.", "anchors": ["crevice-derive/src/layout.rs: emit", "src/std140/dynamic_uniform.rs"]}
{"id": "C44", "title": "The layout does not depend on the target", "statement": "Which types convert, their ALIGNMENT, size and the offsets of all members are the same on every target, whatever the Rust alignment of f64 and the other primitives; on targets of equal byte order values have the same bytes, and on targets of different byte orders each scalar component has the reverse bytes at the same place, with zeros everywhere else.", "quantifier": "all pairs of targets, all types and values", "why_tests_cant": "CI runs one or two targets.", "anchors": ["crevice-derive/src/layout.rs: emit", "src/std140/traits.rs: Std140, AsStd140, WriteStd140", "src/std430/traits.rs: Std430, AsStd430, WriteStd430"]}
{"id": "C45", "title": "When std140 and std430 agree", "statement": "A type without mat2 in which every struct has a member of std430 alignment at least 16 has the same ALIGNMENT, size, offsets and bytes in both layouts; a struct without such a member always differs.", "quantifier": "all types convertible to both layouts, all values", "why_tests_cant": "All shapes.", "anchors": ["crevice-derive/src/layout.rs: emit", "src/std140/primitives.rs", "src/std430/primitives.rs"]}
{"id": "C46", "title": "No space is wasted", "statement": "Among all ways to lay out the fields of a struct (or the values given to a Writer) in order, aligned and without overlap, crevice's has the least offsets and the least size. The padding in a struct is at most 31 bytes for each field and 31 at the end; in a buffer it is at most 31 bytes for each value written, or 255 for each if there are DynamicUniforms among them.", "quantifier": "all structs, all sequences of writes, all alternative layouts", "why_tests_cant": "Optimality over all alternatives.", "anchors": ["crevice-derive/src/layout.rs: emit", "src/std140/writer.rs: Writer", "src/std430/writer.rs: Writer"]}
{"id": "C47", "title": "User-written WriteStdN implementations", "statement": "Whatever a user-written write_stdN does with the Writer it is given (write values and slices, read len, branch on the results, return any offset or error), on a sink that does not fail the values it writes are laid out in order at the least aligned offsets with zeros between them, independently of the sink; if it passes errors on, a failure leaves a prefix of that; the provided stdN_size is the number of bytes it writes at offset 0, and at any sufficiently aligned offset if it treats offsets relatively.", "quantifier": "all implementations (arbitrary interaction trees over write_std, len and return), all lawful sinks, all starting positions", "why_tests_cant": "Ranges over all user programs, not values.", "anchors": ["src/std140/traits.rs: Std140, AsStd140, WriteStd140", "src/std430/traits.rs: Std430, AsStd430, WriteStd430", "src/std140/writer.rs: Writer", "src/std430/writer.rs: Writer"]}
{"id": "C48", "title": "Hand-written AsStdN implementations", "statement": "A type for which the user implements AsStd140/AsStd430 by conversion to and from another type may be used wherever that type may; it and everything containing it has the same Output layout as with that other type in its place, and converts to the bytes of the converted value, whatever the user's conversions compute.", "quantifier": "all types containing hand-written implementations at any depth, all lawful conversions, all values", "why_tests_cant": "Ranges over all user-written implementations.", "anchors": ["src/std140/traits.rs: Std140, AsStd140, WriteStd140", "src/std430/traits.rs: Std430, AsStd430, WriteStd430", "crevice-derive/src/layout.rs: emit"]}
{"id": "C49", "title": "Comparing and printing layout values", "statement": "== on two std140 vectors holds exactly if the components are equal (floats as IEEE 754 numbers, so NaN differs from itself and -0 equals 0; integers and Bools as words); for integer and Bool vectors this is equality of as_bytes(). == on Bools made from bools is equality of the bools, and {:?} of any Bool shows the truth value that converting it back gives. (std430 vectors and matrices have no ==.)", "quantifier": "all pairs of values of every std140 vector type, all words", "why_tests_cant": "All pairs of bit patterns, NaNs and signed zeros included.", "anchors": ["src/bool.rs: Bool", "src/std140/primitives.rs: vectors!", "src/std430/primitives.rs: vectors!"]}
{"id": "C50", "title": "write_iter on arbitrary iterators", "statement": "write_iter of an iterator yielding x, xs... has the same result and effect as writing the slice [x, xs...], and takes from the iterator exactly the items up to the end or up to and including the first whose write fails; of an empty iterator it writes nothing and returns len(); an endless iterator never returns on a sink that never fails, and fills a fixed buffer exactly, ending in an error. (Proved: an iterator that resumes after saying None at once gets its items written, but the returned offset need not be that of the first.)", "quantifier": "all iterators (arbitrary state machines, endless and not fused included), all values, all sinks", "why_tests_cant": "Iterators are arbitrary stateful code, including endless and ill-behaved ones.", "anchors": ["src/std140/writer.rs: write_iter", "src/std430/writer.rs: write_iter"]}
{"id": "C51", "title": "Updating a buffer in place", "statement": "Assigning to one value of a written sequence, to a field of it at any nesting depth, or to an element of a written slice (at returned offset + index times stride), changes the buffer exactly at (returned offset) + (field offset): overwriting those bytes with the bytes of the new value gives the buffer that writing the new values from scratch gives; all returned offsets stay the same.", "quantifier": "all types and values, all field paths, all sequences of writes, all lawful sinks", "why_tests_cant": "All shapes, depths and histories.", "anchors": ["src/std140/writer.rs: Writer", "src/std430/writer.rs: Writer", "crevice-derive/src/layout.rs: emit", "src/std140/traits.rs: Std140, AsStd140, WriteStd140", "src/std430/traits.rs: Std430, AsStd430, WriteStd430"]}
{"id": "C52", "title": "Writers on part of a buffer, and one after the other", "statement": "Several Writers used one after the other on the same sink each return the offsets and deliver the bytes they would on an empty Vec, one after the other; a value is at (bytes before) + (returned offset), an aligned position of the sink if the bytes before are a multiple of its ALIGNMENT; starting a new Writer instead of going on with the old one makes no difference exactly if the alignments of all later values divide the len() reached. Through a Cursor at position pos a Writer overwrites exactly the bytes pos..pos+len() and succeeds exactly if a Sizer says they fit.", "quantifier": "all sequences of Writers and writes, all lawful sinks, all buffers and positions", "why_tests_cant": "All histories, buffers and positions.", "anchors": ["src/std140/writer.rs: Writer", "src/std430/writer.rs: Writer", "src/std140/sizer.rs: Sizer"]}
{"id": "C53", "title": "Buffers determine what was written", "statement": "Two sequences of successful writes of the same types that deliver the same bytes wrote the same values and returned the same offsets.", "quantifier": "all pairs of sequences of writes, all lawful sinks", "why_tests_cant": "Injectivity over all pairs of histories.", "anchors": ["src/std140/writer.rs: Writer", "src/std430/writer.rs: Writer", "src/std140/traits.rs: Std140, AsStd140, WriteStd140", "src/std430/traits.rs: Std430, AsStd430, WriteStd430"]}
{"id": "C54", "title": "The bytes are exactly the canonical encoding of the value", "statement": "For every type with a GLSL counterpart and no raw layout-typed part, as_stdN().as_bytes() of every value is byte for byte the canonical encoding of the GLSL value it stands for: the one byte string of the size of the GLSL type that a shader reads as that value, with zeros in all padding and every bool stored as 0 or 1. What a Writer delivers for an array or for the members of a block is the canonical encoding of the array or block, apart from zeros at its end. So the bytes depend on the GLSL type and value only.", "quantifier": "all supported types nested to any depth, all values, both layouts, all targets, all blocks and arrays, all lawful sinks", "why_tests_cant": "A complete characterisation of the output for all types and values; tests compare a few sample images.", "anchors": ["src/std140/traits.rs: Std140, AsStd140, WriteStd140", "src/std430/traits.rs: Std430, AsStd430, WriteStd430", "crevice-derive/src/layout.rs: emit", "src/std140/writer.rs: Writer", "src/std430/writer.rs: Writer"]}
{"id": "C55", "title": "What the sink sees, and what is left when writing stops half-way", "statement": "A write calls write_all once per padding byte (with a single zero) and once per value (with all its bytes), in order, and makes no call after one has failed. If writing stops inside a write, because of an error or a crash, the sink holds a prefix of what it would have held in the end, and every value written before, as well as every value whose last byte has arrived, can be read back at its offset.", "quantifier": "all types and values, all sequences of writes, every point at which writing stops, all lawful sinks", "why_tests_cant": "Every crash point of every history.", "anchors": ["src/std140/writer.rs: Writer", "src/std430/writer.rs: Writer"]}
{"id": "C56", "title": "Writing through a BufWriter", "statement": "A Writer on a BufWriter of any capacity returns the same offsets as one on the inner sink, and after a successful flush the inner sink has received the same bytes; until then at most `capacity` bytes are missing at the end. (Proved: without the flush an error of the inner sink may go unnoticed.)", "quantifier": "all values, all sequences of writes, all capacities, all lawful sinks with any errors", "why_tests_cant": "Every interleaving of writes, implicit flushes and errors.", "anchors": ["src/std140/writer.rs: Writer", "src/std430/writer.rs: Writer"]}
{"id": "C57", "title": "Compile-time work of the derives", "statement": "The padding of an n-field struct is computed by n generated const functions, each called once as an array length; the i-th contains one call of each earlier one, n(n-1)/2 calls in all. An evaluator that executes every call executes 2^i functions for the i-th and 2^n - 1 for the struct.", "quantifier": "all structs with named fields of any length, both layouts", "why_tests_cant": "Every number of fields; a test sees one struct on one compiler.", "anchors": ["crevice-derive/src/layout.rs: emit"]}
{"id": "C58", "title": "Deriving over types whose traits were implemented outside the crate", "statement": "If every field's Output keeps the contract of the unsafe trait (ALIGNMENT a power of two and a multiple of the Rust alignment, no uninitialised bytes, every bit pattern valid) and its conversions are total and invert each other, then the derived struct keeps the same contracts, its fields lie at the least multiples of their ALIGNMENTs, and its bytes are those of the fields at these offsets with zeros elsewhere. The derive checks none of this; without the alignment conditions as_bytes reads uninitialised memory (proved).", "quantifier": "all field lists with arbitrary implementations of the traits, both layouts, all targets", "why_tests_cant": "Ranges over all code users may write.", "anchors": ["src/std140/traits.rs: Std140, AsStd140, WriteStd140", "src/std430/traits.rs: Std430, AsStd430, WriteStd430", "crevice-derive/src/layout.rs: emit"]}
{"id": "C59", "title": "Panics in client code leave the Writer usable", "statement": "When a conversion (as_stdN), an iterator or the sink panics inside a Writer method, the sink has received exactly what writing the values converted before would have given it (no padding for the value whose conversion panicked), and len() counts it; if the client catches the panic and goes on with the same Writer, later values are placed as if nothing had happened. A value's stdN_size never panics; a slice's panics iff a conversion does.", "quantifier": "all arguments (nested slices included) with panics at any positions, all sequences of writes with caught panics, all sinks that accept, fail or panic at any call", "why_tests_cant": "Every panic point of every history.", "anchors": ["src/std140/traits.rs: Std140, AsStd140, WriteStd140", "src/std430/traits.rs: Std430, AsStd430, WriteStd430", "src/std140/writer.rs: Writer", "src/std430/writer.rs: Writer"]}
{"id": "C60", "title": "Derived code calls crevice's conversion", "statement": "A derived as_stdN converts each field with the field's own AsStdN if and only if that trait is in scope at the derive and the field's type has no other visible method of that name taking self or &self. If nothing of that name is visible the derive does not compile (unless there are no fields); if it compiles, what it calls is visible, has the right signature and can be called behind &self. An inherent method of that name silently takes the trait's place (proved); layout, ALIGNMENT and from_stdN are never affected.", "quantifier": "all field types with any set of inherent and trait methods, all chains of dereferences, both layouts", "why_tests_cant": "Ranges over everything that can be in scope where the macro is used.", "anchors": ["crevice-derive/src/layout.rs: emit"]}
{"id": "C61", "title": "Reading field by field; structs that change over time", "statement": "Reading a struct from any bytes of the right length gives in each field what reading that field's type at the field's offset gives. Removing fields moves no other field to a later offset and makes neither size nor ALIGNMENT larger. If fields are appended, the old and the new struct read the same values of the common fields from the same buffer, in particular the old struct can read what was written as the new one.", "quantifier": "all structs of supported types, all sub-lists of their fields, all buffer contents, both layouts", "why_tests_cant": "All pairs of struct versions and all buffers.", "anchors": ["src/std140/traits.rs: Std140, AsStd140, WriteStd140", "src/std430/traits.rs: Std430, AsStd430, WriteStd430", "crevice-derive/src/layout.rs: emit"]}
{"id": "C62", "title": "The text the derives emit", "statement": "For every struct with named fields the token stream emitted by each derive is a sequence of Rust items, in one way; read so and compiled, the items give the struct exactly the AsStdN implementation (Output type with its memory layout, ALIGNMENT, as_stdN, from_stdN) and the GLSL name and fields that the other properties are about. The generated struct is repr(C), has the visibility of the input and private fields, and a public as_bytes; debug_definitions shows the compiled struct and padding functions. On every other input the macro panics with the message for its kind. With generic parameters the items never compile.", "quantifier": "all derive inputs (any name, visibility, generic parameters, fields of any type), both layouts, all targets", "why_tests_cant": "A test looks at the expansion of one struct; this is about all of them.", "anchors": ["crevice-derive/src/layout.rs: emit", "crevice-derive/src/glsl.rs: emit"]}
{"id": "C63", "title": "The program text of the library does what the properties say", "statement": "The program text of src/internal.rs, traits.rs, writer.rs, sizer.rs of both layouts, dynamic_uniform.rs, bool.rs and glsl_definition of glsl.rs, read by the grammar of Rust and executed by its rules, never gets stuck, and its calls (Writer::new, write, write_iter, write_slice, len, Sizer::new, add, len, stdN_size, stdN_size_static, as_bytes, DynamicUniform's conversions, Bool's conversions, glsl_definition, align_offset, max, max_arr) return, panic, diverge and change the Writer, the sink and the iterator exactly as the machine-word models of the other properties do. So values written by this text can be read back by a shader.", "quantifier": "all client types, conversions that may panic, sinks that may fail or panic, iterators that may end, panic or go on for ever, all sequences of writes, widths of usize, with and without overflow checks, both layouts", "why_tests_cant": "Relates program text to its meaning for all client code.", "anchors": ["src/internal.rs: align_offset, max, max_arr", "src/std140/traits.rs", "src/std430/traits.rs", "src/std140/writer.rs: Writer", "src/std430/writer.rs: Writer", "src/std140/sizer.rs: Sizer", "src/std430/sizer.rs: Sizer", "src/std140/dynamic_uniform.rs", "src/bool.rs: Bool", "src/glsl.rs: GlslStruct::glsl_definition"]}
{"id": "C64", "title": "The program text of the derive macros does what the properties say", "statement": "The program text of crevice-derive (lib.rs, layout.rs, glsl.rs), read by the grammar of Rust and executed by its rules with the documented behaviour of quote!, format_ident! and syn, never gets stuck. On a struct with named fields derive(AsStd140), derive(AsStd430) and derive(GlslStruct) return Rust text that reads as items implementing exactly the layout, conversions and GLSL name and fields that the other properties are about; on tuple and unit structs, enums and unions they panic with the message for that kind of input, and no indexing in them ever panics. The feature debug-methods only adds one impl at the end, whose debug_definitions shows the generated struct and padding functions.", "quantifier": "all derive inputs (any name, visibility, generic parameters, fields of any number and type), both layouts, with and without debug-methods, all targets", "why_tests_cant": "Relates the macro's program text to what it emits for all inputs.", "anchors": ["crevice-derive/src/lib.rs", "crevice-derive/src/layout.rs: emit", "crevice-derive/src/glsl.rs: emit"]}
{"id": "C65", "title": "The impls the tables and macros of the library expand to", "statement": "The program text of src/std140/primitives.rs, src/std430/primitives.rs, src/util.rs, src/imp/*.rs, bool.rs and dynamic_uniform.rs with its macro_rules expanded by Rust's rules, read by Rust's rules for names, impls, bounds, associated types and constants and memory layout, gives every type exactly the AsStd140, AsStd430 and Glsl implementations the other properties are about: the same types have one, with the same Output type and memory layout, ALIGNMENT, conversions in both directions and GLSL name. Output types are Zeroable, Pod and Copy. At most one implementation of AsStdN, StdN, Glsl, Zeroable or Pod applies to any type, and no type outside of the supported ones has AsStdN.", "quantifier": "all types written with the machine types, bool, mint, cgmath, glam and nalgebra types, DynamicUniform and <T as AsStdN>::Output in any nesting; all types for uniqueness; all values converted; both layouts", "why_tests_cant": "Relates the macros' program text to its meaning for all types and all values.", "anchors": ["src/util.rs: easy_impl, minty_impl", "src/std140/primitives.rs", "src/std430/primitives.rs", "src/imp/imp_mint.rs", "src/imp/imp_cgmath.rs", "src/imp/imp_glam.rs", "src/imp/imp_nalgebra.rs", "src/bool.rs", "src/std140/dynamic_uniform.rs", "src/glsl.rs: Glsl"]}
{"id": "C66", "title": "Cargo features are additive", "statement": "With any combination of the Cargo features std, cgmath, glam and nalgebra, every supported type whose libraries are on has exactly the AsStd140, AsStd430 and Glsl implementations of the other properties, a type with a part from a library that is off has none, at most one implementation of AsStdN, StdN or Glsl applies to any type, and turning a feature on changes no implementation that was there before. Without std exactly WriteStd140, WriteStd430, the two Writers and the trait GlslStruct are missing.", "quantifier": "all 16 combinations of features, all types (also those of other crates), both layouts; written types in any nesting of DynamicUniform and <T as AsStdN>::Output", "why_tests_cant": "Tests run with one or two combinations of features and a few types; the claim is about all combinations and all types.", "anchors": ["src/lib.rs", "src/imp.rs", "src/std140.rs", "src/std430.rs", "src/std140/traits.rs", "src/std430/traits.rs", "src/glsl.rs", "src/imp/imp_mint.rs", "src/imp/imp_cgmath.rs", "src/imp/imp_glam.rs", "src/imp/imp_nalgebra.rs", "Cargo.toml: [features]"]}
{"id": "C67", "title": "Derives in a crate that uses crevice", "statement": "In a crate whose structs derive AsStd140 or AsStd430, the code that the derives insert and the code of crevice form one Rust program in which every struct with the derive has exactly one AsStdN implementation, with the size, padding, alignment and conversions of the other properties, every struct without it has none, at most one implementation of AsStdN, StdN, Glsl, GlslStruct, Zeroable or Pod applies to any type at all (coherence), and a shader finds every value in the bytes that as_stdN of the inserted code produces, however the structs are nested.", "quantifier": "all crates with structs with named fields (any number, any nesting, any supported field types, any derives), both layouts, all targets, all values", "why_tests_cant": "Tests compile a few structs. The claim is about every struct a user can write and about name lookup, trait selection and constant evaluation in the program that results.", "anchors": ["crevice-derive/src/lib.rs: derive_as_std140, derive_as_std430", "crevice-derive/src/layout.rs: emit", "src/internal.rs: align_offset, max_arr", "src/std140/traits.rs: AsStd140, Std140", "src/std430/traits.rs: AsStd430, Std430"]}
{"id": "C68", "title": "GlslStruct in a crate that uses crevice", "statement": "In a crate whose structs derive GlslStruct, the code that the derive inserts and the code of crevice form one Rust program in which every struct with the derive has exactly one Glsl and one GlslStruct implementation: NAME is the name of the struct and FIELDS lists, in order, the names of the fields and the NAMEs of their types, with structs as fields known by their own names. A struct without the derive has neither, and one with a field whose type has no GLSL name (bool, DynamicUniform) has no FIELDS. A shader whose text is the concatenated definitions finds every value in the bytes that as_stdN of the same crate produces.", "quantifier": "all crates with structs with named fields (any number, any nesting, any supported field types, any derives), both layouts, all targets, all values", "why_tests_cant": "Tests compare the text for a few structs. The claim is about every struct a user can write, and it ties the text of the shader to the bytes of the buffer when both come from code that macros insert.", "anchors": ["crevice-derive/src/lib.rs: derive_glsl_struct", "crevice-derive/src/glsl.rs: emit", "src/glsl.rs: Glsl, GlslStruct, GlslField", "src/glsl.rs: glsl_definition"]}
{"id": "C69", "title": "Derives with any set of Cargo features", "statement": "In a crate that uses crevice, the derives of the layouts need no features beyond those that the types of the fields ask for: with any set of features in which the library of every field is on, with or without std, AsStd140/AsStd430 and Glsl::NAME of a struct are exactly what they are with all features on, the Output can be zeroed, copied and read as bytes, and a shader finds every value in the bytes that as_stdN produces. A struct with a field from a library whose feature is off has no implementation of AsStdN and no FIELDS. At most one implementation of AsStdN, StdN, Glsl, Zeroable or Pod applies to any type. GlslStruct needs std: without it nothing implements GlslStruct, with it FIELDS is the same whatever other features are on.", "quantifier": "all sets of Cargo features, all crates with structs with named fields (any number, any nesting, any supported field types, any derives), both layouts, all targets, all values", "why_tests_cant": "Tests are run with one or two feature sets. There are sixteen feature sets and infinitely many structs; the claim is that no combination changes a layout, which would silently break a shader when some other crate in the build turns a feature on.", "anchors": ["Cargo.toml: features", "src/lib.rs: no_std", "src/imp.rs", "src/glsl.rs: GlslStruct", "crevice-derive/src/layout.rs: emit", "crevice-derive/src/glsl.rs: emit"]}
{"id": "C70", "title": "From the text of a whole program to the shader", "statement": "Take a crate with derives, crevice compiled with any set of Cargo features, and a main function, all as program text. With std, whatever the other features, values of types of the crate that are written with one Writer each give Ok(offset), where the offsets and the total are those that the Sizer gives for the types, and each value can be read back from the bytes at its offset, by Rust and by a shader. The Sizer, as_bytes, stdN_size_static and the conversions of Output types do the same with and without std; without std there is no Writer.", "quantifier": "all crates with structs with named fields (any number, any nesting, any supported field types, any derives), all sets of Cargo features, all lists of values whose total size fits into usize, both layouts, all targets and widths of usize, with and without overflow checks", "why_tests_cant": "The claim is about every program of a certain form. A test fixes one crate, one set of features and one list of values, and cannot show that no other combination of field types, features and order of writes ends up with a value in the wrong place.", "anchors": ["src/std140/writer.rs: Writer", "src/std430/writer.rs: Writer", "src/std140/sizer.rs: Sizer", "src/std430/sizer.rs: Sizer", "src/std140/traits.rs", "src/std430/traits.rs", "src/lib.rs", "crevice-derive/src/layout.rs: emit", "Cargo.toml: features"]}
{"id": "C71", "title": "Names: hygiene of the derives, and what is public", "statement": "Every name that derived layout code refers to is, with any set of Cargo features, a public item of crevice of the right kind at the path that is written (for an impl: with exactly the items that the trait asks for and has), or core::mem::size_of, or one of the few names taken from the scope of the derive (the struct itself, the items of the derive, u8, usize, str, the derives Debug, Clone, Copy). The same for derive(GlslStruct) with std; without std it is offered but refers to a trait that does not exist. The public names of crevice are exactly the documented ones; features only add names, every use inside the crate finds what it names with every set of features, and what is compiled without a feature mentions neither the standard library nor the math library that the feature brings.", "quantifier": "all derive inputs (any name, visibility, generic parameters, any number of fields of any types), both layouts, all sets of Cargo features, all paths", "why_tests_cant": "Which names a derive refers to depends on the input, and whether they exist depends on the set of features; tests compile a few inputs with a few sets, mostly with std and all math libraries on.", "anchors": ["crevice-derive/src/layout.rs: emit", "crevice-derive/src/glsl.rs: emit", "src/lib.rs", "src/std140.rs", "src/std430.rs", "src/imp.rs", "src/internal.rs", "src/glsl.rs", "Cargo.toml: features"]}
{"id": "C72", "title": "From the text of a whole program to a block of a shader", "statement": "The program of C70 that also writes slices, such as the one in the documentation (a count, then lights.as_slice()). Every call returns Ok of the offset that a Sizer gives for its first value, or of the length so far for an empty slice; every value, also inside of a slice, can be read back, by Rust and by a shader, at the offset that the Sizer gives for it, and the bytes are as many as the Sizer says. If the arguments are the members of a block in order, the elements of slices have the array stride of the layout, and no member but the last is an empty slice or leaves a gap, then a shader reads from the bytes exactly the values of all members, arrays included, at the offsets that were returned. x.stdN_size() is the room that an argument needs at the start of a buffer.", "quantifier": "all crates with structs with named fields (any number, any nesting, any supported field types, any derives), all sets of Cargo features with std, all lists of values and slices of any lengths whose total size fits into usize, both layouts, all targets and widths of usize, with and without overflow checks", "why_tests_cant": "The claim is about every program of a certain form and every number of elements; strides and gaps depend on the alignment of the elements and on what was written before. A test fixes one crate, one block and one length.", "anchors": ["src/std140/writer.rs: Writer", "src/std430/writer.rs: Writer", "src/std140/traits.rs: WriteStd140", "src/std430/traits.rs: WriteStd430", "src/std140/sizer.rs: Sizer", "src/lib.rs: documentation", "crevice-derive/src/layout.rs: emit"]}
{"id": "C73", "title": "Derived code type-checks", "statement": "What #[derive(AsStd140)] and #[derive(AsStd430)] return for a struct without type parameters is accepted by the type checker exactly if the struct is not called u8 or usize, its fields have distinct names that are not those of padding fields, every field type implements AsStdN with an Output that is Debug, AsStdN is in scope, and no field type has another method as_stdN: the emitted functions, constants, struct, and implementations have the types and items that the traits of crevice declare, only const functions are called in constants, supertraits and bounds hold, no item is defined twice. For a struct with type parameters it is never accepted. For #[derive(GlslStruct)]: exactly with the feature std, a name other than str, distinct field names, and field types that implement Glsl.", "quantifier": "all structs with named fields (any number, any field types about which nothing is known but the traits they implement, any names), both layouts, all sets of Cargo features of crevice, all crates of the user (which traits are in scope, which types implement what)", "why_tests_cant": "A test compiles one struct. That the derive never emits code that rustc rejects, and which inputs are at fault when it does, is a claim about every struct.", "anchors": ["crevice-derive/src/layout.rs: emit", "crevice-derive/src/glsl.rs: emit", "src/std140/traits.rs: Std140, AsStd140", "src/std430/traits.rs: Std430, AsStd430", "src/glsl.rs: Glsl, GlslStruct, GlslField", "src/internal.rs: align_offset, max_arr"]}
{"id": "C74", "title": "A crate with derives compiles", "statement": "Any crate of structs with any of the derives AsStd140, AsStd430 and GlslStruct, next to crevice with any set of Cargo features, is accepted by the type checker if every struct with a derive is accepted by the model (its field types have the implementations, with the features that are on, and no field has the name of a padding field), the names of the structs and of the structs that the derives add differ and are not u8, usize or str, and std is on if GlslStruct is derived. Derives of several structs, and several derives of one struct, do not get in each other's way: no function, struct or implementation is defined twice, and each derive finds its own items. Conversely, a crate that the type checker accepts satisfies the conditions on names, on the feature std and on what the field types implement.", "quantifier": "all crates with structs with named fields (any number of structs, any nesting, any supported field types, any derives), both layouts, all sets of Cargo features, all targets", "why_tests_cant": "The claim is about every crate; clashes between what different derives emit show up only in particular combinations of names and derives.", "anchors": ["crevice-derive/src/layout.rs: emit", "crevice-derive/src/glsl.rs: emit", "crevice-derive/src/lib.rs: derive_as_std140, derive_as_std430, derive_glsl_struct", "src/std140/traits.rs: AsStd140", "src/std430/traits.rs: AsStd430", "src/glsl.rs: Glsl, GlslStruct"]}
