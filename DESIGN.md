# Formal model of crevice — design

Lean 4 (4.33.0), core library plus single Mathlib modules where imported by name.
Source: `/repo` (crevice 0.20.1, crevice-derive), read as text and never built.

## 1. Architecture

| layer | files (`lean/Verif/…`) | contents |
|---|---|---|
| Spec | `Spec/*.lean` | what the English properties mean, written without reference to the model's functions: "least multiple ≥" (`Place`), the OpenGL std140/std430 rules and how a shader reads a buffer (`Glsl`), which GLSL type a Rust type stands for (`Correspond`, `Foreign`), occupied vs. padding bytes, the image of a sequence of writes (`Image`), a block of header + array (`Block`), the GLSL struct grammar (`GlslText`), which types compile (`Accept`), call graphs (`Calls`), renaming (`Rename`), when the two layouts coincide (`Coincide`), user `WriteStdN` code (`Custom`), removal of hand-written wrappers (`Strip`), a reference encoder for GLSL values (`Encode`) |
| Rust semantics | `Model/Rust.lean`, `Model/Sink.lean` | trusted reading of rustc/std: scalar sizes, `repr(C)`, `repr(transparent)`, arrays, functional record update, memory images with *uninitialised* bytes, `bytes_of`, `from_bytes`, `zeroed`, `io::Write::write_all` |
| Model | `Model/*.lean` | crevice, function by function, each definition citing file and lines |
| Proof | `Proof/*.lean` | helper lemmas |
| Props | `Props/*.lean` | the theorems `CNN_*`, each with a non-vacuity `example` beside it; `Props/Examples.lean` holds the shared concrete types and values |
| Source | `Source/*.lean` | the tokens of the files of `/repo` that C63 to C66 are about, generated by `tools/gen_source.py` (comments and whitespace dropped), and their parse trees (`Parsed*.lean`, generated; that they are the parse of the tokens is proved by computation in the kernel) |
| Text | `Spec/RustCode.lean` (grammar), `Spec/RustRun.lean` (execution), `Spec/TextClient.lean` (client code and how its values are seen by the models), `Model/Text.lean` (the programs), `Proof/Run*.lean` | C63: the program text executed |
| Table text | `Source/Tables.lean`, `Spec/MacroRules.lean` (expansion of `macro_rules!`), `Spec/RustTypes.lean` (names, impls, associated items, memory layout, values), `Spec/TypeNames.lean` (how types are written), `Model/TextTypes.lean` (the crate and what it takes from elsewhere), `Proof/Tables.lean`, `Proof/Text*.lean` | C65: the tables and macros of the library |
| Features | `Source/Modules.lean`, `Spec/Cfg.lean` (conditional compilation), `Spec/Features.lean` (which types ask for which feature), `Model/TextFeatures.lean` (files, modules and items with a set of features), `Proof/Conserve.lean` (two crates agree on what both can mention), `Proof/Feature*.lean` | C66: the table text with any set of Cargo features |
| Client text | `Spec/ClientText.lean` (what the derives emit as part of a source file), `Model/TextClient.lean` (a crate with derives, put together with crevice), `Model/TextClientFeatures.lean` (the same with any features), `Proof/Client*.lean` | C67, C68, C69: the derives run inside of a crate |
| Macro text | `Source/Derive.lean`, `Spec/MacroRun.lean` (execution of procedural macros), `Model/TextDerive.lean` (the program and its input), `Proof/Macro.lean`, `Proof/RunDerive*.lean` | C64: the text of the derives executed |
| Validate | `Validate/ProjectTests.lean` | the project's own tests and documentation examples replayed on the model (tests of the transcription, not proofs of properties) |
| Validate | `Validate/Fixtures.lean`, `Validate/ApplyTypes.lean`, `Validate/ApplyWriter.lean`, `Validate/ApplyText.lean` | every theorem of the manifest applied to concrete types, values and sinks, with all hypotheses discharged (`tools/check_applications.py` checks that none is left out) |

### How the code is modelled

* **Traits as dictionaries.** `impl AsStdN for T` is a record `Impl` (Output type, its `ALIGNMENT`,
  `as_stdN`, `from_stdN`, whether Output is `Debug`). `resolve tg env l : Ty → Option Impl` plays
  rustc's trait resolution; `none` = "does not compile". `Ty` is the inductive type of everything
  the crate can convert: scalars, `bool`, mint/cgmath types, glam/nalgebra types (`foreign`),
  derived structs nested to any depth, `DynamicUniform<T>`, Output types used as inputs, and
  types with a hand-written `AsStdN` implementation (`user`).
* **The derive macro is modelled as a macro.** `emitLayout` (layout.rs `emit`) maps a derive input
  to a *syntax tree* of the generated code (pad functions as const-expression ASTs that call each
  other by name, struct fields, initialisers, generic parameters). It is polymorphic in the type
  tokens it splices. A separate evaluator (`Generated.toImpl`) gives the generated code meaning:
  const evaluation with a call-stack bound, repr(C) layout, struct literals by field *name* with
  `..zeroed()`, compile errors for duplicate fields, missing `Debug`, missing generic arguments.
  Nothing about the resulting layout is assumed.
* **Macro-by-example tables** (`vectors!`, `matrices!`, `easy_impl!`, `minty_impl!`) are
  transcribed row by row. The expected answer for each library type is stated separately
  (`Spec/Correspond.lean`, `Spec/Foreign.lean`).
* **std140/std430** share one parametric model where the Rust files are textually identical modulo
  renaming (traits, writer, sizer, derive); tables and constants differ and are separate.
* **Values** are untyped Rust values (`RVal`) with scalars as bit patterns, so NaN payloads are
  distinguished; membership in a type is a separate predicate. `none` = stuck, and theorems prove
  it never happens on well-typed input.
* **Targets.** `Target` has an endianness and an alignment for each scalar (dividing its size);
  theorems hold for every such target, `x86_64` and `i686` are instances.
* **Writer** is parametric in the sink (`std::io::Write`), with laws (Ok: everything appended;
  Err: a prefix appended) and proved instances: `Vec<u8>`, `&mut [u8]`, `io::sink()`, and a sink
  driven by an arbitrary schedule of short writes, interruptions and errors running std's default
  `write_all` loop. User-written `WriteStdN` code is modelled as an arbitrary program over the
  Writer (`Model/Custom.lean`).
* **Program text** (C63). For the functions that run at run time the transcription is not trusted: the tokens of the
  files are in `Source/`, a parser and an interpreter for the fragment of Rust that occurs in them are in
  `Spec/`, and `Props/C63.lean` proves that executing the text gives what the transcribed functions give.
  The interpreter takes client code (types, conversions, sink, iterator) as a parameter; `&mut` arguments are
  copied in and out; calls are resolved by name and run-time type against the `impl` items of the program,
  including the blanket implementations with their bounds.
* **Macro text** (C64). The same for `crevice-derive`: `Spec/MacroRun.lean` runs a procedural macro (closures, iterators as
  lists, `quote!` with repetitions, `format_ident!`, the values syn parses to), and `Props/C64.lean` proves that running
  the text gives the tokens of `Model/Tokens.lean`, for every input and in at most five nested calls.
* **Table text** (C65). `Spec/MacroRules.lean` expands `macro_rules!`, `Spec/RustTypes.lean` says what the resulting items
  mean: name resolution, which impl applies to a type (bounds, blanket impls), associated types and constants,
  `repr(C)` layout, and the value of the conversion bodies. `Props/C65.lean` proves that this gives `resolve` of
  `Model/Types.lean`. So the tables in `Model/Primitives.lean` and `Model/Imp.lean` are not trusted either.
* **Features** (C66). The same with any set of Cargo features: `Spec/Cfg.lean` drops what `#[cfg(feature = "..")]` disables from
  the tokens, the modules are the ones `src/lib.rs`, `src/std140.rs`, `src/std430.rs` and `src/imp.rs` then declare.
* **Client text** (C67, C68, C69). The two together: the text of the derives is run on the structs of a crate, the tokens are read with the
  grammar of C62, and the items are put next to those of crevice under the semantics of C65. So `Model/Expand.lean`, which C62
  uses to say what rustc makes of the emitted items, is not trusted for the structs C67 and C68 are about.
* **Sizes** are `Nat`; `Model/Usize.lean` has the same functions in w-bit arithmetic with and
  without overflow checks, and C33 relates the two.

## 2. Trusted base

* Lean's kernel. Axioms: only `propext`, `Classical.choice`, `Quot.sound`; `AXIOMS.md` (generated
  by `tools/axioms.py` with `#print axioms`) lists them per property theorem. No axiom is declared
  in this development, nothing rests on compiled evaluation.
* The transcription of the Rust code (every definition cites file and lines).
  `tools/check_transcription.py` compares the macro tables of `/repo` with the Lean tables row by
  row, checks that every citation names an existing file and line range, and that the std140 and
  std430 versions of traits, Writer and Sizer are the same text up to names.
  For the files of C63 to C66 `tools/gen_source.py --check` compares the tokens in `Source/` with `/repo`, and the model's
  functions are proved equal to the execution of these tokens; what is trusted there is the lexer of that tool and the
  grammar and semantics in `Spec/RustCode.lean`, `Spec/RustRun.lean`, `Spec/MacroRun.lean`, `Spec/MacroRules.lean`, `Spec/RustTypes.lean`, `Spec/Cfg.lean`, `Spec/ClientText.lean`. `Source/Parsed*.lean`, `Proof/Run430.lean` and `Proof/RunNoStd.lean` are
  generated (`tools/gen_parsed.py`, `tools/gen_run430.py`, `tools/gen_nostd.py`) but proved, not trusted.
* The reading of rustc/std in `Model/Rust.lean`, `Model/Sink.lean` and of "does not compile" in
  `Model/Types.lean`.
* The reading of the OpenGL rules and of GLSL syntax in `Spec/`.
* Names and order of the public fields of mint and cgmath types (both `x,y,z,w`), and that
  glam/nalgebra values and their `mint` conversions preserve components. The latter is an explicit
  hypothesis `ForeignEnv.Lawful`, met by the example environment `Ex.env`. For hand-written
  `AsStdN` impls `Lawful` only asks that conversion be total; properties which need it to lose
  nothing ask for `ForeignEnv.Exact` in addition.

### What is modelled, by file

| source | model |
|---|---|
| `src/internal.rs` `align_offset`, `max`, `max_arr` | `Model/Internal.lean`, `Model/Usize.lean` |
| `src/std140/primitives.rs`, `src/std430/primitives.rs` | `Model/Primitives.lean` (tables, scalar impls, `Bool`) |
| `src/std140/traits.rs`, `src/std430/traits.rs` | `Model/Types.lean` (`Impl`, `resolve`, blanket impl), `Model/Writer.lean` (`as_bytes`, `WriteStdN`, `stdN_size`) |
| `src/std140/writer.rs`, `src/std430/writer.rs` | `Model/Writer.lean` (`write_iter` of a slice), `Model/Iter.lean` (`write_iter` of any iterator), `Model/Unwind.lean` (panics in client code), `Model/Usize.lean` |
| `src/std140/sizer.rs`, `src/std430/sizer.rs` | `Model/Writer.lean`, `Model/Usize.lean` |
| `src/std140/dynamic_uniform.rs` | `Model/Types.lean` (`dynamicImpl`) |
| `src/bool.rs` | `Model/Primitives.lean` (`From` both ways), `Model/Eq.lean` (PartialEq, Debug) |
| `src/glsl.rs`, `crevice-derive/src/glsl.rs` | `Model/Glsl.lean` |
| `src/lib.rs`, `src/std140.rs`, `src/std430.rs`, `src/imp.rs` | `Model/TextFeatures.lean` (module declarations and their `cfg`) |
| `src/util.rs`, `src/imp/*.rs` | `Model/Imp.lean`, `Model/Types.lean` (`easyImpl`, `mintyImpl`) |
| `crevice-derive/src/layout.rs` | `Model/Derive.lean`, `Model/Types.lean`; the `quote!` templates token by token in `Model/Tokens.lean`, what rustc makes of them in `Model/Expand.lean` (on the grammar of `Spec/RustSyntax.lean`); `debug_metrics` in `Model/Debug.lean`; method lookup in `Model/Lookup.lean` |

### Not modelled

* Parsing by syn (the derive input is given as a tree). What the macros emit is modelled as tokens
  (C62), up to the field types, each of which is one token; `rustc`'s grammar is modelled for the part
  of Rust that occurs in the emitted text. Identifiers are strings; a raw identifier `r#a` and `a` are the
  same name wherever rustc compares names (duplicate fields, `format_ident!`) and different texts
  where text is generated (`glsl_definition`).
* Method resolution in `self.field.as_std140()` (layout.rs:150), outside `Model/Lookup.lean`: elsewhere
  the model takes the call to be the field type's trait method; C60 says when that is right. The
  lookup itself is modelled for non-generic candidates (no autoderef through unsized coercion).
* `where` clauses, bounds and attributes of the input; how `debug_definitions()` prints its tokens;
  privacy checking (C62 gives the visibilities). In the emitted text `u8`, `usize`, `derive(Debug)`
  etc. are taken to mean the prelude's.
* Output types with a hand-written `unsafe impl StdN` occur only in C58, which starts from their
  contract; `Ty`, over which the other properties range, does not contain them.
* In C63: module paths, `use` and visibility (the items of the files are put together; no two define the same name), type
  checking, `derive`d and `fmt` implementations, the bodies of the macros in `primitives.rs`, `util.rs` and `imp/`.
* In C65: type checking, `use`, visibility, orphan rules, features (all are on; C66 is about the others); the macros of other crates; derive(PartialEq).
* In C67 to C70 and C72: generic structs, several modules, `use`; user items other than structs; the orphan rule and everything else that makes
  rustc reject a program.
* In C64: parsing by syn and what `syn::Generics` does with bounds; spans and hygiene; `parse_quote!` may not fail.
* In C66: `use` and `pub use` (except that what a submodule declares is reexported), `#![cfg_attr]`, what features do inside of
  other crates.
* In C73: lifetimes, coherence (C65 to C67 are about it), ambiguity of type inference, constants of the user that are matched by patterns; the traits of bytemuck and
  of the prelude are written by hand (`outsideDecls` in `Model/TextTyping.lean`).
* Limits of rustc on sizes, run-time performance, allocation failure.
* `Seek`ing or otherwise rewinding the sink behind a Writer's back.
* GPU drivers and the wgpu test harness (`crevice-tests`).

## 3. Plan per property

| id | modelled | proof |
|---|---|---|
| C01 | `alignOffset` | arithmetic; "least multiple" spec, uniqueness |
| C02 | `maxArr`, generated ALIGNMENT expression | induction over the fold |
| C03 | `emitLayout` + const evaluation + `repr(C)` offsets | invariant over generated fields |
| C04, C05 | `resolve` for all `Ty` vs `Spec.Glsl` | induction over `Ty`; finite tables by cases |
| C06 | `as_stdN`, `bytes_of` vs `Spec.read` | induction over `Ty` |
| C07, C08 | memory images with uninitialised bytes | "packed" invariant by induction over `Ty` |
| C09 | images vs `Spec` occupied bytes | induction over `Ty` |
| C10, C11 | `as`, `from`, `encode`, `decode` | induction over `Ty` |
| C12 | `from ∘ decode` vs `Spec.read` | induction over `Ty`, congruence |
| C13, C14, C43 | ALIGNMENT | induction over `Ty`; counterexample for the empty std430 struct |
| C15 | size functions | from C07 and Writer lemmas |
| C16, C45 | both layouts | induction over `Ty`, monotonicity of rounding; the factor four by divisibility of powers of two |
| C17–C20, C39 | Writer, sinks | refinement to an abstract image |
| C21, C22 | slices vs GLSL arrays | arithmetic + C12; counterexamples |
| C23 | Writer vs derive | induction over fields |
| C24 | failing sinks | prefix invariant over histories |
| C25 | `&mut [u8]` sink, Sizer | from C18, C19 |
| C26 | DynamicUniform | direct + writer lemma |
| C27 | Bool | bit-vector arithmetic |
| C28, C29 | glsl_definition, GlslStruct derive, names | tokenizer/parser round trip |
| C30, C31 | macro panics, call graph, names, compile errors | string/list reasoning |
| C32 | tables, minty_impl | cases over the tables against `Spec/Foreign` |
| C33 | w-bit Sizer/Writer/const functions | modular arithmetic, simulation |
| C34–C38 | traits, derive | corollaries and inductions |
| C40 | debug_metrics | corollary of C03/C04 |
| C41 | Writer + from_bytes | C18 + C11 |
| C42 | `align_of::<Output>()` vs ALIGNMENT | induction over `Ty` |
| C44 | `resolve` at two targets | induction over `Ty`; different byte orders: both buffers are the canonical encoding of one GLSL value (C54), so their words agree (`Proof/ByteOrder`) |
| C46 | minimality of sizes; bounds on padding | from C03, C17; the bounds from these and C43 |
| C47 | `Model/Custom`: arbitrary programs over a Writer | induction over programs, for every sink |
| C48 | `Ty.user`, `Spec/Strip` | induction over `Ty`: erasing hand-written wrappers preserves layout and bytes |
| C49 | derived `PartialEq`, `Debug for Bool` (`Model/Eq.lean`) | cases over rows; IEEE equality in `Spec/Ieee` by arithmetic |
| C50 | `Model/Iter`: `write_iter` over iterators as state machines, with fuel | induction over the items taken; determinism by monotonicity in the fuel |
| C51 | `Spec/Overwrite` | image of a changed sequence; C23 for fields; induction over the path |
| C52 | `Model/Cursor` (`Cursor<&mut [u8]>`, `Cursor<Vec<u8>>`, `&mut W`), `Spec/Sessions` | images shift by multiples of the alignments; simulation of cursors by plain sinks |
| C53 | Writer + from_bytes | C41 + uniqueness of placements |
| C54 | `Spec/Encode`: a reference encoder for GLSL values | the encoder is correct and unique (induction over GLSL types); C06 + C09 + bools at every position; image of a block |
| C55 | `Spec/Trace`: a recording sink | exact list of calls (`seqStd_trace`); prefixes of images; C41 on the prefix |
| C56 | `Model/Buffered`: `std::io::BufWriter` | it is a lawful sink if its inner sink is (cases of `write_all`); C39; invariant on the bytes held |
| C57 | `Spec/Work`: executions of generated functions | induction over the index of the function |
| C58 | `Spec/Contract`: the contracts of the public traits, on arbitrary dictionaries | the contract is equivalent to the layout invariant of the crate's own types; C03, C10, C36 with it |
| C59 | `Model/Unwind`: the Writer with conversions and sinks that may unwind; `Spec/Unwind` | induction over the argument; the sink as one that fails with a special error; C18 |
| C60 | `Model/Lookup`: rustc's method lookup for `self.field.as_stdN()`; `Spec/Lookup` | case analysis of the lookup; the derive with the conversions found |
| C61 | `from_bytes` of structs; two versions of a struct | C08 + slices of fields; monotonicity of placement along sub-lists; C37 |
| C62 | `Model/Tokens`: `quote!` templates; `Spec/RustSyntax`: grammar; `Model/Expand`: compiling items | induction over fields for each list in the templates; parser runs for all large enough bounds; const evaluation agrees with `Model/Types` by induction over expressions |
| C63 | `Source/*`: tokens; `Spec/RustCode`, `Spec/RustRun`: parsing and executing; `Spec/TextClient`: clients | the parse by computation; one lemma per function about executing its body in any context, loops by induction over items or fuel, nested slices by induction over their depth; then refinement to the machine-word and `Nat` models |
| C65 | `Source/Tables`: tokens; `Spec/MacroRules`: expansion; `Spec/RustTypes`: trait resolution, layout, evaluation; `Spec/TypeNames`: written types | expansion and facts about the rows of the tables by kernel computation (`kernel_rfl`: the goal is `Eq.refl`, checked by the kernel only); conversions for any row by symbolic evaluation; all types by induction over how they are written; no other types by inversion of matching, induction over the recursion bound; at most one implementation by distinct paths of the types they are for (`Proof/Coherence`) |
| C66 | `Source/Modules`, `Spec/Cfg`: conditional compilation; `Spec/Features`: which types ask for which feature | the disabled items are computed for each file (kernel computation over the sixteen sets); the compiled crate is the full one with rows left out; two crates agree on types that mention only what both have (`Proof/Conserve`, induction over the recursion bound), and a type that mentions something else has no candidate |
| C64 | `Source/Derive`: tokens; `Spec/MacroRun`: executing macros | the parse by computation; one lemma per closure of `emit`, the loop by induction over indices, `map` by induction over fields; then C62 |
| C67 | `Spec/ClientText`, `Model/TextClient`: crate with derives | the items by C64 and uniqueness of parsing; crevice's own types keep their meaning (`Proof/Conserve` again); lookup of names and candidates for the types of the crate; paddings and alignments by induction over the fields; structs by induction over how types are written; coherence by distinct paths, with the blanket impl kept apart by what implements `StdN` (`Proof/ClientCoherence`) |
| C68 | `Model/TextClient`: the same crate with `GlslStruct` | as C67; the name of a field's type by cases on how it is written, the fields by induction; the definition by C63, the shader by C29 |
| C69 | `Model/TextClientFeatures`: the crate of C67 next to crevice with any features | everything that can be said with what is there is the same as with all features (`Conserve`, by induction on the bound of the semantics); the structs whose fields are there are a fixed point of this; for the rest, no implementation applies; coherence as for C67, with the rows that are left (`Proof/ClientWithCoherence`) |
| C70 | `Model/Text` (`libraryWith`), `Spec/TextCrate`: the crate of C67 as the caller of the Writer of C63 | the text that is compiled with `std` is that of C63 by kernel computation, and the functions without `std` are executed in the text that is left (`Proof/RunNoStd`, generated by `tools/gen_nostd.py` from the proofs of C63); then C69 for the implementations, C63 for the session, C41 for the bytes |
| C71 | `Spec/Refs`: the names in a syntax tree that it does not bind; `Spec/Exports`: what `mod`, `pub`, `use` and macros make public; `Model/TextNames`: this for the configured text of crevice | the items of a derive are known from C64; structural induction over expressions for their names; what each module declares is a table (`Proof/DeclTables`, generated by `tools/gen_decls.py`) that the kernel compares with the text, for every set of features |
| C72 | `Spec/TextBlock`: the program of C70 with slices; the block of the shader | each value is an item of the model, so that the history is that of C22 and its image that of the same values one by one (C41); offsets by induction over the arguments; C63 for the execution |
| C73 | `Spec/Signatures`: declarations of traits, functions and structs read from tokens; `Spec/Typing`: typing rules; `Model/TextTyping`: what derived code can use of crevice, by C71, with the types in its text | the declarations by kernel computation for every set of features; the items of a derive are known from C64; one typing derivation per form of item, offsets by induction over the fields; the converse by inversion of the derivations |
| C74 | `Model/TextProgram`: the crate of C67 as the type checker of C73 sees it | lookup in programs without duplicates; names of different derives differ (C30); items by the lemmas of C73, in both directions; what the field types implement by C69 and C58 |

`MANIFEST.json` maps each property to its theorems; `properties.jsonl` has the English.

## 4. Findings

Places where an unconditional reading of the documentation is false of the code. Each is a theorem
or example about the model, next to the positive theorem it limits.

1. **std140 slices do not have the GLSL array stride** when the element is a scalar or a 2-vector
   (alignment < 16): `C21_std140_iff`, `C21_exception`.
2. **The Writer does not reserve the padding after the last element of an array**: what is written
   after a slice of `vec3` may lie earlier than GLSL has it: `C22_exception`.
3. **`bool` and `DynamicUniform` have no `Glsl` impl**, so `GlslStruct` cannot be derived for
   structs that contain them although the layout derives can: `C28_no_bool`.
4. **The empty std430 struct has ALIGNMENT 0** (`max_arr` of an empty list), so it is not a power
   of two (`align_offset` special-cases 0 and adds no padding): `C13_exception`.
5. **`glsl_definition` can be unparsable GLSL**: raw identifiers keep their `r#`, GLSL keywords
   are not avoided, an empty struct has no members: `C28_exception`, `C28_valid_iff`.
6. **A failed write may leave the Writer's offset out of step with the sink**, so that retrying
   places data at an offset other than the reported one: `C24_retry_misaligns`.
7. **Passing an Output value through copies its padding bytes verbatim**: `C09_exception`.
8. **A field called `_pad0`** (or `r#_pad0`, …) clashes with a generated one: `C30_reserved_name`.
9. **`debug_metrics` reports the size of the declared Rust field type**, not of the converted
   one: `C40_field_size_exception`.
10. **Generic structs expand but never compile** (`type Output = Std140Foo;`): `C30_generics`.
11. **A struct with a `DynamicUniform` field does not compile** (`DynamicUniformStd140` has no
    `Debug`): `C30_no_dynamic_field`.
12. **`Bool` equality compares words, not truth values** (`C49_bool_eq`; example beside C27).
13. **`stdN_size` of a user-written `WriteStdN` of mixed alignments is not the distance covered
    when written elsewhere** (examples beside C34 and C47).
14. **A user struct called `Std140Foo`** clashes with the one generated for `Foo`:
    `C31_user_collision`.
15. **The offset returned for an empty slice need not be aligned**, and the one for a nested slice
    that starts with an empty slice need not be where its first value lies: `C18_history_general`.
16. **`write_iter` of an iterator that is not fused** may return an offset at which nothing was
    written: `C50_offset_exception`.
17. **`debug_metrics` misreports fields of a type called `Field`**: its body declares a struct of
    that name, which shadows the user's: `C40_shadowed_exception`.
18. **Through a `BufWriter`, `write` can return `Ok` for bytes that never arrive**: errors surface at
    the flush: `C56_late_error`. (A property of std, but one a Writer user meets.)
19. **Deriving for a struct with n fields makes the compiler execute 2^n - 1 const functions**, unless
    it remembers their results: `C57_all`.
20. **An `unsafe impl StdN` with ALIGNMENT smaller than the Rust alignment, or no power of two, makes
    derived structs unsound** (`C58_needs_align`, `C58_needs_pow2`). The trait documents the second
    condition, not the first.
21. **Derived `as_stdN` is not hygienic**: it needs `AsStdN` in scope, and an inherent method called
    `as_stdN` on a field's type replaces the conversion, though not the one of `from_stdN`
    (`C60_missing`, `C60_shadowed_exception`, `C60_no_round_trip`).
22. **With `debug-methods` a struct without fields cannot be derived**: `let mut fields = Vec::new()`
    then has no element type (`C40_empty_exception`, `C40_exists`).

23. **Generated structs have private fields and an uninterpolated doc comment**: the fields of `Std140Foo`
    get no visibility (`layout.rs:138-139`), so outside the module of the derive they cannot be read
    (`C62_struct`), and the doc comment of the padding functions says "#index" literally, because `quote!` does
    not interpolate inside doc comments (`layout.rs:107-108`).
24. **`derive(GlslStruct)` is exported without `std` but cannot be used**: the macro is reexported from `crevice::glsl`
   unconditionally (`src/glsl.rs:39`) while the trait that its output implements is `#[cfg(feature = "std")]` (`src/glsl.rs:60`),
   so that every use of the derive fails to compile (`C71_glsl_needs_std`). The layout derives need no `std` (`C71_layout`).
25. **Derived code takes `u8`, `usize`, `str`, `Debug`, `Clone` and `Copy` from the scope of the derive**: a type called `u8`
   or a derive macro called `Debug` in that scope changes or breaks the generated struct; all else is written with full paths.
26. **`let alignment`, `let starting_offset` and the parameter `input` in derived code are patterns**: a constant of one of these
   names in the module of the struct is matched instead of bound, and the derive does not compile. (By inspection of
   `layout.rs`; C73 takes patterns to bind.)

## 5. Testing the theorems

`seeded/LOG.jsonl` records every seeded fault: the definition edited in a scratch copy, the claim
it breaks, and the theorems that stopped proving. `seeded/mut.py` and `seeded/mutants*.py` rerun
them. A mutant counts as caught only if a theorem of the claimed property fails, either in its own
file or through a lemma it depends on.
