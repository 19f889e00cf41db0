import Verif.Source.Std140
/-
Syntax trees of the source files, written by `tools/gen_parsed.py`.
-/
namespace RustCode.Parsed
set_option maxRecDepth 100000

/-- `new` of item 4. -/
def std140Sizer4_new : Fn :=
{ name := "new",
  generics := { types := [], consts := [], bounds := [] },
  receiver := .static,
  params := [],
  ret := .path ["Self"] [],
  body := some (.block
            []
            (.struct
              (.path ["Self"] [])
              ["offset"]
              [.num 0 ""])) }

/-- `add` of item 4. -/
def std140Sizer4_add : Fn :=
{ name := "add",
  generics := { types := ["T"],
                consts := [],
                bounds := [(.path ["T"] [], []),
                           (.path ["T"] [], [.path ["AsStd140"] []])] },
  receiver := .mutRef,
  params := [],
  ret := .path ["usize"] [],
  body := some (.block
            [.bind
               false
               "size"
               (.unit)
               (.call
                 (.path
                   (.path
                     ["size_of"]
                     [.proj
                        (.path ["T"] [])
                        (.path ["AsStd140"] [])
                        ["Output"]]))
                 []),
             .bind
               false
               "alignment"
               (.unit)
               (.path
                 (.proj
                   (.path ["T"] [])
                   (.path ["AsStd140"] [])
                   ["Output", "ALIGNMENT"])),
             .bind
               false
               "padding"
               (.unit)
               (.call
                 (.var "align_offset")
                 [.field (.var "self") "offset",
                  .var "alignment"]),
             .expr
               (.addAssign
                 (.field (.var "self") "offset")
                 (.var "padding")),
             .bind
               false
               "write_here"
               (.unit)
               (.field (.var "self") "offset"),
             .expr
               (.addAssign
                 (.field (.var "self") "offset")
                 (.var "size"))]
            (.var "write_here")) }

/-- `len` of item 4. -/
def std140Sizer4_len : Fn :=
{ name := "len",
  generics := { types := [], consts := [], bounds := [] },
  receiver := .ref,
  params := [],
  ret := .path ["usize"] [],
  body := some (.block [] (.field (.var "self") "offset")) }

/-- The items of `Source.std140Sizer`. -/
def std140Sizer : List Item := [
.other,
.other,
.other,
.struct
  []
  "Sizer"
  { types := [], consts := [], bounds := [] }
  [("offset", .path ["usize"] [])],
.impl (
{ types := [], consts := [], bounds := [] }) (.unit) (.path ["Sizer"] []) [.fn std140Sizer4_new, .fn std140Sizer4_add, .fn std140Sizer4_len]]

/-- They are what the tokens parse to. -/
theorem parse_std140Sizer : parse Source.std140Sizer = some std140Sizer := by rfl

/-- `new` of item 6. -/
def std140Writer6_new : Fn :=
{ name := "new",
  generics := { types := [], consts := [], bounds := [] },
  receiver := .static,
  params := [("writer", .path ["W"] [])],
  ret := .path ["Self"] [],
  body := some (.block
            []
            (.struct
              (.path ["Self"] [])
              ["writer", "offset"]
              [.var "writer", .num 0 ""])) }

/-- `write` of item 6. -/
def std140Writer6_write : Fn :=
{ name := "write",
  generics := { types := ["T"],
                consts := [],
                bounds := [(.path ["T"] [], []),
                           (.path ["T"] [], [.path ["WriteStd140"] []])] },
  receiver := .mutRef,
  params := [("value", .ref false (.path ["T"] []))],
  ret := .path ["io", "Result"] [.path ["usize"] []],
  body := some (.block
            []
            (.method
              (.var "value")
              "write_std140"
              [.var "self"])) }

/-- `write_iter` of item 6. -/
def std140Writer6_write_iter : Fn :=
{ name := "write_iter",
  generics := { types := ["I", "T"],
                consts := [],
                bounds := [(.path ["I"] [], []),
                           (.path ["T"] [], []),
                           (.path ["I"] [],
                            [.path ["IntoIterator"] [.path ["T"] []]]),
                           (.path ["T"] [], [.path ["WriteStd140"] []])] },
  receiver := .mutRef,
  params := [("iter", .path ["I"] [])],
  ret := .path ["io", "Result"] [.path ["usize"] []],
  body := some (.block
            [.bind
               true
               "offset"
               (.unit)
               (.field (.var "self") "offset"),
             .bind
               true
               "iter"
               (.unit)
               (.method (.var "iter") "into_iter" []),
             .expr
               (.condLet
                 (.ctor "Some" "item")
                 (.method (.var "iter") "next" [])
                 (.block
                   [.expr
                      (.assign
                        (.var "offset")
                        (.attempt
                          (.method
                            (.var "item")
                            "write_std140"
                            [.var "self"])))]
                   (.unit))
                 (.unit)),
             .expr
               (.each
                 (.var "item")
                 (.var "iter")
                 (.block
                   [.expr
                      (.attempt
                        (.method
                          (.var "item")
                          "write_std140"
                          [.var "self"]))]
                   (.unit)))]
            (.call (.var "Ok") [.var "offset"])) }

/-- `write_std140` of item 6. -/
def std140Writer6_write_std140 : Fn :=
{ name := "write_std140",
  generics := { types := ["T"],
                consts := [],
                bounds := [(.path ["T"] [], []),
                           (.path ["T"] [], [.path ["Std140"] []])] },
  receiver := .mutRef,
  params := [("value", .ref false (.path ["T"] []))],
  ret := .path ["io", "Result"] [.path ["usize"] []],
  body := some (.block
            [.bind
               false
               "padding"
               (.unit)
               (.call
                 (.var "align_offset")
                 [.field (.var "self") "offset",
                  .path (.path ["T", "ALIGNMENT"] [])]),
             .expr
               (.each
                 (.wild)
                 (.range (.num 0 "") (.var "padding"))
                 (.block
                   [.expr
                      (.attempt
                        (.method
                          (.field (.var "self") "writer")
                          "write_all"
                          [.ref
                             false
                             (.array [.num 0 ""])]))]
                   (.unit))),
             .expr
               (.addAssign
                 (.field (.var "self") "offset")
                 (.var "padding")),
             .bind
               false
               "value"
               (.unit)
               (.method (.var "value") "as_std140" []),
             .expr
               (.attempt
                 (.method
                   (.field (.var "self") "writer")
                   "write_all"
                   [.call
                      (.var "bytes_of")
                      [.ref false (.var "value")]])),
             .bind
               false
               "write_here"
               (.unit)
               (.field (.var "self") "offset"),
             .expr
               (.addAssign
                 (.field (.var "self") "offset")
                 (.call
                   (.path (.path ["size_of"] [.path ["T"] []]))
                   []))]
            (.call (.var "Ok") [.var "write_here"])) }

/-- `write_slice` of item 6. -/
def std140Writer6_write_slice : Fn :=
{ name := "write_slice",
  generics := { types := ["T"],
                consts := [],
                bounds := [(.path ["T"] [], []),
                           (.path ["T"] [], [.path ["AsStd140"] []])] },
  receiver := .mutRef,
  params := [("slice", .ref false (.slice (.path ["T"] [])))],
  ret := .path ["io", "Result"] [.path ["usize"] []],
  body := some (.block
            []
            (.method (.var "self") "write" [.var "slice"])) }

/-- `len` of item 6. -/
def std140Writer6_len : Fn :=
{ name := "len",
  generics := { types := [], consts := [], bounds := [] },
  receiver := .ref,
  params := [],
  ret := .path ["usize"] [],
  body := some (.block [] (.field (.var "self") "offset")) }

/-- The items of `Source.std140Writer`. -/
def std140Writer : List Item := [
.other,
.other,
.other,
.other,
.other,
.struct
  []
  "Writer"
  { types := ["W"], consts := [], bounds := [(.path ["W"] [], [])] }
  [("writer", .path ["W"] []), ("offset", .path ["usize"] [])],
.impl (
{ types := ["W"],
  consts := [],
  bounds := [(.path ["W"] [], [.path ["Write"] []])] }) (.unit) (.path ["Writer"] [.path ["W"] []]) [.fn std140Writer6_new, .fn std140Writer6_write, .fn std140Writer6_write_iter, .fn std140Writer6_write_std140, .fn std140Writer6_write_slice, .fn std140Writer6_len]]

/-- They are what the tokens parse to. -/
theorem parse_std140Writer : parse Source.std140Writer = some std140Writer := by rfl

/-- `as_bytes` of item 4. -/
def std140Traits4_as_bytes : Fn :=
{ name := "as_bytes",
  generics := { types := [], consts := [], bounds := [] },
  receiver := .ref,
  params := [],
  ret := .ref false (.slice (.path ["u8"] [])),
  body := some (.block
            []
            (.call (.var "bytes_of") [.var "self"])) }

/-- `as_std140` of item 5. -/
def std140Traits5_as_std140 : Fn :=
{ name := "as_std140",
  generics := { types := [], consts := [], bounds := [] },
  receiver := .ref,
  params := [],
  ret := .path ["Self", "Output"] [],
  body := none }

/-- `std140_size_static` of item 5. -/
def std140Traits5_std140_size_static : Fn :=
{ name := "std140_size_static",
  generics := { types := [], consts := [], bounds := [] },
  receiver := .static,
  params := [],
  ret := .path ["usize"] [],
  body := some (.block
            []
            (.call
              (.path
                (.path ["size_of"] [.path ["Self", "Output"] []]))
              [])) }

/-- `from_std140` of item 5. -/
def std140Traits5_from_std140 : Fn :=
{ name := "from_std140",
  generics := { types := [], consts := [], bounds := [] },
  receiver := .static,
  params := [("val", .path ["Self", "Output"] [])],
  ret := .path ["Self"] [],
  body := none }

/-- `as_std140` of item 6. -/
def std140Traits6_as_std140 : Fn :=
{ name := "as_std140",
  generics := { types := [], consts := [], bounds := [] },
  receiver := .ref,
  params := [],
  ret := .path ["Self"] [],
  body := some (.block [] (.deref (.var "self"))) }

/-- `from_std140` of item 6. -/
def std140Traits6_from_std140 : Fn :=
{ name := "from_std140",
  generics := { types := [], consts := [], bounds := [] },
  receiver := .static,
  params := [("x", .path ["Self"] [])],
  ret := .path ["Self"] [],
  body := some (.block [] (.var "x")) }

/-- `write_std140` of item 7. -/
def std140Traits7_write_std140 : Fn :=
{ name := "write_std140",
  generics := { types := ["W"],
                consts := [],
                bounds := [(.path ["W"] [], [.path ["Write"] []])] },
  receiver := .ref,
  params := [("writer",
              .ref true (.path ["Writer"] [.path ["W"] []]))],
  ret := .path ["io", "Result"] [.path ["usize"] []],
  body := none }

/-- `std140_size` of item 7. -/
def std140Traits7_std140_size : Fn :=
{ name := "std140_size",
  generics := { types := [], consts := [], bounds := [] },
  receiver := .ref,
  params := [],
  ret := .path ["usize"] [],
  body := some (.block
            [.bind
               true
               "writer"
               (.unit)
               (.call
                 (.path (.path ["Writer", "new"] []))
                 [.call (.path (.path ["io", "sink"] [])) []]),
             .expr
               (.method
                 (.method
                   (.var "self")
                   "write_std140"
                   [.ref true (.var "writer")])
                 "unwrap"
                 [])]
            (.method (.var "writer") "len" [])) }

/-- `write_std140` of item 8. -/
def std140Traits8_write_std140 : Fn :=
{ name := "write_std140",
  generics := { types := ["W"],
                consts := [],
                bounds := [(.path ["W"] [], [.path ["Write"] []])] },
  receiver := .ref,
  params := [("writer",
              .ref true (.path ["Writer"] [.path ["W"] []]))],
  ret := .path ["io", "Result"] [.path ["usize"] []],
  body := some (.block
            []
            (.method
              (.var "writer")
              "write_std140"
              [.ref
                 false
                 (.method (.var "self") "as_std140" [])])) }

/-- `std140_size` of item 8. -/
def std140Traits8_std140_size : Fn :=
{ name := "std140_size",
  generics := { types := [], consts := [], bounds := [] },
  receiver := .ref,
  params := [],
  ret := .path ["usize"] [],
  body := some (.block
            []
            (.call
              (.path
                (.path
                  ["size_of"]
                  [.proj
                     (.path ["Self"] [])
                     (.path ["AsStd140"] [])
                     ["Output"]]))
              [])) }

/-- `write_std140` of item 9. -/
def std140Traits9_write_std140 : Fn :=
{ name := "write_std140",
  generics := { types := ["W"],
                consts := [],
                bounds := [(.path ["W"] [], [.path ["Write"] []])] },
  receiver := .ref,
  params := [("writer",
              .ref true (.path ["Writer"] [.path ["W"] []]))],
  ret := .path ["io", "Result"] [.path ["usize"] []],
  body := some (.block
            [.bind
               true
               "offset"
               (.unit)
               (.method (.var "writer") "len" []),
             .bind
               true
               "iter"
               (.unit)
               (.method (.var "self") "iter" []),
             .expr
               (.condLet
                 (.ctor "Some" "item")
                 (.method (.var "iter") "next" [])
                 (.block
                   [.expr
                      (.assign
                        (.var "offset")
                        (.attempt
                          (.method
                            (.var "item")
                            "write_std140"
                            [.var "writer"])))]
                   (.unit))
                 (.unit)),
             .expr
               (.each
                 (.var "item")
                 (.var "iter")
                 (.block
                   [.expr
                      (.attempt
                        (.method
                          (.var "item")
                          "write_std140"
                          [.var "writer"]))]
                   (.unit)))]
            (.call (.var "Ok") [.var "offset"])) }

/-- `std140_size` of item 9. -/
def std140Traits9_std140_size : Fn :=
{ name := "std140_size",
  generics := { types := [], consts := [], bounds := [] },
  receiver := .ref,
  params := [],
  ret := .path ["usize"] [],
  body := some (.block
            [.bind
               true
               "writer"
               (.unit)
               (.call
                 (.path (.path ["Writer", "new"] []))
                 [.call (.path (.path ["io", "sink"] [])) []]),
             .expr
               (.method
                 (.method
                   (.var "self")
                   "write_std140"
                   [.ref true (.var "writer")])
                 "unwrap"
                 [])]
            (.method (.var "writer") "len" [])) }

/-- The items of `Source.std140Traits`. -/
def std140Traits : List Item := [
.other,
.other,
.other,
.other,
.trait "Std140" [.const "ALIGNMENT" (.path ["usize"] []) none, .fn std140Traits4_as_bytes],
.trait "AsStd140" [.type "Output" none, .fn std140Traits5_as_std140, .fn std140Traits5_std140_size_static, .fn std140Traits5_from_std140],
.impl (
{ types := ["T"],
  consts := [],
  bounds := [(.path ["T"] [], []),
             (.path ["T"] [], [.path ["Std140"] []])] }) (.path ["AsStd140"] []) (.path ["T"] []) [.type "Output" (some (.path ["Self"] [])), .fn std140Traits6_as_std140, .fn std140Traits6_from_std140],
.trait "WriteStd140" [.fn std140Traits7_write_std140, .fn std140Traits7_std140_size],
.impl (
{ types := ["T"],
  consts := [],
  bounds := [(.path ["T"] [], []),
             (.path ["T"] [], [.path ["AsStd140"] []])] }) (.path ["WriteStd140"] []) (.path ["T"] []) [.fn std140Traits8_write_std140, .fn std140Traits8_std140_size],
.impl (
{ types := ["T"],
  consts := [],
  bounds := [(.path ["T"] [], []),
             (.path ["T"] [], [.path ["WriteStd140"] []])] }) (.path ["WriteStd140"] []) (.slice (.path ["T"] [])) [.fn std140Traits9_write_std140, .fn std140Traits9_std140_size]]

/-- They are what the tokens parse to. -/
theorem parse_std140Traits : parse Source.std140Traits = some std140Traits := by rfl

/-- `as_std140` of item 4. -/
def std140DynamicUniform4_as_std140 : Fn :=
{ name := "as_std140",
  generics := { types := [], consts := [], bounds := [] },
  receiver := .ref,
  params := [],
  ret := .path ["Self", "Output"] [],
  body := some (.block
            []
            (.call
              (.var "DynamicUniformStd140")
              [.method
                 (.field (.var "self") "0")
                 "as_std140"
                 []])) }

/-- `from_std140` of item 4. -/
def std140DynamicUniform4_from_std140 : Fn :=
{ name := "from_std140",
  generics := { types := [], consts := [], bounds := [] },
  receiver := .static,
  params := [("value", .path ["Self", "Output"] [])],
  ret := .path ["Self"] [],
  body := some (.block
            []
            (.call
              (.var "DynamicUniform")
              [.call
                 (.path
                   (.proj
                     (.path ["T"] [])
                     (.path ["AsStd140"] [])
                     ["from_std140"]))
                 [.field (.var "value") "0"]])) }

/-- The items of `Source.std140DynamicUniform`. -/
def std140DynamicUniform : List Item := [
.other,
.other,
.other,
.struct
  []
  "DynamicUniform"
  { types := ["T"], consts := [], bounds := [(.path ["T"] [], [])] }
  [("0", .path ["T"] [])],
.impl (
{ types := ["T"],
  consts := [],
  bounds := [(.path ["T"] [], [.path ["AsStd140"] []])] }) (.path ["AsStd140"] []) (.path ["DynamicUniform"] [.path ["T"] []]) [.type
  "Output"
  (some (.path
     ["DynamicUniformStd140"]
     [.proj (.path ["T"] []) (.path ["AsStd140"] []) ["Output"]])), .fn std140DynamicUniform4_as_std140, .fn std140DynamicUniform4_from_std140],
.struct
  [[.id "derive",
    .op (.lparen),
    .id "Clone",
    .op (.comma),
    .id "Copy",
    .op (.rparen)],
   [.id "repr",
    .op (.lparen),
    .id "transparent",
    .op (.rparen)]]
  "DynamicUniformStd140"
  { types := ["T"], consts := [], bounds := [(.path ["T"] [], [])] }
  [("0", .path ["T"] [])],
.impl (
{ types := ["T"],
  consts := [],
  bounds := [(.path ["T"] [], [.path ["Std140"] []])] }) (.path ["Std140"] []) (.path ["DynamicUniformStd140"] [.path ["T"] []]) [.const
  "ALIGNMENT"
  (.path ["usize"] [])
  (some (.call
     (.var "max")
     [.num 256 "", .path (.path ["T", "ALIGNMENT"] [])]))],
.impl (
{ types := ["T"],
  consts := [],
  bounds := [(.path ["T"] [], [.path ["Zeroable"] []])] }) (.path ["Zeroable"] []) (.path ["DynamicUniformStd140"] [.path ["T"] []]) [],
.impl (
{ types := ["T"],
  consts := [],
  bounds := [(.path ["T"] [], [.path ["Pod"] []])] }) (.path ["Pod"] []) (.path ["DynamicUniformStd140"] [.path ["T"] []]) [],
.other]

/-- They are what the tokens parse to. -/
theorem parse_std140DynamicUniform : parse Source.std140DynamicUniform = some std140DynamicUniform := by rfl

end RustCode.Parsed
