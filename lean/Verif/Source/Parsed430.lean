import Verif.Source.Std430
/-
Syntax trees of the source files, written by `tools/gen_parsed.py`.
-/
namespace RustCode.Parsed
set_option maxRecDepth 100000

/-- `new` of item 4. -/
def std430Sizer4_new : Fn :=
{ name := "new",
  generics := { types := [], consts := [], bounds := [] },
  receiver := .static,
  params := [],
  ret := .path ["Self"] [],
  body := some (.block
            []
            (.struct
              (.path ["Self"] [])
              ["offset"]
              [.num 0 ""])) }

/-- `add` of item 4. -/
def std430Sizer4_add : Fn :=
{ name := "add",
  generics := { types := ["T"],
                consts := [],
                bounds := [(.path ["T"] [], []),
                           (.path ["T"] [], [.path ["AsStd430"] []])] },
  receiver := .mutRef,
  params := [],
  ret := .path ["usize"] [],
  body := some (.block
            [.bind
               false
               "size"
               (.unit)
               (.call
                 (.path
                   (.path
                     ["size_of"]
                     [.proj
                        (.path ["T"] [])
                        (.path ["AsStd430"] [])
                        ["Output"]]))
                 []),
             .bind
               false
               "alignment"
               (.unit)
               (.path
                 (.proj
                   (.path ["T"] [])
                   (.path ["AsStd430"] [])
                   ["Output", "ALIGNMENT"])),
             .bind
               false
               "padding"
               (.unit)
               (.call
                 (.var "align_offset")
                 [.field (.var "self") "offset",
                  .var "alignment"]),
             .expr
               (.addAssign
                 (.field (.var "self") "offset")
                 (.var "padding")),
             .bind
               false
               "write_here"
               (.unit)
               (.field (.var "self") "offset"),
             .expr
               (.addAssign
                 (.field (.var "self") "offset")
                 (.var "size"))]
            (.var "write_here")) }

/-- `len` of item 4. -/
def std430Sizer4_len : Fn :=
{ name := "len",
  generics := { types := [], consts := [], bounds := [] },
  receiver := .ref,
  params := [],
  ret := .path ["usize"] [],
  body := some (.block [] (.field (.var "self") "offset")) }

/-- The items of `Source.std430Sizer`. -/
def std430Sizer : List Item := [
.other,
.other,
.other,
.struct
  []
  "Sizer"
  { types := [], consts := [], bounds := [] }
  [("offset", .path ["usize"] [])],
.impl (
{ types := [], consts := [], bounds := [] }) (.unit) (.path ["Sizer"] []) [.fn std430Sizer4_new, .fn std430Sizer4_add, .fn std430Sizer4_len]]

/-- They are what the tokens parse to. -/
theorem parse_std430Sizer : parse Source.std430Sizer = some std430Sizer := by rfl

/-- `new` of item 6. -/
def std430Writer6_new : Fn :=
{ name := "new",
  generics := { types := [], consts := [], bounds := [] },
  receiver := .static,
  params := [("writer", .path ["W"] [])],
  ret := .path ["Self"] [],
  body := some (.block
            []
            (.struct
              (.path ["Self"] [])
              ["writer", "offset"]
              [.var "writer", .num 0 ""])) }

/-- `write` of item 6. -/
def std430Writer6_write : Fn :=
{ name := "write",
  generics := { types := ["T"],
                consts := [],
                bounds := [(.path ["T"] [], []),
                           (.path ["T"] [], [.path ["WriteStd430"] []])] },
  receiver := .mutRef,
  params := [("value", .ref false (.path ["T"] []))],
  ret := .path ["io", "Result"] [.path ["usize"] []],
  body := some (.block
            []
            (.method
              (.var "value")
              "write_std430"
              [.var "self"])) }

/-- `write_iter` of item 6. -/
def std430Writer6_write_iter : Fn :=
{ name := "write_iter",
  generics := { types := ["I", "T"],
                consts := [],
                bounds := [(.path ["I"] [], []),
                           (.path ["T"] [], []),
                           (.path ["I"] [],
                            [.path ["IntoIterator"] [.path ["T"] []]]),
                           (.path ["T"] [], [.path ["WriteStd430"] []])] },
  receiver := .mutRef,
  params := [("iter", .path ["I"] [])],
  ret := .path ["io", "Result"] [.path ["usize"] []],
  body := some (.block
            [.bind
               true
               "offset"
               (.unit)
               (.field (.var "self") "offset"),
             .bind
               true
               "iter"
               (.unit)
               (.method (.var "iter") "into_iter" []),
             .expr
               (.condLet
                 (.ctor "Some" "item")
                 (.method (.var "iter") "next" [])
                 (.block
                   [.expr
                      (.assign
                        (.var "offset")
                        (.attempt
                          (.method
                            (.var "item")
                            "write_std430"
                            [.var "self"])))]
                   (.unit))
                 (.unit)),
             .expr
               (.each
                 (.var "item")
                 (.var "iter")
                 (.block
                   [.expr
                      (.attempt
                        (.method
                          (.var "item")
                          "write_std430"
                          [.var "self"]))]
                   (.unit)))]
            (.call (.var "Ok") [.var "offset"])) }

/-- `write_std430` of item 6. -/
def std430Writer6_write_std430 : Fn :=
{ name := "write_std430",
  generics := { types := ["T"],
                consts := [],
                bounds := [(.path ["T"] [], []),
                           (.path ["T"] [], [.path ["Std430"] []])] },
  receiver := .mutRef,
  params := [("value", .ref false (.path ["T"] []))],
  ret := .path ["io", "Result"] [.path ["usize"] []],
  body := some (.block
            [.bind
               false
               "padding"
               (.unit)
               (.call
                 (.var "align_offset")
                 [.field (.var "self") "offset",
                  .path (.path ["T", "ALIGNMENT"] [])]),
             .expr
               (.each
                 (.wild)
                 (.range (.num 0 "") (.var "padding"))
                 (.block
                   [.expr
                      (.attempt
                        (.method
                          (.field (.var "self") "writer")
                          "write_all"
                          [.ref
                             false
                             (.array [.num 0 ""])]))]
                   (.unit))),
             .expr
               (.addAssign
                 (.field (.var "self") "offset")
                 (.var "padding")),
             .bind
               false
               "value"
               (.unit)
               (.method (.var "value") "as_std430" []),
             .expr
               (.attempt
                 (.method
                   (.field (.var "self") "writer")
                   "write_all"
                   [.call
                      (.var "bytes_of")
                      [.ref false (.var "value")]])),
             .bind
               false
               "write_here"
               (.unit)
               (.field (.var "self") "offset"),
             .expr
               (.addAssign
                 (.field (.var "self") "offset")
                 (.call
                   (.path (.path ["size_of"] [.path ["T"] []]))
                   []))]
            (.call (.var "Ok") [.var "write_here"])) }

/-- `len` of item 6. -/
def std430Writer6_len : Fn :=
{ name := "len",
  generics := { types := [], consts := [], bounds := [] },
  receiver := .ref,
  params := [],
  ret := .path ["usize"] [],
  body := some (.block [] (.field (.var "self") "offset")) }

/-- The items of `Source.std430Writer`. -/
def std430Writer : List Item := [
.other,
.other,
.other,
.other,
.other,
.struct
  []
  "Writer"
  { types := ["W"], consts := [], bounds := [(.path ["W"] [], [])] }
  [("writer", .path ["W"] []), ("offset", .path ["usize"] [])],
.impl (
{ types := ["W"],
  consts := [],
  bounds := [(.path ["W"] [], [.path ["Write"] []])] }) (.unit) (.path ["Writer"] [.path ["W"] []]) [.fn std430Writer6_new, .fn std430Writer6_write, .fn std430Writer6_write_iter, .fn std430Writer6_write_std430, .fn std430Writer6_len]]

/-- They are what the tokens parse to. -/
theorem parse_std430Writer : parse Source.std430Writer = some std430Writer := by rfl

/-- `as_bytes` of item 4. -/
def std430Traits4_as_bytes : Fn :=
{ name := "as_bytes",
  generics := { types := [], consts := [], bounds := [] },
  receiver := .ref,
  params := [],
  ret := .ref false (.slice (.path ["u8"] [])),
  body := some (.block
            []
            (.call (.var "bytes_of") [.var "self"])) }

/-- `as_std430` of item 5. -/
def std430Traits5_as_std430 : Fn :=
{ name := "as_std430",
  generics := { types := [], consts := [], bounds := [] },
  receiver := .ref,
  params := [],
  ret := .path ["Self", "Output"] [],
  body := none }

/-- `std430_size_static` of item 5. -/
def std430Traits5_std430_size_static : Fn :=
{ name := "std430_size_static",
  generics := { types := [], consts := [], bounds := [] },
  receiver := .static,
  params := [],
  ret := .path ["usize"] [],
  body := some (.block
            []
            (.call
              (.path
                (.path ["size_of"] [.path ["Self", "Output"] []]))
              [])) }

/-- `from_std430` of item 5. -/
def std430Traits5_from_std430 : Fn :=
{ name := "from_std430",
  generics := { types := [], consts := [], bounds := [] },
  receiver := .static,
  params := [("value", .path ["Self", "Output"] [])],
  ret := .path ["Self"] [],
  body := none }

/-- `as_std430` of item 6. -/
def std430Traits6_as_std430 : Fn :=
{ name := "as_std430",
  generics := { types := [], consts := [], bounds := [] },
  receiver := .ref,
  params := [],
  ret := .path ["Self"] [],
  body := some (.block [] (.deref (.var "self"))) }

/-- `from_std430` of item 6. -/
def std430Traits6_from_std430 : Fn :=
{ name := "from_std430",
  generics := { types := [], consts := [], bounds := [] },
  receiver := .static,
  params := [("value", .path ["Self"] [])],
  ret := .path ["Self"] [],
  body := some (.block [] (.var "value")) }

/-- `write_std430` of item 7. -/
def std430Traits7_write_std430 : Fn :=
{ name := "write_std430",
  generics := { types := ["W"],
                consts := [],
                bounds := [(.path ["W"] [], [.path ["Write"] []])] },
  receiver := .ref,
  params := [("writer",
              .ref true (.path ["Writer"] [.path ["W"] []]))],
  ret := .path ["io", "Result"] [.path ["usize"] []],
  body := none }

/-- `std430_size` of item 7. -/
def std430Traits7_std430_size : Fn :=
{ name := "std430_size",
  generics := { types := [], consts := [], bounds := [] },
  receiver := .ref,
  params := [],
  ret := .path ["usize"] [],
  body := some (.block
            [.bind
               true
               "writer"
               (.unit)
               (.call
                 (.path (.path ["Writer", "new"] []))
                 [.call (.path (.path ["io", "sink"] [])) []]),
             .expr
               (.method
                 (.method
                   (.var "self")
                   "write_std430"
                   [.ref true (.var "writer")])
                 "unwrap"
                 [])]
            (.method (.var "writer") "len" [])) }

/-- `write_std430` of item 8. -/
def std430Traits8_write_std430 : Fn :=
{ name := "write_std430",
  generics := { types := ["W"],
                consts := [],
                bounds := [(.path ["W"] [], [.path ["Write"] []])] },
  receiver := .ref,
  params := [("writer",
              .ref true (.path ["Writer"] [.path ["W"] []]))],
  ret := .path ["io", "Result"] [.path ["usize"] []],
  body := some (.block
            []
            (.method
              (.var "writer")
              "write_std430"
              [.ref
                 false
                 (.method (.var "self") "as_std430" [])])) }

/-- `std430_size` of item 8. -/
def std430Traits8_std430_size : Fn :=
{ name := "std430_size",
  generics := { types := [], consts := [], bounds := [] },
  receiver := .ref,
  params := [],
  ret := .path ["usize"] [],
  body := some (.block
            []
            (.call
              (.path
                (.path
                  ["size_of"]
                  [.proj
                     (.path ["Self"] [])
                     (.path ["AsStd430"] [])
                     ["Output"]]))
              [])) }

/-- `write_std430` of item 9. -/
def std430Traits9_write_std430 : Fn :=
{ name := "write_std430",
  generics := { types := ["W"],
                consts := [],
                bounds := [(.path ["W"] [], [.path ["Write"] []])] },
  receiver := .ref,
  params := [("writer",
              .ref true (.path ["Writer"] [.path ["W"] []]))],
  ret := .path ["io", "Result"] [.path ["usize"] []],
  body := some (.block
            [.bind
               true
               "offset"
               (.unit)
               (.method (.var "writer") "len" []),
             .bind
               true
               "iter"
               (.unit)
               (.method (.var "self") "iter" []),
             .expr
               (.condLet
                 (.ctor "Some" "item")
                 (.method (.var "iter") "next" [])
                 (.block
                   [.expr
                      (.assign
                        (.var "offset")
                        (.attempt
                          (.method
                            (.var "item")
                            "write_std430"
                            [.var "writer"])))]
                   (.unit))
                 (.unit)),
             .expr
               (.each
                 (.var "item")
                 (.var "iter")
                 (.block
                   [.expr
                      (.attempt
                        (.method
                          (.var "item")
                          "write_std430"
                          [.var "writer"]))]
                   (.unit)))]
            (.call (.var "Ok") [.var "offset"])) }

/-- `std430_size` of item 9. -/
def std430Traits9_std430_size : Fn :=
{ name := "std430_size",
  generics := { types := [], consts := [], bounds := [] },
  receiver := .ref,
  params := [],
  ret := .path ["usize"] [],
  body := some (.block
            [.bind
               true
               "writer"
               (.unit)
               (.call
                 (.path (.path ["Writer", "new"] []))
                 [.call (.path (.path ["io", "sink"] [])) []]),
             .expr
               (.method
                 (.method
                   (.var "self")
                   "write_std430"
                   [.ref true (.var "writer")])
                 "unwrap"
                 [])]
            (.method (.var "writer") "len" [])) }

/-- The items of `Source.std430Traits`. -/
def std430Traits : List Item := [
.other,
.other,
.other,
.other,
.trait "Std430" [.const "ALIGNMENT" (.path ["usize"] []) none, .fn std430Traits4_as_bytes],
.trait "AsStd430" [.type "Output" none, .fn std430Traits5_as_std430, .fn std430Traits5_std430_size_static, .fn std430Traits5_from_std430],
.impl (
{ types := ["T"],
  consts := [],
  bounds := [(.path ["T"] [], []),
             (.path ["T"] [], [.path ["Std430"] []])] }) (.path ["AsStd430"] []) (.path ["T"] []) [.type "Output" (some (.path ["Self"] [])), .fn std430Traits6_as_std430, .fn std430Traits6_from_std430],
.trait "WriteStd430" [.fn std430Traits7_write_std430, .fn std430Traits7_std430_size],
.impl (
{ types := ["T"],
  consts := [],
  bounds := [(.path ["T"] [], []),
             (.path ["T"] [], [.path ["AsStd430"] []])] }) (.path ["WriteStd430"] []) (.path ["T"] []) [.fn std430Traits8_write_std430, .fn std430Traits8_std430_size],
.impl (
{ types := ["T"],
  consts := [],
  bounds := [(.path ["T"] [], []),
             (.path ["T"] [], [.path ["WriteStd430"] []])] }) (.path ["WriteStd430"] []) (.slice (.path ["T"] [])) [.fn std430Traits9_write_std430, .fn std430Traits9_std430_size]]

/-- They are what the tokens parse to. -/
theorem parse_std430Traits : parse Source.std430Traits = some std430Traits := by rfl

end RustCode.Parsed
