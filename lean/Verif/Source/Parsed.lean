import Verif.Source.Internal
import Verif.Source.Bool
import Verif.Source.Glsl
/-
Syntax trees of the source files, written by `tools/gen_parsed.py`.
-/
namespace RustCode.Parsed
set_option maxRecDepth 100000

/-- `align_offset` of item 1. -/
def internal1_align_offset : Fn :=
{ name := "align_offset",
  generics := { types := [], consts := [], bounds := [] },
  receiver := .static,
  params := [("offset", .path ["usize"] []),
             ("alignment", .path ["usize"] [])],
  ret := .path ["usize"] [],
  body := some (.block
            []
            (.cond
              (.bin
                (.or)
                (.bin
                  (.eq)
                  (.var "alignment")
                  (.num 0 ""))
                (.bin
                  (.eq)
                  (.bin
                    (.rem)
                    (.var "offset")
                    (.var "alignment"))
                  (.num 0 "")))
              (.block [] (.num 0 ""))
              (.block
                []
                (.bin
                  (.sub)
                  (.var "alignment")
                  (.bin
                    (.rem)
                    (.var "offset")
                    (.var "alignment")))))) }

/-- `max` of item 2. -/
def internal2_max : Fn :=
{ name := "max",
  generics := { types := [], consts := [], bounds := [] },
  receiver := .static,
  params := [("a", .path ["usize"] []), ("b", .path ["usize"] [])],
  ret := .path ["usize"] [],
  body := some (.block
            []
            (.cond
              (.bin
                (.gt)
                (.var "a")
                (.var "b"))
              (.block [] (.var "a"))
              (.block [] (.var "b")))) }

/-- `max_arr` of item 3. -/
def internal3_max_arr : Fn :=
{ name := "max_arr",
  generics := { types := [], consts := ["N"], bounds := [] },
  receiver := .static,
  params := [("input", .array (.path ["usize"] []) (.var "N"))],
  ret := .path ["usize"] [],
  body := some (.block
            [.bind true "max" (.unit) (.num 0 ""),
             .bind true "i" (.unit) (.num 0 ""),
             .expr
               (.loop
                 (.bin
                   (.lt)
                   (.var "i")
                   (.var "N"))
                 (.block
                   [.expr
                      (.cond
                        (.bin
                          (.gt)
                          (.index (.var "input") (.var "i"))
                          (.var "max"))
                        (.block
                          [.expr
                             (.assign
                               (.var "max")
                               (.index
                                 (.var "input")
                                 (.var "i")))]
                          (.unit))
                        (.unit)),
                    .expr
                      (.addAssign (.var "i") (.num 1 ""))]
                   (.unit)))]
            (.var "max")) }

/-- The items of `Source.internal`. -/
def internal : List Item := [
.other,
.fn internal1_align_offset,
.fn internal2_max,
.fn internal3_max_arr]

/-- They are what the tokens parse to. -/
theorem parse_internal : parse Source.internal = some internal := by rfl

/-- `from` of item 5. -/
def bool5_from : Fn :=
{ name := "from",
  generics := { types := [], consts := [], bounds := [] },
  receiver := .static,
  params := [("v", .path ["bool"] [])],
  ret := .path ["Self"] [],
  body := some (.block
            []
            (.call
              (.var "Self")
              [.cast (.var "v") (.path ["u32"] [])])) }

/-- `from` of item 6. -/
def bool6_from : Fn :=
{ name := "from",
  generics := { types := [], consts := [], bounds := [] },
  receiver := .static,
  params := [("v", .path ["Bool"] [])],
  ret := .path ["Self"] [],
  body := some (.block
            []
            (.bin
              (.ne)
              (.field (.var "v") "0")
              (.num 0 ""))) }

/-- `fmt` of item 7. -/
def bool7_fmt : Fn :=
{ name := "fmt",
  generics := { types := [], consts := [], bounds := [] },
  receiver := .ref,
  params := [("f", .ref true (.path ["Formatter"] []))],
  ret := .path ["core", "fmt", "Result"] [],
  body := some (.block
            []
            (.mac
              "write"
              [.id "f",
               .op (.comma),
               .str "Bool({:?})",
               .op (.comma),
               .id "bool",
               .op (.colon2),
               .id "from",
               .op (.lparen),
               .op (.star),
               .kw (.kSelf),
               .op (.rparen)])) }

/-- The items of `Source.bool`. -/
def bool : List Item := [
.other,
.other,
.struct
  [[.id "derive",
    .op (.lparen),
    .id "Clone",
    .op (.comma),
    .id "Copy",
    .op (.comma),
    .id "Eq",
    .op (.comma),
    .id "PartialEq",
    .op (.rparen)],
   [.id "repr",
    .op (.lparen),
    .id "transparent",
    .op (.rparen)]]
  "Bool"
  { types := [], consts := [], bounds := [] }
  [("0", .path ["u32"] [])],
.impl (
{ types := [], consts := [], bounds := [] }) (.path ["Zeroable"] []) (.path ["Bool"] []) [],
.impl (
{ types := [], consts := [], bounds := [] }) (.path ["Pod"] []) (.path ["Bool"] []) [],
.impl (
{ types := [], consts := [], bounds := [] }) (.path ["From"] [.path ["bool"] []]) (.path ["Bool"] []) [.fn bool5_from],
.impl (
{ types := [], consts := [], bounds := [] }) (.path ["From"] [.path ["Bool"] []]) (.path ["bool"] []) [.fn bool6_from],
.impl (
{ types := [], consts := [], bounds := [] }) (.path ["Debug"] []) (.path ["Bool"] []) [.fn bool7_fmt]]

/-- They are what the tokens parse to. -/
theorem parse_bool : parse Source.bool = some bool := by rfl

/-- `glsl_definition` of item 3. -/
def glsl3_glsl_definition : Fn :=
{ name := "glsl_definition",
  generics := { types := [], consts := [], bounds := [] },
  receiver := .static,
  params := [],
  ret := .path ["String"] [],
  body := some (.block
            [.bind
               true
               "output"
               (.unit)
               (.call (.path (.path ["String", "new"] [])) []),
             .expr
               (.method
                 (.var "output")
                 "push_str"
                 [.str "struct "]),
             .expr
               (.method
                 (.var "output")
                 "push_str"
                 [.path (.path ["Self", "NAME"] [])]),
             .expr
               (.method
                 (.var "output")
                 "push_str"
                 [.str " {\n"]),
             .expr
               (.each
                 (.var "field")
                 (.path (.path ["Self", "FIELDS"] []))
                 (.block
                   [.expr
                      (.method
                        (.var "output")
                        "push"
                        [.chr '\t']),
                    .expr
                      (.method
                        (.var "output")
                        "push_str"
                        [.field (.var "field") "ty"]),
                    .expr
                      (.method
                        (.var "output")
                        "push"
                        [.chr ' ']),
                    .expr
                      (.method
                        (.var "output")
                        "push_str"
                        [.field (.var "field") "name"]),
                    .expr
                      (.method
                        (.var "output")
                        "push_str"
                        [.str ";\n"])]
                   (.unit))),
             .expr
               (.method
                 (.var "output")
                 "push_str"
                 [.str "};"])]
            (.var "output")) }

/-- The items of `Source.glsl`. -/
def glsl : List Item := [
.other,
.trait "Glsl" [.const "NAME" (.ref false (.path ["str"] [])) none],
.struct
  []
  "GlslField"
  { types := [], consts := [], bounds := [] }
  [("ty", .ref false (.path ["str"] [])),
   ("name", .ref false (.path ["str"] []))],
.trait "GlslStruct" [.const
  "FIELDS"
  (.ref false (.slice (.path ["GlslField"] [])))
  none, .fn glsl3_glsl_definition],
.impl (
{ types := [], consts := [], bounds := [] }) (.path ["Glsl"] []) (.path ["f32"] []) [.const
  "NAME"
  (.ref false (.path ["str"] []))
  (some (.str "float"))],
.impl (
{ types := [], consts := [], bounds := [] }) (.path ["Glsl"] []) (.path ["f64"] []) [.const
  "NAME"
  (.ref false (.path ["str"] []))
  (some (.str "double"))],
.impl (
{ types := [], consts := [], bounds := [] }) (.path ["Glsl"] []) (.path ["i32"] []) [.const
  "NAME"
  (.ref false (.path ["str"] []))
  (some (.str "int"))],
.impl (
{ types := [], consts := [], bounds := [] }) (.path ["Glsl"] []) (.path ["u32"] []) [.const
  "NAME"
  (.ref false (.path ["str"] []))
  (some (.str "uint"))]]

/-- They are what the tokens parse to. -/
theorem parse_glsl : parse Source.glsl = some glsl := by rfl

end RustCode.Parsed
