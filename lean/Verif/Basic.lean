/-
Vocabulary shared by the specification and the model.
-/
namespace Crevice

/-- A byte of memory. -/
abbrev Byte := BitVec 8

/-- Byte order. -/
inductive Endian
  | little | big
  deriving DecidableEq, Repr

/-- The two GLSL memory layouts crevice implements. -/
inductive Layout
  | std140 | std430
  deriving DecidableEq, Repr

end Crevice
