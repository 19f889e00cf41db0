import Verif.Model.Types
/-
Specification: the Cargo features and the types that depend on them.
-/
namespace Crevice

/-- The Cargo features that the code of the library asks for (`Cargo.toml:21-24,36-43`). Support for mint is always on. -/
structure Features where
  std : Bool
  cgmath : Bool
  glam : Bool
  nalgebra : Bool

/-- Whether a feature is on. -/
def Features.on (f : Features) (name : String) : Bool :=
  if name = "std" then f.std
  else if name = "cgmath" then f.cgmath
  else if name = "glam" then f.glam
  else name == "nalgebra" && f.nalgebra

/-- The features on in `f` are on in `f'`. -/
def Features.le (f f' : Features) : Prop := ∀ name, f.on name = true → f'.on name = true

/-- The text begins with `crate::`. -/
def inCrate (lib text : String) : Prop := (lib ++ "::").toList <+: text.toList

mutual
/-- The features that the parts of a type ask for are on. -/
def Ty.Enabled (f : Features) : Ty → Prop
  | .scalar _ => True
  | .bool => True
  | .math m => m.lib = .cgmath → f.cgmath = true
  | .foreign name => (inCrate "glam" name → f.glam = true) ∧ (inCrate "nalgebra" name → f.nalgebra = true)
  | .struct _ fs => FieldsEnabled f fs
  | .dynamic t => Ty.Enabled f t
  | .output _ t => Ty.Enabled f t
  | .user _ t => Ty.Enabled f t
/-- Field by field. -/
def FieldsEnabled (f : Features) : List (String × Ty) → Prop
  | [] => True
  | (_, t) :: r => Ty.Enabled f t ∧ FieldsEnabled f r
end

end Crevice
