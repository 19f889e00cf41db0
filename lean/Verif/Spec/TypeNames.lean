import Verif.Model.Types
import Verif.Spec.RustCode
/-
Specification: how the types that crevice supports are written in Rust, seen from within the crate (`crate` is
`crevice` elsewhere).
-/
namespace Crevice.TypeNames
open RustCode

/-- The module of a layout. -/
def mod : Layout → String
  | .std140 => "std140"
  | .std430 => "std430"

/-- `StdN`. -/
def stdTrait : Layout → String
  | .std140 => "Std140"
  | .std430 => "Std430"

/-- `AsStdN`. -/
def asTrait : Layout → String
  | .std140 => "AsStd140"
  | .std430 => "AsStd430"

/-- `as_stdN`. -/
def asName : Layout → String
  | .std140 => "as_std140"
  | .std430 => "as_std430"

/-- `from_stdN`. -/
def fromName : Layout → String
  | .std140 => "from_std140"
  | .std430 => "from_std430"

/-- A type without arguments. -/
abbrev ty (s : String) : RustCode.Ty := .path [s] []

/-- The name of a machine type. -/
def scalarName : Scalar → String
  | .f32 => "f32" | .f64 => "f64" | .i32 => "i32" | .u32 => "u32" | .u8 => "u8"

/-- The name of a struct of mint or cgmath. -/
def mathName (m : MathTy) : String :=
  (match m.kind with
    | .vector => "Vector"
    | .point => "Point"
    | .matrix => match m.lib with | .mint => "ColumnMatrix" | .cgmath => "Matrix") ++
  (match m.dim with | 2 => "2" | 3 => "3" | 4 => "4" | _ => "")

/-- The name of a component type. -/
def mscalarName : MScalar → String
  | .f32 => "f32" | .f64 => "f64" | .i32 => "i32" | .u32 => "u32" | .bool => "bool"

/-- The name of a library. -/
def libName : Lib → String
  | .mint => "mint" | .cgmath => "cgmath"

/-- A type of mint or cgmath. -/
def mathRustTy (m : MathTy) : RustCode.Ty := .path [libName m.lib, mathName m] [ty (mscalarName m.scalar)]

/-- `crate::stdN::x` -/
abbrev inMod (l : Layout) (x : String) : RustCode.Ty := .path ["crate", mod l, x] []

/-- A path with generic arguments as text. -/
def pathText (path : List String) (args : List String) : String :=
  String.intercalate "::" path ++ (if args.isEmpty then "" else "<" ++ String.intercalate ", " args ++ ">")

/-- Identifiers. -/
def Ident (s : String) : Prop := s ≠ "" ∧ ∀ c ∈ s.toList, c.isAlphanum ∨ c = '_'

/-- `Writes t T`: the type `T` of the model is written `t`. A type of glam or nalgebra, with at most one argument, is
known by its text; structs with a derive are not covered, nor are types with implementations of the user. -/
inductive Writes : RustCode.Ty → Crevice.Ty → Prop
  | scalar (s : Scalar) : Writes (ty (scalarName s)) (.scalar s)
  | bool : Writes (ty "bool") .bool
  | math (m : MathTy) : Writes (mathRustTy m) (.math m)
  | foreign (lib name : String) (arg : Option String) (hl : lib = "glam" ∨ lib = "nalgebra") (hn : Ident name)
    (ha : ∀ a ∈ arg, Ident a) :
    Writes (.path [lib, name] (arg.toList.map ty)) (.foreign (pathText [lib, name] arg.toList))
  | dynamic {t : RustCode.Ty} {T : Crevice.Ty} (h : Writes t T) :
    Writes (.path ["crate", "std140", "DynamicUniform"] [t]) (.dynamic T)
  | output (l : Layout) {t : RustCode.Ty} {T : Crevice.Ty} (h : Writes t T) :
    Writes (.proj t (inMod l (asTrait l)) ["Output"]) (.output l T)

end Crevice.TypeNames
