import Verif.Model.Types
/-
Model of `src/glsl.rs` and `crevice-derive/src/glsl.rs`: GLSL names of types and the text of GLSL
struct definitions.
-/
namespace Crevice

/-- `src/glsl.rs:50-56` `GlslField`. -/
structure GlslField where
  ty : String
  name : String
  deriving DecidableEq, Repr

/-- What `#[derive(GlslStruct)]` generates (`crevice-derive/src/glsl.rs:35-45`). -/
structure GlslGenerated (α : Type) where
  /-- `const NAME` -/
  name : String
  /-- `const FIELDS`: the type whose `Glsl::NAME` is taken, and the field's name -/
  fields : List (α × String)

/-- `crevice-derive/src/glsl.rs:5-46` `emit`. `Ident::to_string` keeps a raw prefix `r#`. -/
def emitGlsl {α : Type} (input : DeriveInput α) : Except DeriveError (GlslGenerated α) := do
  -- glsl.rs:6-13
  let fields ← match input.data with
    | .structNamed fields => .ok fields
    | .structUnnamed _ => .error .tupleStruct
    | .structUnit => .error .unitStruct
    | .enum => .error .notStruct
    | .union => .error .notStruct
  -- glsl.rs:18-33
  return {
    name := input.ident
    fields := fields.map fun field => (field.2, field.1) }

/-- `src/glsl.rs:84-98`: `impl Glsl for f32, f64, i32, u32`. -/
def scalarGlslName : Scalar → Option String
  | .f32 => some "float"
  | .f64 => some "double"
  | .i32 => some "int"
  | .u32 => some "uint"
  | .u8 => none

/-- `easy_impl!` (`src/util.rs:54-56`): `const NAME = crate::std140::$std_name::NAME`. -/
def mathGlslName (m : MathTy) : Option String :=
  (easyRow m).bind fun row => (Layout.std140.primitive row.stdName).map fun p => p.glsl

/-- `impl Glsl for stdN::$name` (`std140/primitives.rs:61-63,116-118`, same in std430) for the
layout type a math type converts to. -/
def outputGlslName (l : Layout) (m : MathTy) : Option String :=
  (easyRow m).bind fun row => (l.primitive row.stdName).map fun p => p.glsl

mutual
/-- `<T as Glsl>::NAME`; `none` when `T` does not implement `Glsl`. User structs derive
`GlslStruct`, which requires an impl for every field type. -/
def Ty.glslName : Ty → Option String
  | .scalar s => scalarGlslName s
  -- there is no impl for `bool`
  | .bool => none
  | .math m => mathGlslName m
  -- `minty_impl!` (`src/util.rs:94-96`): `const NAME = <$mint_ty>::NAME`
  | .foreign name => (mintyRow name).bind fun row => mathGlslName row.mint
  | .struct name fs =>
    match emitGlsl { ident := name, data := .structNamed fs } with
    | .ok g => (glslFieldNames fs).map fun _ => g.name
    | .error _ => none
  -- there is no impl for `DynamicUniform`
  | .dynamic _ => none
  | .output l t => Ty.outputName l t
  -- the user is assumed to write `impl Glsl` the way `easy_impl!` does (`src/util.rs:54-56`), with
  -- the name of the Output type
  | .user _ t => Ty.outputName .std140 t
/-- The impl of the layout type `T` converts to: only the layout primitives have one. -/
def Ty.outputName (l : Layout) : Ty → Option String
  | .scalar s => scalarGlslName s
  | .math m => outputGlslName l m
  | .foreign name => (mintyRow name).bind fun row => outputGlslName l row.mint
  | .output l' t => if l' = l ∨ t.layoutFree = true then Ty.outputName l t else none
  | .user _ t => Ty.outputName l t
  | _ => none
/-- The names of the types of all fields. -/
def glslFieldNames : List (String × Ty) → Option (List String)
  | [] => some []
  | (_, t) :: r => (Ty.glslName t).bind fun n => (glslFieldNames r).map fun ns => n :: ns
end

/-- `<T as GlslStruct>::NAME` and `FIELDS` of a user struct. -/
def glslStruct (name : String) (fs : List (String × Ty)) : Option (String × List GlslField) :=
  match emitGlsl { ident := name, data := .structNamed fs } with
  | .ok g =>
    (g.fields.mapM fun (f : Ty × String) => f.1.glslName.map fun ty => GlslField.mk ty f.2).map
      fun fields => (g.name, fields)
  | .error _ => none

/-- `src/glsl.rs:66-82` `glsl_definition`: a sequence of `push_str`. -/
def glslDefinition (name : String) (fields : List GlslField) : String :=
  let output := ""
  let output := output ++ "struct "
  let output := output ++ name
  let output := output ++ " {\n"
  let output := fields.foldl (init := output) fun output field =>
    let output := output ++ "\t"
    let output := output ++ field.ty
    let output := output ++ " "
    let output := output ++ field.name
    output ++ ";\n"
  output ++ "};"

/-- `T::glsl_definition()` for a user struct that derives `GlslStruct`. -/
def Ty.glslDefinition : Ty → Option String
  | .struct name fs => (glslStruct name fs).map fun s => Crevice.glslDefinition s.1 s.2
  | _ => none

end Crevice
