import Verif.Spec.Typing
import Verif.Spec.TextNames
/-
What derived code can use of crevice, with its types as the text declares them.
-/
namespace Crevice
open RustCode RustTyping

/-- The text of a module with the given features. -/
def textWith (f : Features) (m : List String) : List Tok := configure f.on (moduleText m)

/-- The modules of the traits that derived code uses: `src/std140/traits.rs:12,74`, `src/std430/traits.rs:12,74`,
`src/glsl.rs:43,60`. -/
def traitModules : List (String × List String) :=
  [("Std140", ["std140", "traits"]), ("AsStd140", ["std140", "traits"]), ("Std430", ["std430", "traits"]),
    ("AsStd430", ["std430", "traits"]), ("Glsl", ["glsl"]), ("GlslStruct", ["glsl"])]

/-- Traits of bytemuck 1.4 and of the prelude, as far as derived code needs them. Not covered: `Sized`, `'static`, and methods
that derived code does not use. -/
def outsideDecls : List (String × TraitDecl) :=
  [("Zeroable", ⟨true, [], [.fn "zeroed" .static [] (.path ["Self"] []) false]⟩),
    ("Pod", ⟨true, [.path ["Zeroable"] [], .path ["Copy"] []], []⟩),
    ("Copy", ⟨false, [.path ["Clone"] []], []⟩),
    ("Clone", ⟨false, [], [.fn "clone" .ref [] (.path ["Self"] []) true]⟩)]

/-- What is known of the crate that uses the derives. -/
structure User (α : Type) where
  /-- the traits that types implement -/
  impls : Typ α → String → Prop
  /-- the traits in scope where the derive is used -/
  scope : String → Prop
  /-- the type has a method of that name other than those of the traits here -/
  otherMethod : Typ α → String → Prop

/-- What derived code can use: names by `provided` (`Spec/TextNames.lean`), declarations from the text. -/
def typingEnv {α : Type} (f : Features) (u : User α) : Env α where
  traitAt p := if provided f (.trait p) then p.segments.getLast? else none
  fnAt p := if provided f (.value p) then
      match p.segments with
      | ["crevice", "internal", x] => fnDecl x (textWith f ["internal"])
      | _ => none
    else none
  structAt p := if provided f (.type p) then p.segments.getLast? else none
  traits x := ((traitModules.lookup x).bind fun m => traitDecl x (textWith f m)).or (outsideDecls.lookup x)
  structs x := structDecl x (textWith f ["glsl"])
  impls := u.impls
  scope := u.scope
  otherMethod := u.otherMethod

/-- The struct that has the derive, without its attributes; they and the visibility of its fields do not matter here. -/
def inputItem {α : Type} (vis : RustSyntax.Vis) (name : String) (generics : List String) (fields : List (String × α)) :
    RustSyntax.Item α :=
  .struct [] vis name generics (fields.map fun x => ⟨.inherited, x.1, .spliced x.2⟩)

/-- The name of `AsStdN`. -/
def asTraitName : Layout → String
  | .std140 => "AsStd140"
  | .std430 => "AsStd430"

/-- `<T as AsStdN>::Output`. -/
def outputTy {α : Type} (l : Layout) (t : α) : Typ α := .proj (.given t) (asTraitName l) "Output"

end Crevice
