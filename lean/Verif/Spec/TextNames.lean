import Verif.Spec.Refs
import Verif.Model.TextNames
/-
Specification: which of the names that derived code refers to are there, whatever is in scope where the derive is used.
-/
namespace Crevice
open RustCode RustSyntax

/-- The traits of other crates that derived code may use, with the items that an `impl` of them must and can have. -/
def outsideTraits : List (List String) := [["bytemuck", "Zeroable"], ["bytemuck", "Pod"]]

/-- The functions of other crates that derived code may use. `core` is there without the standard library. -/
def outsideFns : List (List String) := [["core", "mem", "size_of"], ["bytemuck", "Zeroable", "zeroed"]]

/-- What `::a::b` means in a crate that uses crevice. -/
def globalPath (f : Features) : List String → List (Thing × List String)
  | [] => []
  | a :: r => if a = "crevice" then crevicePath f r else [(.outside (a :: r), [])]

/-- The path stands for a trait of which the items, or the name in another crate, have the given property. -/
def traitIs (f : Features) (p : Path) (own : List (String × Bool) → Bool) (outside : Bool) : Bool :=
  p.global && (globalPath f p.segments).any fun x =>
    match x with
    | (.item .trait ms, []) => own ms
    | (.outside q, []) => outside && outsideTraits.contains q
    | _ => false

/-- The name leads, by a path that begins with `::`, to what it is used as: to an item that crevice makes public with the given
features, or to one of the names of other crates above. -/
def provided (f : Features) : Ref → Bool
  | .trait p => traitIs f p (fun _ => true) true
  | .member p x => traitIs f p (fun ms => ms.any fun m => m.1 = x) false
  | .impl p xs =>
    traitIs f p (fun ms => (xs.all fun x => ms.any fun m => m.1 = x) && ms.all fun m => m.2 || xs.contains m.1) xs.isEmpty
  | .type p =>
    p.global && (globalPath f p.segments).any fun x =>
      match x with
      | (.item .struct _, []) => true
      | _ => false
  | .value p =>
    p.global && (globalPath f p.segments).any fun x =>
      match x with
      | (.item .fn _, []) => true
      | (.item .trait ms, [m]) => ms.any fun y => y.1 = m
      | (.outside q, []) => outsideFns.contains q
      | _ => false
  | .derive _ => false

/-- The name is taken from the place where the derive is used: the type with the derive, an item that the derive itself adds
there, a primitive type, or a derive of the prelude. -/
def fromScope {α : Type} (self : String) (is : List (RustSyntax.Item α)) : Ref → Prop
  | .type p => p.global = false ∧ ∃ x, p.segments = [x] ∧ (x = self ∨ x ∈ structNames is ∨ x ∈ ["u8", "usize", "str"])
  | .value p => p.global = false ∧ ∃ x, p.segments = [x] ∧ x ∈ fnNames is
  | .derive x => x ∈ ["Debug", "Clone", "Copy"]
  | _ => False

/-- The names of a layout's module that are public with any features: the layout types (`src/std140/primitives.rs`), `Bool`,
`Sizer`, the traits, and for std140 `DynamicUniform`. The derive and the trait have one name. -/
def alwaysPublic (l : Layout) : List String :=
  ["Bool", "Vec2", "Vec3", "Vec4", "IVec2", "IVec3", "IVec4", "UVec2", "UVec3", "UVec4", "BVec2", "BVec3", "BVec4", "DVec2",
    "DVec3", "DVec4", "Mat2", "Mat3", "Mat4", "DMat2", "DMat3", "DMat4", "Sizer"] ++
  match l with
  | .std140 => ["Std140", "AsStd140", "DynamicUniform", "DynamicUniformStd140"]
  | .std430 => ["Std430", "AsStd430"]

/-- The names that are public with the feature `std`. -/
def publicWithStd : Layout → List String
  | .std140 => ["Writer", "WriteStd140"]
  | .std430 => ["Writer", "WriteStd430"]

/-- Words that ask for a crate that may not be there, with the feature that brings it: names and macros of the standard
library that are not in `core`, and the math libraries. -/
def words : List (String × String) :=
  [("std", "std"), ("alloc", "std"), ("String", "std"), ("Vec", "std"), ("Box", "std"), ("format", "std"), ("vec", "std"),
    ("println", "std"), ("cgmath", "cgmath"), ("glam", "glam"), ("nalgebra", "nalgebra")]

end Crevice
