import Verif.Model.TextTyping
import Verif.Model.TextClientFeatures
/-
A crate that uses the derives, as the type checker sees it: its structs and what the derives return for them.
-/
namespace Crevice
open RustTyping

/-- What the derives `AsStdN` return (`crevice-derive/src/lib.rs:8-22`), as it is read. -/
inductive Returned : List (ClientStruct × Layout) → List (RustSyntax.Item RustCode.Ty) → Prop
  | nil : Returned [] []
  | cons {c : ClientStruct} {l : Layout} {ds : List (ClientStruct × Layout)} {is rest : List (RustSyntax.Item RustCode.Ty)}
    (h : Expansion l c is) (r : Returned ds rest) : Returned ((c, l) :: ds) (is ++ rest)

/-- What the derives `GlslStruct` return (`crevice-derive/src/lib.rs:24-30`), as it is read. -/
inductive GlslReturned : List ClientStruct → List (RustSyntax.Item RustCode.Ty) → Prop
  | nil : GlslReturned [] []
  | cons {c : ClientStruct} {gs : List ClientStruct} {is rest : List (RustSyntax.Item RustCode.Ty)}
    (h : GlslExpansion c is) (r : GlslReturned gs rest) : GlslReturned (c :: gs) (is ++ rest)

/-- The items of the crate: those of `Client.allItems` (`Model/TextClient.lean`) before they become part of the program with
crevice. -/
def crateProgram (cs : List ClientStruct) (is js : List (RustSyntax.Item RustCode.Ty)) : List (RustSyntax.Item RustCode.Ty) :=
  cs.map (fun c => inputItem c.vis c.name [] c.fields) ++ (is ++ js)

/-- What the text of the crate and of crevice with features `f` says of the types that are written in the crate
(`Model/TextClientFeatures.lean`). Both traits are in scope, and types have no methods `as_stdN` but those of the traits. -/
def Client.user (k : Client) (f : Features) (tg : Target) (env : ForeignEnv) : User RustCode.Ty where
  impls
    | .given t, q => (∃ l, q = asTraitName l ∧ ∃ N, ∀ n ≥ N, (k.implWith f tg env n l t).isSome = true) ∨
        q = "Glsl" ∧ ∃ N, ∀ n ≥ N, (k.glslNameWith f tg env n t).isSome = true
    | .proj (.given t) tr x, q => x = "Output" ∧ q = "Debug" ∧
        ∃ l, tr = asTraitName l ∧ ∃ N, ∀ n ≥ N, ∃ i, k.implWith f tg env n l t = some i ∧ i.outDebug = true
    | _, _ => False
  scope _ := True
  otherMethod _ _ := False

/-- The names that the user of the derives has to choose: structs, and the structs that the derives add, have different names,
which are not those of `u8`, `usize` and `str`; the fields of a struct have different names. -/
structure Client.NamesOk (k : Client) : Prop where
  distinct : ((k.cs.map ClientStruct.name ++ k.ds.map fun d => generatedName d.2 d.1.name).map plainName).Nodup
  free : ∀ c ∈ k.cs, plainName c.name ∉ ["u8", "usize", "str"]
  fields : ∀ c ∈ k.cs, (c.fields.map fun x => plainName x.1).Nodup

end Crevice
