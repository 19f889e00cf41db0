import Verif.Model.TextClient
import Verif.Model.TextFeatures
/-
A crate that uses crevice with any set of Cargo features, as program text.
-/
namespace Crevice
open RustCode RustTypes TypeNames ClientText

/-- The crate and crevice with the given features (all of `src`, `Cargo.toml:21-24,36-43`). -/
def Client.modulesWith (k : Client) (f : Features) : List (String × List Item) := crateModulesWith f ++ [("", k.allItems)]

/-- The meaning of the crate and crevice, up to a bound on the recursion. -/
def Client.semWith (k : Client) (f : Features) (tg : Target) (env : ForeignEnv) (n : Nat) : Sem :=
  RustTypes.sem (indexItems (k.modulesWith f)) (clientOutside tg env) n

/-- The implementation of `AsStdN` (`src/std140/traits.rs:74-89`, `src/std430/traits.rs:74-89`) for a type as it is written in
the crate. -/
def Client.implWith (k : Client) (f : Features) (tg : Target) (env : ForeignEnv) (n : Nat) (l : Layout) (t : RustCode.Ty) :
    Option Impl :=
  ((k.semWith f tg env n).norm topScope t).bind (semImpl (k.semWith f tg env n) l)

/-- `<T as Glsl>::NAME` (`src/glsl.rs:43-46`) for a type as it is written in the crate. -/
def Client.glslNameWith (k : Client) (f : Features) (tg : Target) (env : ForeignEnv) (n : Nat) (t : RustCode.Ty) : Option String :=
  ((k.semWith f tg env n).norm topScope t).bind (semName (k.semWith f tg env n))

/-- `<T as GlslStruct>::FIELDS` (`src/glsl.rs:60-63`) for a type as it is written in the crate. -/
def Client.glslFieldsWith (k : Client) (f : Features) (tg : Target) (env : ForeignEnv) (n : Nat) (t : RustCode.Ty) :
    Option (List GlslField) :=
  ((k.semWith f tg env n).norm topScope t).bind fun c =>
    ((k.semWith f tg env n).find ["glsl", "GlslStruct"] [] c).bind fun d =>
      (assocConst d.items "FIELDS").bind (constFields (k.semWith f tg env n) d.scope)

end Crevice
