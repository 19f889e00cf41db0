import Verif.Model.TextTypes
import Verif.Model.TextDerive
import Verif.Model.Glsl
import Verif.Spec.ClientText
/-
A crate that uses crevice, as program text: structs with `#[derive(AsStd140)]`, `#[derive(AsStd430)]`
and `#[derive(GlslStruct)]`. The text of the
derive macros (`crevice-derive/src/{lib,layout,glsl}.rs`) is run on each of them; what it returns is read as Rust and stands next
to the struct. The crate and crevice are one program whose meaning is that of `Spec/RustTypes.lean`.
-/
namespace RustTypes

/-- A constant string. -/
def Const.str? : Const → Option String
  | .str s => some s
  | _ => none

end RustTypes

namespace Crevice
open RustCode RustTypes TypeNames ClientText

/-- `vis struct name { fields }` with the types of the fields as they are written: what `derive` accepts, see
`crevice-derive/src/layout.rs:28-37` and `crevice-derive/src/glsl.rs:6-12`. Simplified: no generics. -/
structure ClientStruct where
  vis : RustSyntax.Vis
  name : String
  fields : List (String × RustCode.Ty)

/-- The struct as an item, the input of the derives (`crevice-derive/src/layout.rs:5-45`). It does not matter what else it
derives. -/
def ClientStruct.item (c : ClientStruct) : Item := .struct [] c.name noGenerics c.fields

/-- What a derive macro makes of the struct: run the text of the macro (`crevice-derive/src/lib.rs:8-22`,
`crevice-derive/src/layout.rs:5-265`) and read the tokens that it returns. -/
def Expansion (l : Layout) (c : ClientStruct) (items : List (RustSyntax.Item RustCode.Ty)) : Prop :=
  ∃ ts, (∀ n ≥ 5, RustMacro.exec (deriveProgram false) n "lib" (deriveEntry l)
      [synInput c.vis { ident := c.name, data := .structNamed c.fields }] = .val (.toks ts)) ∧
    RustSyntax.Reads ts items

/-- The items that come from the derives (`crevice-derive/src/layout.rs:166-264`). -/
inductive Derived : List (ClientStruct × Layout) → List Item → Prop
  | nil : Derived [] []
  | cons {c : ClientStruct} {l : Layout} {ds : List (ClientStruct × Layout)} {is : List (RustSyntax.Item RustCode.Ty)}
    {rest : List Item} (h : Expansion l c is) (r : Derived ds rest) :
    Derived ((c, l) :: ds) (is.map codeItem ++ rest)

/-- What `#[derive(GlslStruct)]` makes of the struct (`crevice-derive/src/lib.rs:24-30`, `crevice-derive/src/glsl.rs:5-46`). -/
def GlslExpansion (c : ClientStruct) (items : List (RustSyntax.Item RustCode.Ty)) : Prop :=
  ∃ ts, (∀ n ≥ 3, RustMacro.exec (deriveProgram false) n "lib" "derive_glsl_struct"
      [synInput c.vis { ident := c.name, data := .structNamed c.fields }] = .val (.toks ts)) ∧
    RustSyntax.Reads ts items

/-- The items that come from `#[derive(GlslStruct)]` (`crevice-derive/src/glsl.rs:36-45`). -/
inductive GlslDerived : List ClientStruct → List Item → Prop
  | nil : GlslDerived [] []
  | cons {c : ClientStruct} {gs : List ClientStruct} {is : List (RustSyntax.Item RustCode.Ty)} {rest : List Item}
    (h : GlslExpansion c is) (r : GlslDerived gs rest) : GlslDerived (c :: gs) (is.map codeItem ++ rest)

/-- A crate with the structs `cs`; the derives are `ds`, and `GlslStruct` for `gs`. -/
structure Client where
  cs : List ClientStruct
  ds : List (ClientStruct × Layout)
  gs : List ClientStruct
  items : List Item
  glslItems : List Item
  known : ∀ d ∈ ds, d.1 ∈ cs
  glslKnown : ∀ c ∈ gs, c ∈ cs
  derived : Derived ds items
  glslDerived : GlslDerived gs glslItems

/-- The items of the crate. -/
def Client.allItems (k : Client) : List Item := k.cs.map ClientStruct.item ++ (k.items ++ k.glslItems)

/-- The crate and crevice (all of `src`). -/
def Client.modules (k : Client) : List (String × List Item) := crateModules ++ [("", k.allItems)]

/-- The language and other crates: `size_of` is that of the target. -/
def clientOutside (tg : Target) (env : ForeignEnv) : Outside :=
  { outside env with sizeOf := fun r => some (r.size tg) }

/-- The meaning of the crate and crevice, up to a bound on the recursion. -/
def Client.sem (k : Client) (tg : Target) (env : ForeignEnv) (n : Nat) : Sem :=
  RustTypes.sem (indexItems k.modules) (clientOutside tg env) n

/-- The implementation of `AsStdN` (`src/std140/traits.rs:74-89`, `src/std430/traits.rs:74-89`) for a type as it is written in
the crate. -/
def Client.impl (k : Client) (tg : Target) (env : ForeignEnv) (n : Nat) (l : Layout) (t : RustCode.Ty) : Option Impl :=
  ((k.sem tg env n).norm topScope t).bind (semImpl (k.sem tg env n) l)

/-- `<T as Glsl>::NAME` (`src/glsl.rs:43-46`) for a type as it is written in the crate. -/
def Client.glslName (k : Client) (tg : Target) (env : ForeignEnv) (n : Nat) (t : RustCode.Ty) : Option String :=
  ((k.sem tg env n).norm topScope t).bind fun c =>
    ((k.sem tg env n).find ["glsl", "Glsl"] [] c).bind fun f =>
      ((assocConst f.items "NAME").bind ((k.sem tg env n).const f.scope [])).bind Const.str?

/-- `GlslField { ty: .., name: .. }` (`src/glsl.rs:48-55`) -/
def constField (g : Sem) (s : Scope) : Expr → Option GlslField
  | .struct (.path ["crate", "glsl", "GlslField"] []) names es =>
    (((names.zip es).lookup "ty").bind fun e => (g.const s [] e).bind Const.str?).bind fun ty =>
      (((names.zip es).lookup "name").bind fun e => (g.const s [] e).bind Const.str?).map fun name => ⟨ty, name⟩
  | _ => none

/-- `&[GlslField { .. }, ..]`, the value of `FIELDS` (`src/glsl.rs:61-63`). -/
def constFields (g : Sem) (s : Scope) : Expr → Option (List GlslField)
  | .ref _ (.array es) => es.mapM (constField g s)
  | _ => none

/-- `NAME` and `<T as GlslStruct>::FIELDS` (`src/glsl.rs:60-63`) for a type as it is written in the crate. -/
def Client.glslStruct (k : Client) (tg : Target) (env : ForeignEnv) (n : Nat) (t : RustCode.Ty) :
    Option (String × List GlslField) :=
  ((k.sem tg env n).norm topScope t).bind fun c =>
    ((k.sem tg env n).find ["glsl", "GlslStruct"] [] c).bind fun f =>
      ((assocConst f.items "FIELDS").bind (constFields (k.sem tg env n) f.scope)).bind fun fs =>
        (k.glslName tg env n t).map fun name => (name, fs)

/-- What rustc asks for: no two items of the same name, no trait implemented twice. The names of machine types, `Zeroable` and `Pod` are not used for
items, and fields have names. -/
structure Client.Ok (k : Client) : Prop where
  nodup : (k.allItems.filterMap declared).Nodup
  free : ∀ x ∈ k.allItems.filterMap declared,
    x ∉ ["Self", "f32", "f64", "i32", "u32", "u8", "bool", "Zeroable", "Pod"]
  fields : ∀ c ∈ k.cs, ∀ f ∈ c.fields, f.1 ≠ "0"
  glslOnce : k.gs.Nodup

mutual
/-- `GlslUses k t T`: the type `T` of the model is written `t` in the crate, and every struct in it derives `GlslStruct`. -/
inductive GlslUses (k : Client) : RustCode.Ty → Ty → Prop
  | lib {t : RustCode.Ty} {T : Ty} (h : Writes t T) : GlslUses k t T
  | struct {c : ClientStruct} {fs : List (String × Ty)} (hc : c ∈ k.gs) (h : GlslUsesFields k c.fields fs) :
    GlslUses k (ty c.name) (.struct c.name fs)
/-- Field by field. -/
inductive GlslUsesFields (k : Client) : List (String × RustCode.Ty) → List (String × Ty) → Prop
  | nil : GlslUsesFields k [] []
  | cons {name : String} {t : RustCode.Ty} {T : Ty} {fs : List (String × RustCode.Ty)} {Fs : List (String × Ty)}
    (h : GlslUses k t T) (r : GlslUsesFields k fs Fs) : GlslUsesFields k ((name, t) :: fs) ((name, T) :: Fs)
end

mutual
/-- `Uses k l t T`: the type `T` of the model is written `t` in the crate, and every struct in it derives `AsStdN`. -/
inductive Uses (k : Client) (l : Layout) : RustCode.Ty → Ty → Prop
  | lib {t : RustCode.Ty} {T : Ty} (h : Writes t T) : Uses k l t T
  | struct {c : ClientStruct} {fs : List (String × Ty)} (hc : c ∈ k.cs) (hd : (c, l) ∈ k.ds)
    (h : UsesFields k l c.fields fs) : Uses k l (ty c.name) (.struct c.name fs)
  | dynamic {t : RustCode.Ty} {T : Ty} (hl : l = .std140) (h : Uses k l t T) :
    Uses k l (.path ["crate", "std140", "DynamicUniform"] [t]) (.dynamic T)
  | output {t : RustCode.Ty} {T : Ty} (h : Uses k l t T) :
    Uses k l (.proj t (inMod l (asTrait l)) ["Output"]) (.output l T)
/-- Field by field. -/
inductive UsesFields (k : Client) (l : Layout) : List (String × RustCode.Ty) → List (String × Ty) → Prop
  | nil : UsesFields k l [] []
  | cons {name : String} {t : RustCode.Ty} {T : Ty} {fs : List (String × RustCode.Ty)} {Fs : List (String × Ty)}
    (h : Uses k l t T) (r : UsesFields k l fs Fs) : UsesFields k l ((name, t) :: fs) ((name, T) :: Fs)
end

end Crevice
