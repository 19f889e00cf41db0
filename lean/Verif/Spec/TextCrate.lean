import Verif.Spec.TextClient
import Verif.Model.TextClientFeatures
/-
Specification: a program that consists of a crate with derives (`Model/TextClient.lean`), crevice with any set of features, and
a main function that hands values of types of the crate to the Writer and the Sizer. Everything is program text: which
implementation of `AsStdN` a type has, what its conversions do, and what the Writer does with the result.
-/
namespace RustCode
open Crevice

/-- A type as it is written in the crate, and the implementation of `AsStdN` that rustc finds for it in the text of the crate
and of crevice (`N` bounds the recursion of the search). Alignment and size are numbers of type `usize`. -/
structure CrateTy (k : Client) (f : Features) (tg : Target) (env : ForeignEnv) (l : Layout) (N bits : Nat) where
  ty : RustCode.Ty
  impl : Impl
  found : k.implWith f tg env N l ty = some impl
  align : impl.alignment < 2 ^ bits
  size : impl.out.size tg < 2 ^ bits

/-- The crate as the caller of the Writer. The values of kind `conv` are values of such types, those of kind
`std` values of their Output types; conversions are what the implementations found in the text say. The sink is a `Vec<u8>`. -/
def crateSetting (k : Client) (f : Features) (tg : Target) (env : ForeignEnv) (l : Layout) (N bits : Nat) (checked : Bool) :
    Setting :=
  { bits := bits
    checked := checked
    Sink := List Byte
    Err := Unit
    ConvTy := CrateTy k f tg env l N bits
    Conv := CrateTy k f tg env l N bits × RVal
    StdTy := CrateTy k f tg env l N bits
    Std := CrateTy k f tg env l N bits × RVal
    convTy := Prod.fst
    stdTy := Prod.fst
    World := Unit
    writeAll := fun s bs => (.returns (.ok ()), s ++ bs)
    next := fun w => (.returns none, w)
    outTy := fun t => t
    convert := fun c =>
      match c.1.impl.asStd c.2 with
      | some o => .returns (c.1, o)
      | none => .panics
    restore := fun t d =>
      match t.impl.fromStd d.2 with
      | some v => .returns (t, v)
      | none => .panics
    convert_ty := fun c d h => by
      rcases ho : c.1.impl.asStd c.2 with _ | o <;> rw [ho] at h <;> cases h
      rfl
    align := fun t => t.impl.alignment
    size := fun t => t.impl.out.size tg
    bytes := fun d => (bytesOf tg d.1.impl.out d.2).getD [] }

/-- Types of the crate as type arguments. -/
def crateTys {k : Client} {f : Features} {tg : Target} {env : ForeignEnv} {l : Layout} {N bits : Nat} (checked : Bool)
    (cs : List (CrateTy k f tg env l N bits)) : List (RtTy (crateSetting k f tg env l N bits checked)) :=
  cs.map fun c => RtTy.conv (S := crateSetting k f tg env l N bits checked) c

/-- Values of types of the crate as arguments. -/
def crateVals {k : Client} {f : Features} {tg : Target} {env : ForeignEnv} {l : Layout} {N bits : Nat} (checked : Bool)
    (cs : List (CrateTy k f tg env l N bits)) (vs : List RVal) : List (Val (crateSetting k f tg env l N bits checked)) :=
  (cs.zip vs).map fun c => Val.arg (S := crateSetting k f tg env l N bits checked) (.conv c)

/-- A client that adds the types one after the other to a Sizer. -/
def sizerSession {S : Setting} (p : Program) (n : Nat) (world : S.World) : Val S → List (RtTy S) → List (Res S (Val S)) × Val S
  | z, [] => ([], z)
  | z, t :: ts =>
    match execMethod p n [t] "z" "add" [("z", z)] world with
    | (r, s) =>
      match sizerSession p n world ((s.env.lookup "z").getD .unit) ts with
      | (rs, z) => (r :: rs, z)

/-- A value of a type that is used in the crate and is there with the features. `model` is the type in the model, by which the
value has a meaning. -/
structure Put (k : Client) (f : Features) (tg : Target) (env : ForeignEnv) (l : Layout) where
  ty : RustCode.Ty
  model : Crevice.Ty
  val : RVal
  impl : Impl
  uses : Uses k l ty model
  enabled : model.Enabled f
  resolves : resolve tg env l model = some impl
  hasVal : model.HasVal tg env val

end RustCode
