import Verif.Spec.TextCrate
import Verif.Spec.Correspond
/-
Specification: a program as in `Spec/TextCrate.lean` that hands single values and slices of values to the Writer, to fill a
block of a shader, and the block as the shader declares it.
-/
namespace RustCode
open Crevice

/-- What the program hands to `Writer::write`: a value, or a slice of values of one type. -/
inductive Given (k : Client) (f : Features) (tg : Target) (env : ForeignEnv) (l : Layout)
  | one (x : Put k f tg env l)
  | many (model : Crevice.Ty) (xs : List (Put k f tg env l))

namespace Given
variable {k : Client} {f : Features} {tg : Target} {env : ForeignEnv} {l : Layout}

/-- The values, in order. -/
def puts : Given k f tg env l → List (Put k f tg env l)
  | one x => [x]
  | many _ xs => xs

/-- The GLSL type of the member of the block. -/
def glsl : Given k f tg env l → Option Glsl.Ty
  | one x => x.model.glsl
  | many t xs => t.glsl.map fun g => .array g xs.length

/-- The GLSL value that the member should have. -/
def denote : Given k f tg env l → Option Glsl.Val
  | one x => x.model.denote env x.val
  | many _ xs => (xs.mapM fun (x : Put k f tg env l) => x.model.denote env x.val).map .array

/-- The elements of a slice are of its type, which has an alignment that std140 does not round up in arrays (every
derived struct, see `C21_std140_iff`). -/
def ElemsOk : Given k f tg env l → Prop
  | one _ => True
  | many t xs => ∀ x ∈ xs, x.model = t ∧ (l = .std430 ∨ 16 ≤ x.impl.alignment)

/-- A slice is not empty and its elements leave no gaps (derived structs, see `C14_size`). -/
def Full : Given k f tg env l → Prop
  | one _ => True
  | many _ xs => xs ≠ [] ∧ ∀ x ∈ xs, x.impl.alignment ∣ x.impl.out.size tg

end Given

variable {k : Client} {f : Features} {tg : Target} {env : ForeignEnv} {l : Layout} {N bits : Nat}

/-- The argument is what the program hands over, with the implementations that are found in the text. -/
inductive Hands : Given k f tg env l →
    Arg (CrateTy k f tg env l N bits × RVal) (CrateTy k f tg env l N bits × RVal) → Prop
  | one {x : Put k f tg env l} {c : CrateTy k f tg env l N bits} (h : c.ty = x.ty ∧ c.impl = x.impl) :
      Hands (.one x) (.conv (c, x.val))
  | many {t : Crevice.Ty} {xs : List (Put k f tg env l)} {cs : List (CrateTy k f tg env l N bits)}
      (h : cs.map (fun c => (c.ty, c.impl)) = xs.map fun x => (x.ty, x.impl)) :
      Hands (.many t xs) (.slice ((cs.zip (xs.map Put.val)).map .conv))

/-- One by one. -/
inductive HandsAll : List (Given k f tg env l) →
    List (Arg (CrateTy k f tg env l N bits × RVal) (CrateTy k f tg env l N bits × RVal)) → Prop
  | nil : HandsAll [] []
  | cons {g gs a as} (h : Hands g a) (r : HandsAll gs as) : HandsAll (g :: gs) (a :: as)

/-- The members of the block, by name. -/
def givenMembers : List (String × Given k f tg env l) → Option (List (String × Glsl.Ty))
  | [] => some []
  | (n, e) :: r => e.glsl.bind fun g => (givenMembers r).map fun gs => (n, g) :: gs

/-- The values of the members, by name. -/
def givenValues : List (String × Given k f tg env l) → Option (List (String × Glsl.Val))
  | [] => some []
  | (n, e) :: r => e.denote.bind fun v => (givenValues r).map fun vs => (n, v) :: vs

/-- The Sizer after all values of the arguments. -/
def sizerAfter (gs : List (Given k f tg env l)) : Sizer :=
  (Sizer.new.addAll tg ((gs.flatMap Given.puts).map Put.impl)).2

end RustCode
