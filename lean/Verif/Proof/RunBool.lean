import Verif.Proof.Run
import Verif.Source.Parsed
import Verif.Model.Primitives
/-
The conversions of `src/bool.rs`, executed.
-/
namespace RustCode
open Crevice

/-- `src/bool.rs` as a program. -/
def boolProgram : Program :=
  { items := (parse Source.bool).getD [], convTraits := [], stdTraits := [], convertName := "", restoreName := "" }

theorem boolProgram_items : boolProgram.items = Parsed.bool := by
  simp only [boolProgram, Parsed.parse_bool]; rfl

/-- `src/bool.rs` with its items in parsed form. -/
def boolLib : Program :=
  { items := Parsed.bool, convTraits := [], stdTraits := [], convertName := "", restoreName := "" }

theorem boolProgram_eq : boolProgram = boolLib := by
  rw [boolProgram, boolLib, Parsed.parse_bool]; rfl

theorem boolProgram_from {S : Setting} : findMethod (S := S) boolLib (.named "Bool" []) "from" =
    some (Parsed.bool5_from, []) := by rfl

theorem boolProgram_from' {S : Setting} : findMethod (S := S) boolLib (.named "bool" []) "from" =
    some (Parsed.bool6_from, []) := by rfl

/-- `Bool::from(b)`. -/
theorem call_boolFrom {S : Setting} (n : Nat) (b : Bool) (env : Env S) (world : S.World)
    (hb : env.lookup "b" = some (.bool b)) :
    exec boolProgram [] (n + 1) (.call (.path (.path ["Bool", "from"] [])) [.var "b"]) env world =
      (.val (.struct "Bool" [("0", .u32 (if b then 1 else 0))]), { env := env, world := world }) := by
  rw [boolProgram_eq, exec]
  generalize hcx : (Ctx.mk boolLib [] (n + 1) (runFn boolLib (n + 1)) : Ctx S) = cx
  have hp : cx.prog = boolLib := by rw [← hcx]
  have hrun : cx.run = runFn boolLib (n + 1) := by rw [← hcx]
  have htys : cx.tys = [] := by rw [← hcx]
  have hcall : ∀ v : Val S, call cx (.path (.path ["Bool", "from"] [])) [.var "b"] [v] =
      callFn cx Parsed.bool5_from [("Self", .named "Bool" [])] none [.var "b"] [v] := by
    intro v
    have : call cx (.path (.path ["Bool", "from"] [])) [.var "b"] [v] =
      callAssoc cx (evalTy cx.prog cx.tys (cx.prog.depth + 1) (.path ["Bool"] [])) "from" [.var "b"] [v] := rfl
    have ht : evalTy (S := S) boolLib [] (boolLib.depth + 1) (.path ["Bool"] []) = .named "Bool" [] := by rfl
    rw [this, hp, htys, ht, callAssoc, hp, boolProgram_from]
  have hsv : structVal (S := S) boolLib.items "Bool" ((List.range 1).map toString) [.u32 (if b then 1 else 0)] =
      M.pure (.struct "Bool" [("0", .u32 (if b then 1 else 0))]) := by rfl
  have hfn : findFn boolLib.items "Self" = none := by rfl
  have hnn : ¬ "b" = "None" := by decide
  simp only [eval, evalList, if_neg hnn, bind_apply, getVar_apply, hb, pure_apply, hcall]
  simp [List.range_succ] at hsv
  unfold callFn
  simp [rust, hrun, runFn, Parsed.bool5_from, hb, castVal, call, hfn, structName, hsv, hcall]

/-- `bool::from(v)`. -/
theorem call_boolInto {S : Setting} (n : Nat) (w : BitVec 32) (env : Env S) (world : S.World)
    (hb : env.lookup "v" = some (.struct "Bool" [("0", .u32 w)])) :
    exec boolProgram [] (n + 1) (.call (.path (.path ["bool", "from"] [])) [.var "v"]) env world =
      (.val (.bool (w != 0)), { env := env, world := world }) := by
  rw [boolProgram_eq, exec]
  generalize hcx : (Ctx.mk boolLib [] (n + 1) (runFn boolLib (n + 1)) : Ctx S) = cx
  have hp : cx.prog = boolLib := by rw [← hcx]
  have hrun : cx.run = runFn boolLib (n + 1) := by rw [← hcx]
  have htys : cx.tys = [] := by rw [← hcx]
  have hcall : ∀ v : Val S, call cx (.path (.path ["bool", "from"] [])) [.var "v"] [v] =
      callFn cx Parsed.bool6_from [("Self", .named "bool" [])] none [.var "v"] [v] := by
    intro v
    have : call cx (.path (.path ["bool", "from"] [])) [.var "v"] [v] =
      callAssoc cx (evalTy cx.prog cx.tys (cx.prog.depth + 1) (.path ["bool"] [])) "from" [.var "v"] [v] := rfl
    have ht : evalTy (S := S) boolLib [] (boolLib.depth + 1) (.path ["bool"] []) = .named "bool" [] := by rfl
    rw [this, hp, htys, ht, callAssoc, hp, boolProgram_from']
  have hne : (!decide (w = 0#32)) = (w != 0#32) := by
    by_cases h : w = 0#32 <;> simp [h]
  have hnn : ¬ "v" = "None" := by decide
  simp only [eval, evalList, if_neg hnn, bind_apply, getVar_apply, hb, pure_apply, hcall]
  unfold callFn
  simp [rust, hrun, runFn, Parsed.bool6_from, hb, hne]

end RustCode
