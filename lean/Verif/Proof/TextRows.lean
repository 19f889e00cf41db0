import Verif.Proof.TextDefs
/-
What the text of the crate says about its types: the rows of the tables.
-/
namespace Crevice.Tables
open RustCode RustTypes TypeNames

/-! ### The structs of a layout -/

section
variable (env : ForeignEnv) (k : Nat) (l : Layout)

theorem prims_as :
    (primNames l).map (fun n => (G env (k + 3)).candidates [mod l, asTrait l] [] (primCTy l n)) =
      (primNames l).map fun n => some [blanketFound l (primCTy l n)] := by
  cases l <;> kernel_rfl

theorem prims_as_other :
    (primNames l).map (fun n => (G env (k + 3)).candidates [mod (other l), asTrait (other l)] [] (primCTy l n)) =
      (primNames l).map fun _ => some [] := by
  cases l <;> kernel_rfl

theorem prims_std :
    (primNames l).map (fun n => (G env (k + 1)).candidates [mod l, stdTrait l] [] (primCTy l n)) =
      (primNames l).map fun n => (l.primitive n).map fun p => [stdFound l (primCTy l n) p.alignment] := by
  cases l <;> kernel_rfl

theorem prims_layout :
    (primNames l).map (fun n => (G env (k + 4)).layout (primCTy l n)) =
      (primNames l).map fun n => (l.primitive n).map fun p => .struct p.fields := by
  cases l <;> kernel_rfl

theorem prims_fields :
    (primNames l).map (fun n => fieldsOf jx (outside env) (G env (k + 2)) (primCTy l n)) =
      (primNames l).map fun n => some (primFields l n) := by
  cases l <;> kernel_rfl

theorem prims_names :
    (primNames l).map (fun n => some ((primFields l n).map Prod.fst)) =
      (primNames l).map fun n => (l.primitive n).map fun p => p.fields.map Prod.fst := by
  cases l <;> kernel_rfl

theorem prims_norm (s : Scope) :
    (primNames l).map (fun n => (G env (k + 1)).norm s (inMod l n)) =
      (primNames l).map fun n => some (primCTy l n) := by
  cases l <;> kernel_rfl

theorem prims_implements :
    ["Debug", "Zeroable", "Pod", "Copy", "Clone"].map (fun t =>
      (primNames l).map fun n => (G env (k + 6)).implements [t] (primCTy l n)) =
      ["Debug", "Zeroable", "Pod", "Copy", "Clone"].map fun _ => (primNames l).map fun _ => some true := by
  cases l <;> kernel_rfl

/-! ### Scalars and `Bool` -/

theorem scalars_as :
    scalars.map (fun s => (G env (k + 3)).candidates [mod l, asTrait l] [] (simpleCTy (scalarName s))) =
      scalars.map fun s => some [blanketFound l (simpleCTy (scalarName s))] := by
  cases l <;> kernel_rfl

theorem u8_as : (G env (k + 3)).candidates [mod l, asTrait l] [] (simpleCTy "u8") = some [] := by
  cases l <;> kernel_rfl

theorem scalars_std :
    scalars.map (fun s => (G env (k + 1)).candidates [mod l, stdTrait l] [] (simpleCTy (scalarName s))) =
      scalars.map fun s => (l.scalarAlignment s).map fun a => [stdFound l (simpleCTy (scalarName s)) a] := by
  cases l <;> kernel_rfl

theorem scalars_layout :
    scalars.map (fun s => (G env (k + 1)).layout (simpleCTy (scalarName s))) =
      scalars.map fun s => some (.scalar s) := by
  kernel_rfl

theorem scalars_implements :
    ["Debug", "Zeroable", "Pod", "Copy", "Clone"].map (fun t =>
      scalars.map fun s => (G env (k + 3)).implements [t] (simpleCTy (scalarName s))) =
      ["Debug", "Zeroable", "Pod", "Copy", "Clone"].map fun _ => scalars.map fun _ => some true := by
  kernel_rfl

theorem Bool_as : (G env (k + 3)).candidates [mod l, asTrait l] [] boolCTy = some [blanketFound l boolCTy] := by
  cases l <;> kernel_rfl

theorem Bool_std :
    (G env (k + 1)).candidates [mod l, stdTrait l] [] boolCTy = some [stdFound l boolCTy l.boolAlignment] := by
  cases l <;> kernel_rfl

theorem Bool_layout : (G env (k + 3)).layout boolCTy = some boolTy := by
  kernel_rfl

theorem Bool_implements :
    ["Debug", "Zeroable", "Pod", "Copy", "Clone"].map (fun t => (G env (k + 4)).implements [t] boolCTy) =
      ["Debug", "Zeroable", "Pod", "Copy", "Clone"].map fun _ => some true := by
  kernel_rfl

theorem bool_as : (G env (k + 3)).candidates [mod l, asTrait l] [] (simpleCTy "bool") = some [boolFound l] := by
  cases l <;> kernel_rfl

theorem bool_into_Bool (v : RVal) : (G env (k + 8)).convert (outside env) (simpleCTy "bool") boolCTy v =
    (match v with | .bool b => some (boolToBool b) | _ => none) := by
  cases v with
  | bool b => cases b <;> kernel_rfl
  | _ => kernel_rfl

theorem Bool_into_bool (v : RVal) : (G env (k + 8)).convert (outside env) boolCTy (simpleCTy "bool") v =
    (boolOfBool v).map .bool := by
  cases v with
  | newtype w =>
    cases w with
    | scalar s b =>
      cases s with
      | u32 =>
        have h : (G env (k + 8)).convert (outside env) boolCTy (simpleCTy "bool") (.newtype (.scalar .u32 b)) =
            some (.bool (b.toNat != 0)) := by kernel_rfl
        rw [h]
        have : (b.toNat != 0) = (b != 0) := by
          rw [Bool.eq_iff_iff]
          simp [BitVec.toNat_eq]
        rw [this]
        rfl
      | _ => kernel_rfl
    | _ => kernel_rfl
  | _ => kernel_rfl

/-! ### Rows of `easy_impl!` -/

theorem easy_as :
    easyRows.map (fun r => (G env (k + 3)).candidates [mod l, asTrait l] [] (mathCTy r.ty)) =
      easyRows.map fun r => some [easyFound l (mathCTy r.ty) r.stdName r.fields] := by
  cases l <;> kernel_rfl

theorem easy_fields :
    easyRows.map (fun r => fieldsOf jx (outside env) (G env k) (mathCTy r.ty)) =
      easyRows.map fun r => some (r.fields.map fun f => (f, compCTy r.ty)) := by
  kernel_rfl

theorem easy_outFields :
    easyRows.map (fun r => r.fields.map fun f => (primFields l r.stdName).lookup f) =
      easyRows.map fun r => r.fields.map fun _ => outComp l r.ty := by
  cases l <;> kernel_rfl

theorem easy_norm :
    easyRows.map (fun r => (G env (k + 2)).norm topScope (mathRustTy r.ty)) =
      easyRows.map fun r => some (mathCTy r.ty) := by
  kernel_rfl

end

end Crevice.Tables
