import Verif.Props.Examples
import Verif.Proof.Item
import Verif.Proof.History
/-
Concrete objects used in `Verif/Validate/Applications*.lean`, where every theorem of the manifest is
applied to them. Nothing here is part of the model or of a specification.
-/
namespace Crevice.Apply
open Ex

abbrev V := x86_64_valid
abbrev E := env_lawful

/-- The implementation of a type that is accepted. -/
noncomputable def impl (l : Layout) (t : Ty) (h : t.accepted l = true) : Impl :=
  ((resolve_isSome_iff x86_64 env l t).2 h).choose

theorem impl_ok (l : Layout) (t : Ty) (h : t.accepted l = true) :
    resolve x86_64 env l t = some (impl l t h) :=
  ((resolve_isSome_iff x86_64 env l t).2 h).choose_spec

/-- The value `v` of type `t` as an argument of `write`. -/
noncomputable def item {l : Layout} {t : Ty} (h : t.accepted l = true) {v : RVal}
    (hv : t.HasVal x86_64 env v) : Item x86_64 env l :=
  (Item.exists V E (impl_ok l t h) hv).choose

theorem item_ty {l : Layout} {t : Ty} (h : t.accepted l = true) {v : RVal}
    (hv : t.HasVal x86_64 env v) : (item h hv).ty = t :=
  (Item.exists V E (impl_ok l t h) hv).choose_spec.1

theorem item_val {l : Layout} {t : Ty} (h : t.accepted l = true) {v : RVal}
    (hv : t.HasVal x86_64 env v) : (item h hv).val = v :=
  (Item.exists V E (impl_ok l t h) hv).choose_spec.2.1

theorem item_impl {l : Layout} {t : Ty} (h : t.accepted l = true) {v : RVal}
    (hv : t.HasVal x86_64 env v) : (item h hv).impl = impl l t h :=
  (Item.exists V E (impl_ok l t h) hv).choose_spec.2.2

theorem light_accepted (l : Layout) : light.accepted l = true := by cases l <;> decide
theorem f32_accepted (l : Layout) : f32.accepted l = true := by cases l <;> decide
theorem vec3_accepted (l : Layout) : vec3.accepted l = true := by cases l <;> decide
theorem bool_accepted (l : Layout) : Ty.bool.accepted l = true := by cases l <;> decide

/-- `Light`'s implementation. -/
noncomputable abbrev lightImpl (l : Layout) : Impl := impl l light (light_accepted l)
theorem lightImpl_ok (l : Layout) : resolve x86_64 env l light = some (lightImpl l) :=
  impl_ok l light (light_accepted l)

theorem vec3_hasVal (a b c : BitVec 32) : vec3.HasVal x86_64 env (v3 (flt a) (flt b) (flt c)) :=
  uniform3 (flt_hasVal _) (flt_hasVal _) (flt_hasVal _)

/-- A light, a float and a vector as arguments of `write`. -/
noncomputable def L (l : Layout) : Item x86_64 env l := item (light_accepted l) (light_hasVal _)
noncomputable def F (l : Layout) (b : BitVec 32) : Item x86_64 env l :=
  item (f32_accepted l) (v := flt b) ⟨b, rfl⟩
noncomputable def W (l : Layout) (a b c : BitVec 32) : Item x86_64 env l :=
  item (vec3_accepted l) (vec3_hasVal a b c)

theorem L_ty (l : Layout) : (L l).ty = light := item_ty _ _
theorem L_val (l : Layout) : (L l).val = lightVal := item_val _ _
theorem L_impl (l : Layout) : (L l).impl = lightImpl l := item_impl _ _
theorem F_ty (l : Layout) (b : BitVec 32) : (F l b).ty = f32 := item_ty _ _
theorem F_val (l : Layout) (b : BitVec 32) : (F l b).val = flt b := item_val _ _
theorem F_impl (l : Layout) (b : BitVec 32) : (F l b).impl = impl l f32 (f32_accepted l) := item_impl _ _
theorem W_ty (l : Layout) (a b c : BitVec 32) : (W l a b c).ty = vec3 := item_ty _ _
theorem W_val (l : Layout) (a b c : BitVec 32) : (W l a b c).val = v3 (flt a) (flt b) (flt c) :=
  item_val _ _

/-- What is written: a float, a light, a vector, a float. -/
noncomputable def xs (l : Layout) : List (Item x86_64 env l) := [F l 1, L l, W l 2 3 4, F l 5]

/-- Writing items to a sink that never fails succeeds. -/
theorem hist {l : Layout} {σ ε : Type} {k : Sink σ ε} (hk : k.Infallible) (s : σ)
    (ys : List (Item x86_64 env l)) :
    ∃ (os : List Nat) (w' : Writer σ),
      (Writer.new s).history k (ys.map Item.arg) = (os.map .ok, w') := by
  obtain ⟨w', h, -⟩ := history_infallible hk (Writer.new s) (items_wf V E ys)
  exact ⟨_, w', h⟩

/-- Writing well-formed values to a sink that never fails succeeds. -/
theorem wrt {σ ε : Type} {k : Sink σ ε} (hk : k.Infallible) (w : Writer σ) {v : WVal} (hv : v.Wf) :
    ∃ (o : Nat) (w' : Writer σ), w.write k v = (.ok o, w') := by
  obtain ⟨w', h, -⟩ := write_infallible hk w hv
  exact ⟨_, w', h⟩

end Crevice.Apply
