import Verif.Spec.Item
import Verif.Props.C15_C38
import Verif.Proof.History
/-
Items exist for every value of a convertible type.
-/
namespace Crevice

variable {tg : Target} {env : ForeignEnv} {l : Layout}

/-- What the Writer sees of an item. -/
def Item.std (x : Item tg env l) : StdVal := ⟨x.impl.alignment, x.impl.out.size tg, x.bytes⟩

theorem Item.arg_std (x : Item tg env l) : x.arg = .std x.std := by
  have h1 := x.bytes_eq
  have h2 := x.arg_eq
  simp only [Option.bind_eq_some_iff] at h1
  obtain ⟨o, ho, hb⟩ := h1
  simp only [Impl.wval, ho, Option.bind_some, Impl.stdVal, hb, Option.map_some, Option.some.injEq] at h2
  exact h2.symm

theorem Item.length (htg : tg.Valid) (henv : env.Lawful tg) (x : Item tg env l) :
    x.bytes.length = x.impl.out.size tg := by
  have h1 := x.bytes_eq
  simp only [Option.bind_eq_some_iff] at h1
  obtain ⟨o, ho, hb⟩ := h1
  obtain ⟨o', ho', hty, _⟩ := (conv_resolve henv x.resolves).as_ok x.val x.hasVal
  rw [ho, Option.some.injEq] at ho'
  subst ho'
  exact C08_length htg x.resolves hty hb

theorem Item.wf (htg : tg.Valid) (henv : env.Lawful tg) (x : Item tg env l) : x.arg.Wf := by
  rw [x.arg_std]; exact wf_std (x.length htg henv)

/-- Every value of a convertible type is an item. -/
theorem Item.exists (htg : tg.Valid) (henv : env.Lawful tg) {t : Ty} {i : Impl}
    (h : resolve tg env l t = some i) {v : RVal} (hv : t.HasVal tg env v) :
    ∃ x : Item tg env l, x.ty = t ∧ x.val = v ∧ x.impl = i := by
  obtain ⟨o, sv, ho, _, _, hw, _, _, hb, _⟩ := wval_some htg henv h hv
  exact ⟨⟨t, v, i, sv.bytes, .std sv, h, hv, by simp [ho, hb], hw⟩, rfl, rfl, rfl⟩

theorem items_args (xs : List (Item tg env l)) : xs.map Item.arg = (xs.map Item.std).map .std := by
  rw [List.map_map]
  exact List.map_congr_left fun x _ => x.arg_std

theorem items_wf (htg : tg.Valid) (henv : env.Lawful tg) (xs : List (Item tg env l)) :
    ∀ v ∈ xs.map Item.arg, v.Wf := by
  intro v hv
  obtain ⟨x, _, rfl⟩ := List.mem_map.1 hv
  exact x.wf htg henv

theorem items_leaves (xs : List (Item tg env l)) : leavesList (xs.map Item.arg) = xs.map Item.std := by
  rw [items_args, leavesList_std]

theorem items_returned (off : Nat) (xs : List (Item tg env l)) :
    returned off (xs.map Item.arg) = places off (xs.map Item.std) := by
  rw [items_args, returned_std]

theorem items_slice_leaves (xs : List (Item tg env l)) :
    (WVal.slice (xs.map Item.arg)).leaves = xs.map Item.std := by
  simp only [WVal.leaves, items_leaves]

end Crevice
