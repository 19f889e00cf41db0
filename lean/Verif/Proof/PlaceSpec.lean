import Verif.Spec.Place
import Verif.Proof.Place
/-
The model's offsets satisfy the specification of placement.
-/
namespace Crevice

theorem isNext_nextOffset (off a : Nat) : IsNext a off (nextOffset off a) := by
  refine ⟨le_nextOffset _ _, fun h => by simp [nextOffset, h], fun ha => ?_⟩
  have : a ≠ 0 := by omega
  simp only [nextOffset, this, if_false]
  exact ⟨(roundUp_isLeast off a ha).1, (roundUp_isLeast off a ha).2.2⟩

theorem isNext_alignOffset (off a : Nat) : IsNext a off (off + alignOffset off a) := by
  rw [← nextOffset_eq]; exact isNext_nextOffset off a

theorem isNext_iff (off a o : Nat) : IsNext a off o ↔ o = nextOffset off a :=
  ⟨fun h => h.unique (isNext_nextOffset off a), fun h => h ▸ isNext_nextOffset off a⟩

theorem placed_places (off : Nat) (xs : List StdVal) :
    Placed off (xs.map fun x => (x.alignment, x.bytes.length)) (places off xs) (endOf off xs) := by
  induction xs generalizing off with
  | nil => exact .nil
  | cons x r ih => exact .cons (isNext_nextOffset _ _) (ih _)

theorem placed_impl (cur : Nat) (is : List (String × Impl)) :
    Placed cur (is.map fun f => (f.2.alignment, f.2.out.natSize)) ((implOffs cur is).map Prod.snd)
      (implEnd cur is) := by
  induction is generalizing cur with
  | nil => exact .nil
  | cons f r ih => exact .cons (isNext_nextOffset _ _) (ih _)

theorem implOffs_names (cur : Nat) (is : List (String × Impl)) :
    (implOffs cur is).map Prod.fst = is.map Prod.fst := by
  induction is generalizing cur with
  | nil => rfl
  | cons f r ih => obtain ⟨n, j⟩ := f; simp [implOffs, ih]

theorem implOffs_length (cur : Nat) (is : List (String × Impl)) :
    (implOffs cur is).length = is.length := by
  simpa using congrArg List.length (implOffs_names cur is)

theorem implOffs_fst (cur : Nat) (is : List (String × Impl)) (k : Nat) (h : k < (implOffs cur is).length)
    (h' : k < is.length) : (implOffs cur is)[k].1 = is[k].1 := by
  have h1 : ((implOffs cur is).map Prod.fst)[k]? = (is.map Prod.fst)[k]? := by rw [implOffs_names]
  simpa [h, h'] using h1

end Crevice
