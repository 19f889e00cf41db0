import Verif.Model.Types
/-
crevice's tables of glam and nalgebra types agree with the naming schemes of those crates.
-/
namespace Crevice

theorem mintyRow_mem {n : String} {r : MintyRow} (h : mintyRow n = some r) :
    r ∈ mintyRows ∧ r.foreign = n := by
  refine ⟨List.mem_of_find?_eq_some h, ?_⟩
  have := List.find?_some h
  simpa using this

theorem rows_foreign : ∀ r ∈ mintyRows, foreignMath r.foreign = some r.mint := by decide +kernel

theorem foreign_rows : ∀ x ∈ glamTypes ++ nalgebraTypes,
    (mintyRow x.1).map MintyRow.mint = some x.2 := by decide +kernel

theorem foreignMath_row {n : String} {row : MintyRow} (h : mintyRow n = some row) :
    foreignMath n = some row.mint := by
  obtain ⟨h1, rfl⟩ := mintyRow_mem h
  exact rows_foreign row h1

theorem mem_of_lookup {β} {l : List (String × β)} {n : String} {b : β} (h : l.lookup n = some b) :
    (n, b) ∈ l := by
  induction l with
  | nil => simp at h
  | cons a r ih =>
    obtain ⟨m, c⟩ := a
    rw [List.lookup_cons] at h
    split at h
    · rename_i he
      obtain rfl : n = m := by simpa using he
      cases h; simp
    · exact List.mem_cons_of_mem _ (ih h)

theorem row_foreignMath {n : String} {m : MathTy} (h : foreignMath n = some m) :
    ∃ row, mintyRow n = some row ∧ row.mint = m := by
  have := foreign_rows _ (mem_of_lookup h)
  simpa only [Option.map_eq_some_iff] using this

end Crevice
