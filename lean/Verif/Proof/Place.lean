import Verif.Proof.Congr
import Verif.Proof.Writer
/-
Placement of the fields of a derived struct, and image facts of the Writer.
-/
namespace Crevice

theorem nextOffset_zero (a : Nat) : nextOffset 0 a = 0 := by
  unfold nextOffset
  split
  · rfl
  · exact roundUp_zero _ (by omega)

/-- Offsets of the fields, placed from `cur` on. -/
def implOffs (cur : Nat) : List (String × Impl) → List (String × Nat)
  | [] => []
  | (n, j) :: r =>
    (n, nextOffset cur j.alignment) :: implOffs (nextOffset cur j.alignment + j.out.natSize) r

/-- End of the last field. -/
def implEnd (cur : Nat) : List (String × Impl) → Nat
  | [] => cur
  | (_, j) :: r => implEnd (nextOffset cur j.alignment + j.out.natSize) r

theorem gen_implOffs {tg : Target} (htg : tg.Valid) {is : List (String × Impl)}
    (hg : ∀ f ∈ is, Good f.2) (sal i cur : Nat) :
    ∀ x ∈ implOffs cur is,
      x ∈ natOffsets (nextOffset cur (nextAl sal is))
        (genFields tg sal i (nextOffset cur (nextAl sal is)) is) := by
  induction is generalizing i cur with
  | nil => simp [implOffs]
  | cons f r ih =>
    obtain ⟨n, f⟩ := f
    have hsz := size_eq_natSize htg (hg (n, f) (by simp)).packed
    intro x hx
    simp only [implOffs] at hx
    simp only [genFields, natOffsets, nextAl_cons, RTy.natSize, Scalar.size, Nat.one_mul, hsz]
    rcases List.mem_cons.1 hx with rfl | hx
    · exact List.mem_cons_self
    · refine List.mem_cons_of_mem _ (List.mem_cons_of_mem _ ?_)
      have ih' := ih (fun g hg' => hg g (List.mem_cons_of_mem _ hg')) (i + 1)
        (nextOffset cur f.alignment + f.out.natSize) x hx
      rwa [nextOffset_eq _ (nextAl sal r)] at ih'

theorem gen_implEnd {tg : Target} (htg : tg.Valid) {is : List (String × Impl)}
    (hg : ∀ f ∈ is, Good f.2) (sal i cur : Nat) :
    nextOffset cur (nextAl sal is) +
      natSizeFields (genFields tg sal i (nextOffset cur (nextAl sal is)) is) =
    nextOffset (implEnd cur is) sal := by
  induction is generalizing i cur with
  | nil => simp [genFields, natSizeFields, implEnd, nextAl]
  | cons f r ih =>
    obtain ⟨n, f⟩ := f
    have hsz := size_eq_natSize htg (hg (n, f) (by simp)).packed
    have ih' := ih (fun g hg' => hg g (List.mem_cons_of_mem _ hg')) (i + 1)
      (nextOffset cur f.alignment + f.out.natSize)
    rw [nextOffset_eq _ (nextAl sal r)] at ih'
    simp only [genFields, natSizeFields, nextAl_cons, RTy.natSize, Scalar.size, Nat.one_mul, hsz,
      implEnd]
    rw [← ih']
    omega

theorem implOffs_append (cur : Nat) (xs ys : List (String × Impl)) :
    implOffs cur (xs ++ ys) = implOffs cur xs ++ implOffs (implEnd cur xs) ys := by
  induction xs generalizing cur with
  | nil => rfl
  | cons x r ih => obtain ⟨n, j⟩ := x; simp only [List.cons_append, implOffs, implEnd, ih]

theorem implEnd_append (cur : Nat) (xs ys : List (String × Impl)) :
    implEnd cur (xs ++ ys) = implEnd (implEnd cur xs) ys := by
  induction xs generalizing cur with
  | nil => rfl
  | cons x r ih => obtain ⟨n, j⟩ := x; simp only [List.cons_append, implEnd, ih]

/-- Offset of a field of a derived struct. -/
theorem derive_offset {tg : Target} (htg : tg.Valid) {is : List (String × Impl)}
    (hg : ∀ f ∈ is, Good f.2) {sal : Nat} (hok : RecordOk (genFields tg sal 0 0 is) is)
    {n : String} {j : Impl} (hm : (n, j) ∈ is) {k : Nat} (hk : (n, k) ∈ implOffs 0 is) :
    Child (genFields tg sal 0 0 is) n k j.out := by
  refine ⟨hok.sub n j hm, ?_⟩
  have := gen_implOffs htg hg sal 0 0 _ hk
  rw [nextOffset_zero] at this
  exact lookup_eq_some_of_mem (by rw [natOffsets_names]; exact hok.gnodup) this

theorem derive_size {tg : Target} (htg : tg.Valid) {is : List (String × Impl)}
    (hg : ∀ f ∈ is, Good f.2) (sal : Nat) :
    natSizeFields (genFields tg sal 0 0 is) = nextOffset (implEnd 0 is) sal := by
  have := gen_implEnd htg hg sal 0 0
  rwa [nextOffset_zero, Nat.zero_add] at this

theorem implOffs_mem {is : List (String × Impl)} (cur : Nat) {n : String} {j : Impl} (h : (n, j) ∈ is) :
    ∃ k, (n, k) ∈ implOffs cur is := by
  induction is generalizing cur with
  | nil => simp at h
  | cons x r ih =>
    obtain ⟨m, j'⟩ := x
    simp only [implOffs]
    rcases List.mem_cons.1 h with h | h
    · cases h; exact ⟨_, List.mem_cons_self ..⟩
    · obtain ⟨k, hk⟩ := ih (nextOffset cur j'.alignment + j'.out.natSize) h
      exact ⟨k, List.mem_cons_of_mem _ hk⟩

/-! ### Images -/

theorem places_length (off : Nat) (xs : List StdVal) : (places off xs).length = xs.length := by
  induction xs generalizing off with
  | nil => rfl
  | cons x r ih => simp [places, ih]

/-- Value `m` of a sequence: its place, the bytes before and after. -/
theorem place_split (off : Nat) (xs : List StdVal) (m : Nat) (hm : m < xs.length) :
    (places off xs)[m]'(by rw [places_length]; exact hm) =
      nextOffset (endOf off (xs.take m)) (xs[m].alignment) ∧
    image off xs = image off (xs.take m) ++
      (List.replicate (nextOffset (endOf off (xs.take m)) (xs[m].alignment) - endOf off (xs.take m)) 0 ++
        xs[m].bytes ++ image (nextOffset (endOf off (xs.take m)) (xs[m].alignment) + xs[m].bytes.length)
          (xs.drop (m + 1))) := by
  induction xs generalizing off m with
  | nil => simp at hm
  | cons x r ih =>
    cases m with
    | zero => simp [places, image, endOf]
    | succ m =>
      simp only [List.length_cons, Nat.add_lt_add_iff_right] at hm
      obtain ⟨h1, h2⟩ := ih (nextOffset off x.alignment + x.bytes.length) m hm
      simp only [places, List.getElem_cons_succ, List.take_succ_cons, endOf, image, List.drop_succ_cons]
      refine ⟨h1, ?_⟩
      conv => lhs; rw [h2]
      simp [List.append_assoc]

/-- The bytes of value `m` are at its place. -/
theorem image_slice (off : Nat) (xs : List StdVal) (m : Nat) (hm : m < xs.length) :
    off ≤ (places off xs)[m]'(by rw [places_length]; exact hm) ∧
    SliceAt (image off xs) ((places off xs)[m]'(by rw [places_length]; exact hm) - off) xs[m].bytes := by
  obtain ⟨h1, h2⟩ := place_split off xs m hm
  rw [h1, h2]
  have hl := image_length off (xs.take m)
  have hle := le_nextOffset (endOf off (xs.take m)) xs[m].alignment
  refine ⟨by omega, ?_⟩
  unfold SliceAt
  rw [← List.append_assoc, ← List.append_assoc, List.append_assoc]
  rw [List.drop_append_of_le_length (by simp; omega), List.drop_of_length_le (by simp; omega)]
  simp

theorem places_ge (off : Nat) (xs : List StdVal) : ∀ p ∈ places off xs, off ≤ p := by
  induction xs generalizing off with
  | nil => simp [places]
  | cons x r ih =>
    intro p hp
    simp only [places, List.mem_cons] at hp
    have := le_nextOffset off x.alignment
    rcases hp with rfl | hp
    · exact this
    · have := ih _ p hp; omega

/-- A later value starts after an earlier one ends. -/
theorem places_disjoint (off : Nat) (xs : List StdVal) (m n : Nat) (hmn : m < n) (hn : n < xs.length) :
    (places off xs)[m]'(by rw [places_length]; omega) + xs[m].bytes.length ≤
      (places off xs)[n]'(by rw [places_length]; exact hn) := by
  induction xs generalizing off m n with
  | nil => simp at hn
  | cons x r ih =>
    cases n with
    | zero => omega
    | succ n =>
      simp only [places, List.getElem_cons_succ]
      cases m with
      | zero =>
        simp only [List.getElem_cons_zero]
        exact places_ge _ _ _ (List.getElem_mem _)
      | succ m =>
        simp only [List.getElem_cons_succ]
        exact ih _ m n (by omega) (by simpa using hn)

/-- Bytes outside the values are zero. -/
theorem image_zero (off : Nat) (xs : List StdVal) (k : Nat) (hk : k < (image off xs).length)
    (hout : ∀ m (hm : m < xs.length), ¬ ((places off xs)[m]'(by rw [places_length]; exact hm) ≤ off + k ∧
      off + k < (places off xs)[m]'(by rw [places_length]; exact hm) + xs[m].bytes.length)) :
    (image off xs)[k] = 0 := by
  induction xs generalizing off k with
  | nil => simp [image] at hk
  | cons x r ih =>
    have h0 := hout 0 (by simp)
    simp only [places, List.getElem_cons_zero] at h0
    have hle := le_nextOffset off x.alignment
    simp only [image] at hk ⊢
    by_cases h1 : k < nextOffset off x.alignment - off
    · rw [List.getElem_append_left (by simp; omega), List.getElem_append_left (by simpa using h1)]
      simp
    · have h2 : nextOffset off x.alignment + x.bytes.length ≤ off + k := by omega
      rw [List.getElem_append_right (by simp; omega)]
      apply ih
      intro m hm
      have := hout (m + 1) (by simpa using hm)
      simp only [places, List.getElem_cons_succ] at this
      simp only [List.length_append, List.length_replicate]
      have e : nextOffset off x.alignment + x.bytes.length +
          (k - (nextOffset off x.alignment - off + x.bytes.length)) = off + k := by omega
      rw [e]
      exact this

end Crevice
