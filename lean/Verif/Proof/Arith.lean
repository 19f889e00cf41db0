import Verif.Model.Internal
import Verif.Model.Rust
import Verif.Spec.Glsl
/-
Arithmetic lemmas: rounding, padding, powers of two.
-/
namespace Crevice

theorem alignOffset_zero_right (o : Nat) : alignOffset o 0 = 0 := by simp [alignOffset]

theorem alignOffset_of_dvd {o a : Nat} (h : a ∣ o) : alignOffset o a = 0 := by
  have := Nat.mod_eq_zero_of_dvd h
  simp [alignOffset, this]

theorem dvd_add_alignOffset (o a : Nat) (ha : 0 < a) : a ∣ o + alignOffset o a := by
  unfold alignOffset
  split
  · rename_i h
    rcases h with h | h
    · omega
    · simpa using Nat.dvd_of_mod_eq_zero h
  · rename_i h
    have hlt := Nat.mod_lt o ha
    have hdm := Nat.div_add_mod o a
    have : o + (a - o % a) = a * (o / a + 1) := by
      rw [Nat.mul_add]; omega
    rw [this]; exact ⟨_, rfl⟩

theorem alignOffset_lt (o a : Nat) (ha : 0 < a) : alignOffset o a < a := by
  unfold alignOffset
  split
  · exact ha
  · rename_i h
    have := Nat.mod_lt o ha
    omega

theorem le_of_dvd_ge {o a m : Nat} (ha : 0 < a) (hm : a ∣ m) (hom : o ≤ m) :
    o + alignOffset o a ≤ m := by
  obtain ⟨k, rfl⟩ := hm
  obtain ⟨j, hj⟩ := dvd_add_alignOffset o a ha
  have hlt := alignOffset_lt o a ha
  rw [hj]
  apply Nat.mul_le_mul_left
  have h1 : a * j < a * (k + 1) := by rw [← hj, Nat.mul_add]; omega
  have := Nat.lt_of_mul_lt_mul_left h1
  omega

theorem alignOffset_eq_zero_iff {o a : Nat} (ha : 0 < a) : alignOffset o a = 0 ↔ a ∣ o := by
  constructor
  · intro h
    have := dvd_add_alignOffset o a ha
    simpa [h] using this
  · exact alignOffset_of_dvd

theorem paddingFor_of_dvd {o a : Nat} (h : a ∣ o) : paddingFor o a = 0 := by
  have := Nat.mod_eq_zero_of_dvd h
  simp [paddingFor, this]

/-- `roundUp` is the model's offset plus padding. -/
theorem roundUp_eq (n a : Nat) (ha : 0 < a) : Glsl.roundUp n a = n + alignOffset n a := by
  have h1 : a ∣ Glsl.roundUp n a := ⟨(n + a - 1) / a, by simp [Glsl.roundUp, Nat.mul_comm]⟩
  have hd := Nat.div_add_mod (n + a - 1) a
  have hm := Nat.mod_lt (n + a - 1) ha
  have h2 : n ≤ Glsl.roundUp n a := by
    simp only [Glsl.roundUp]; rw [Nat.mul_comm]; omega
  have h3 : Glsl.roundUp n a < n + a := by
    simp only [Glsl.roundUp]; rw [Nat.mul_comm]; omega
  have h4 := le_of_dvd_ge ha h1 h2
  obtain ⟨j, hj⟩ := dvd_add_alignOffset n a ha
  obtain ⟨k, hk⟩ := h1
  have h5 : a * j ≤ a * k := by omega
  rw [hj, hk]
  congr 1
  have : a * k < a * (j + 1) := by rw [Nat.mul_add]; omega
  have := Nat.lt_of_mul_lt_mul_left this
  have := Nat.le_of_mul_le_mul_left h5 ha
  omega

theorem le_roundUp (n a : Nat) (ha : 0 < a) : n ≤ Glsl.roundUp n a := by
  rw [roundUp_eq n a ha]; omega

theorem dvd_roundUp (n a : Nat) : a ∣ Glsl.roundUp n a :=
  ⟨(n + a - 1) / a, by simp [Glsl.roundUp, Nat.mul_comm]⟩

theorem roundUp_of_dvd {n a : Nat} (ha : 0 < a) (h : a ∣ n) : Glsl.roundUp n a = n := by
  rw [roundUp_eq n a ha, alignOffset_of_dvd h]; rfl

theorem roundUp_zero (a : Nat) (ha : 0 < a) : Glsl.roundUp 0 a = 0 :=
  roundUp_of_dvd ha (Nat.dvd_zero a)

/-- The specification's `roundUp` is what its name says: the least multiple that is at least `n`. -/
theorem roundUp_isLeast (n a : Nat) (ha : 0 < a) :
    a ∣ Glsl.roundUp n a ∧ n ≤ Glsl.roundUp n a ∧ ∀ m, a ∣ m → n ≤ m → Glsl.roundUp n a ≤ m :=
  ⟨dvd_roundUp n a, le_roundUp n a ha, fun m hm hn => by
    rw [roundUp_eq n a ha]; exact le_of_dvd_ge ha hm hn⟩

/-- Power of two. -/
def IsPow2 (n : Nat) : Prop := ∃ k, n = 2 ^ k

theorem IsPow2.pos {n : Nat} (h : IsPow2 n) : 0 < n := by
  obtain ⟨k, rfl⟩ := h; exact Nat.two_pow_pos k

theorem IsPow2.dvd_of_le {a b : Nat} (ha : IsPow2 a) (hb : IsPow2 b) (h : a ≤ b) : a ∣ b := by
  obtain ⟨j, rfl⟩ := ha
  obtain ⟨k, rfl⟩ := hb
  exact Nat.pow_dvd_pow 2 ((Nat.pow_le_pow_iff_right (by decide)).1 h)

theorem IsPow2.max {a b : Nat} (ha : IsPow2 a) (hb : IsPow2 b) : IsPow2 (max a b) := by
  rcases Nat.le_total a b with h | h
  · rwa [Nat.max_eq_right h]
  · rwa [Nat.max_eq_left h]

theorem IsPow2.dvd_max_left {a b : Nat} (ha : IsPow2 a) (hb : IsPow2 b) : a ∣ Max.max a b :=
  ha.dvd_of_le (ha.max hb) (Nat.le_max_left _ _)

theorem IsPow2.dvd_max_right {a b : Nat} (ha : IsPow2 a) (hb : IsPow2 b) : b ∣ Max.max a b :=
  hb.dvd_of_le (ha.max hb) (Nat.le_max_right _ _)

theorem isPow2_one : IsPow2 1 := ⟨0, rfl⟩
theorem isPow2_4 : IsPow2 4 := ⟨2, rfl⟩
theorem isPow2_8 : IsPow2 8 := ⟨3, rfl⟩
theorem isPow2_16 : IsPow2 16 := ⟨4, rfl⟩
theorem isPow2_32 : IsPow2 32 := ⟨5, rfl⟩
theorem isPow2_256 : IsPow2 256 := ⟨8, rfl⟩

/-- A divisor of a power of two is a power of two. -/
theorem IsPow2.of_dvd_small {a n : Nat} (hn : n = 1 ∨ n = 4 ∨ n = 8) (h : a ∣ n) : IsPow2 a := by
  have hle : a ≤ 8 := by
    have := Nat.le_of_dvd (by omega) h
    omega
  have : a = 1 ∨ a = 2 ∨ a = 4 ∨ a = 8 := by
    have h1 : n % a = 0 := Nat.mod_eq_zero_of_dvd h
    have ha : a = 0 ∨ a = 1 ∨ a = 2 ∨ a = 3 ∨ a = 4 ∨ a = 5 ∨ a = 6 ∨ a = 7 ∨ a = 8 := by omega
    rcases hn with rfl | rfl | rfl <;>
      rcases ha with rfl | rfl | rfl | rfl | rfl | rfl | rfl | rfl | rfl <;> simp_all
  rcases this with rfl | rfl | rfl | rfl
  · exact ⟨0, rfl⟩
  · exact ⟨1, rfl⟩
  · exact ⟨2, rfl⟩
  · exact ⟨3, rfl⟩

theorem isPow2_scalar_align {tg : Target} (h : tg.Valid) (s : Scalar) : IsPow2 (tg.alignOf s) := by
  refine IsPow2.of_dvd_small (n := s.size) ?_ (h s)
  cases s <;> simp [Scalar.size]

/-! ### `max_arr` -/

theorem foldl_max_ge (l : List Nat) (init : Nat) :
    init ≤ l.foldl (fun max x => if x > max then x else max) init := by
  induction l generalizing init with
  | nil => simp
  | cons x xs ih =>
    simp only [List.foldl_cons]
    refine Nat.le_trans ?_ (ih _)
    split <;> omega

theorem foldl_max_mem_le (l : List Nat) (init x : Nat) (h : x ∈ l) :
    x ≤ l.foldl (fun max x => if x > max then x else max) init := by
  induction l generalizing init with
  | nil => simp at h
  | cons y ys ih =>
    simp only [List.foldl_cons]
    rcases List.mem_cons.1 h with rfl | h
    · refine Nat.le_trans ?_ (foldl_max_ge _ _)
      split <;> omega
    · exact ih _ h

theorem foldl_max_eq (l : List Nat) (init : Nat) :
    l.foldl (fun max x => if x > max then x else max) init = init ∨
      l.foldl (fun max x => if x > max then x else max) init ∈ l := by
  induction l generalizing init with
  | nil => simp
  | cons y ys ih =>
    simp only [List.foldl_cons]
    rcases ih (if y > init then y else init) with h | h
    · rw [h]; split <;> simp
    · exact .inr (List.mem_cons_of_mem _ h)

theorem le_maxArr {l : List Nat} {x : Nat} (h : x ∈ l) : x ≤ maxArr l := foldl_max_mem_le l 0 x h

theorem maxArr_mem {l : List Nat} (h : l ≠ []) : maxArr l ∈ l := by
  rcases foldl_max_eq l 0 with h0 | h0
  · cases l with
    | nil => exact absurd rfl h
    | cons x xs =>
      have : x ≤ maxArr (x :: xs) := le_maxArr (by simp)
      have h1 : maxArr (x :: xs) = 0 := h0
      rw [h1] at this ⊢
      have : x = 0 := by omega
      simp [this]
  · exact h0

/-- A left fold of maxima in terms of `max`. -/
theorem maxArr_cons (x : Nat) (l : List Nat) : maxArr (x :: l) = max x (maxArr l) := by
  apply Nat.le_antisymm
  · rcases List.mem_cons.1 (maxArr_mem (l := x :: l) (by simp)) with h | h
    · omega
    · have := le_maxArr h; omega
  · apply Nat.max_le.2
    refine ⟨le_maxArr (by simp), ?_⟩
    cases l with
    | nil => simp [maxArr]
    | cons y ys => exact le_maxArr (List.mem_cons_of_mem _ (maxArr_mem (by simp)))

theorem maxArr_nil : maxArr [] = 0 := rfl

end Crevice
