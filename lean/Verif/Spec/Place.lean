import Verif.Basic
/-
Specification: "the next aligned offset", laying things out one after the other, and "these bytes
are at that offset of a buffer". Independent of the model.
-/
namespace Crevice

/-- `o` is the first offset at or after `off` that alignment `a` allows: the least multiple of `a`
that is at least `off`. Alignment 0 allows every offset. -/
def IsNext (a off o : Nat) : Prop :=
  off ≤ o ∧ (a = 0 → o = off) ∧ (0 < a → a ∣ o ∧ ∀ m, a ∣ m → off ≤ m → o ≤ m)

/-- `Placed cur items offs fin`: laying out items with the given (alignment, size) from `cur` on,
each at the next offset its alignment allows, puts them at the offsets `offs` and ends at `fin`. -/
inductive Placed : Nat → List (Nat × Nat) → List Nat → Nat → Prop
  | nil {cur} : Placed cur [] [] cur
  | cons {cur a s o r os fin} : IsNext a cur o → Placed (o + s) r os fin →
      Placed cur ((a, s) :: r) (o :: os) fin

/-- The bytes `xs` stand at offset `off` of `buf`. -/
def SliceAt (buf : List Byte) (off : Nat) (xs : List Byte) : Prop :=
  (buf.drop off).take xs.length = xs

theorem IsNext.unique {a off o o' : Nat} (h : IsNext a off o) (h' : IsNext a off o') : o = o' := by
  by_cases ha : a = 0
  · rw [h.2.1 ha, h'.2.1 ha]
  · have ha : 0 < a := Nat.pos_of_ne_zero ha
    exact Nat.le_antisymm ((h.2.2 ha).2 _ (h'.2.2 ha).1 h'.1) ((h'.2.2 ha).2 _ (h.2.2 ha).1 h.1)

theorem Placed.unique {cur : Nat} {items : List (Nat × Nat)} {os os' : List Nat} {e e' : Nat}
    (h : Placed cur items os e) (h' : Placed cur items os' e') : os = os' ∧ e = e' := by
  induction h generalizing os' e' with
  | nil => cases h'; exact ⟨rfl, rfl⟩
  | cons hn _ ih =>
    cases h' with
    | cons hn' hp' =>
      obtain rfl := hn.unique hn'
      obtain ⟨rfl, rfl⟩ := ih hp'
      exact ⟨rfl, rfl⟩

theorem Placed.length {cur : Nat} {items : List (Nat × Nat)} {os : List Nat} {e : Nat}
    (h : Placed cur items os e) : os.length = items.length := by
  induction h with
  | nil => rfl
  | cons _ _ ih => simp [ih]

/-- Placed things are at or after the start and end at or before the end. -/
theorem Placed.bounds {cur : Nat} {items : List (Nat × Nat)} {os : List Nat} {e : Nat}
    (h : Placed cur items os e) : cur ≤ e ∧ ∀ k (hk : k < items.length) (hk' : k < os.length),
      cur ≤ os[k] ∧ os[k] + items[k].2 ≤ e := by
  induction h with
  | nil => exact ⟨Nat.le_refl _, by intro k hk; simp at hk⟩
  | cons hn _ ih =>
    have hc := hn.1
    have hb := ih.1
    refine ⟨by omega, ?_⟩
    intro k hk hk'
    cases k with
    | zero => exact ⟨hc, ih.1⟩
    | succ k =>
      have h1 := (ih.2 k (by simpa using hk) (by simpa using hk')).1
      have h2 := (ih.2 k (by simpa using hk) (by simpa using hk')).2
      refine ⟨?_, ?_⟩
      · simp only [List.getElem_cons_succ]; omega
      · simpa only [List.getElem_cons_succ] using h2

/-- Placed things do not overlap and are in order. -/
theorem Placed.disjoint {cur : Nat} {items : List (Nat × Nat)} {os : List Nat} {e : Nat}
    (h : Placed cur items os e) : ∀ j k (_ : j < k) (hk : k < items.length) (hk' : k < os.length),
      os[j] + items[j].2 ≤ os[k] := by
  induction h with
  | nil => intro j k _ hk; simp at hk
  | cons hn hp ih =>
    intro j k hjk hk hk'
    cases k with
    | zero => omega
    | succ k =>
      cases j with
      | zero => exact (hp.bounds.2 k (by simpa using hk) (by simpa using hk')).1
      | succ j =>
        simpa only [List.getElem_cons_succ] using
          ih j k (by omega) (by simpa using hk) (by simpa using hk')

/-- Every placed thing is at a multiple of its alignment. -/
theorem Placed.aligned {cur : Nat} {items : List (Nat × Nat)} {os : List Nat} {e : Nat}
    (h : Placed cur items os e) : ∀ k (hk : k < items.length) (hk' : k < os.length),
      0 < items[k].1 → items[k].1 ∣ os[k] := by
  induction h with
  | nil => intro k hk; simp at hk
  | cons hn hp ih =>
    intro k hk hk' hpos
    cases k with
    | zero => exact (hn.2.2 hpos).1
    | succ k =>
      simpa only [List.getElem_cons_succ] using
        ih k (by simpa using hk) (by simpa using hk') (by simpa using hpos)

theorem IsNext.mono {a off off' o o' : Nat} (h : IsNext a off o) (h' : IsNext a off' o') (hle : off ≤ off') :
    o ≤ o' := by
  by_cases ha : a = 0
  · rw [h.2.1 ha, h'.2.1 ha]; exact hle
  · have ha : 0 < a := Nat.pos_of_ne_zero ha
    exact (h.2.2 ha).2 _ (h'.2.2 ha).1 (Nat.le_trans hle h'.1)

/-- `Admissible cur items offs fin`: some way to put items with the given (alignment, size) in order,
without overlap and each at a multiple of its alignment, not before `cur`, and all of them before
`fin`. -/
inductive Admissible : Nat → List (Nat × Nat) → List Nat → Nat → Prop
  | nil {cur fin} : cur ≤ fin → Admissible cur [] [] fin
  | cons {cur a s o r os fin} : cur ≤ o → (0 < a → a ∣ o) → Admissible (o + s) r os fin →
      Admissible cur ((a, s) :: r) (o :: os) fin

/-- `Placed` is admissible. -/
theorem Placed.admissible {cur : Nat} {items : List (Nat × Nat)} {os : List Nat} {e : Nat}
    (h : Placed cur items os e) : Admissible cur items os e := by
  induction h with
  | nil => exact .nil (Nat.le_refl _)
  | cons hn _ ih => exact .cons hn.1 (fun ha => (hn.2.2 ha).1) ih

/-- `Placed` is the least of all admissible ways. -/
theorem Placed.minimal {cur cur' : Nat} {items : List (Nat × Nat)} {os os' : List Nat} {e e' : Nat}
    (h : Placed cur items os e) (h' : Admissible cur' items os' e') (hle : cur ≤ cur') :
    e ≤ e' ∧ ∀ k (hk : k < os.length) (hk' : k < os'.length), os[k] ≤ os'[k] := by
  induction h generalizing cur' os' e' with
  | nil =>
    cases h' with
    | nil h1 => exact ⟨by omega, fun k hk => by simp at hk⟩
  | @cons c0 a s o r os0 f0 hn _ ih =>
    cases h' with
    | @cons _ _ _ o' _ os1 fin h1 h2 h3 =>
      have ho : o ≤ o' := by
        rcases Nat.eq_zero_or_pos a with h0 | h0
        · rw [hn.2.1 h0]; omega
        · exact (hn.2.2 h0).2 _ (h2 h0) (by omega)
      obtain ⟨i1, i2⟩ := ih h3 (by omega)
      refine ⟨i1, fun k hk hk' => ?_⟩
      cases k with
      | zero => exact ho
      | succ k => exact i2 k (by simpa using hk) (by simpa using hk')

end Crevice
