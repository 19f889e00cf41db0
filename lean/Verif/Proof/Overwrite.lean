import Verif.Spec.Overwrite
import Verif.Proof.Item
/-
Lemmas about overwriting parts of buffers.
-/
namespace Crevice

theorem overwrite_mid {pre old post bs : List Byte} (h : bs.length = old.length) :
    overwrite (pre ++ old ++ post) pre.length bs = pre ++ bs ++ post := by
  unfold overwrite
  rw [List.append_assoc pre old post, List.take_left, h]
  congr 1
  rw [← List.append_assoc, ← List.length_append, List.drop_left]

theorem overwrite_length {buf bs : List Byte} {off : Nat} (h : off + bs.length ≤ buf.length) :
    (overwrite buf off bs).length = buf.length := by
  simp [overwrite]; omega

theorem overwrite_append {a b bs : List Byte} {off : Nat} (h : off + bs.length ≤ a.length) :
    overwrite (a ++ b) off bs = overwrite a off bs ++ b := by
  unfold overwrite
  rw [List.take_append_of_le_length (by omega), List.drop_append_of_le_length h]
  simp

/-- Overwriting inside a part of the buffer. -/
theorem overwrite_nested {buf part bs : List Byte} {off k : Nat} (hs : SliceAt buf off part)
    (hb : off + part.length ≤ buf.length) (hk : k + bs.length ≤ part.length) :
    overwrite buf off (overwrite part k bs) = overwrite buf (off + k) bs := by
  have hsplit : buf = buf.take off ++ part ++ buf.drop (off + part.length) := by
    conv => lhs; rw [← List.take_append_drop off buf]
    rw [List.append_assoc]
    congr 1
    conv => lhs; rw [← List.take_append_drop part.length (buf.drop off)]
    rw [hs, List.drop_drop]
  have hpart : part = part.take k ++ (part.drop k).take bs.length ++ part.drop (k + bs.length) := by
    conv => lhs; rw [← List.take_append_drop k part]
    rw [List.append_assoc]
    congr 1
    conv => lhs; rw [← List.take_append_drop bs.length (part.drop k)]
    rw [List.drop_drop]
  have hl : (buf.take off).length = off := by rw [List.length_take]; omega
  have hl2 : (part.take k).length = k := by rw [List.length_take]; omega
  generalize hA : buf.take off = A at *
  generalize hC : buf.drop (off + part.length) = C at *
  generalize hP : part.take k = P at *
  generalize hQ : (part.drop k).take bs.length = Q at *
  generalize hR : part.drop (k + bs.length) = R at *
  have hQl : bs.length = Q.length := by rw [← hQ, List.length_take, List.length_drop]; omega
  have h1 : overwrite part k bs = P ++ bs ++ R := by
    rw [hpart, ← hl2]; exact overwrite_mid hQl
  have h2 : overwrite buf off (overwrite part k bs) = A ++ (overwrite part k bs) ++ C := by
    rw [← hl, hsplit]
    exact overwrite_mid (overwrite_length (by omega))
  rw [h2, h1]
  have h3 : overwrite buf (off + k) bs = (A ++ P) ++ bs ++ (R ++ C) := by
    have e1 : buf = (A ++ P) ++ Q ++ (R ++ C) := by
      rw [hsplit, hpart]; simp
    have e2 : off + k = (A ++ P).length := by rw [List.length_append, hl, hl2]
    rw [e1, e2]
    exact overwrite_mid hQl
  rw [h3]; simp

/-- Replacing a value in a sequence by one of the same alignment and size. -/
theorem image_set (off : Nat) (xs : List StdVal) (m : Nat) (hm : m < xs.length) (y : StdVal)
    (ha : y.alignment = xs[m].alignment) (hs : y.bytes.length = xs[m].bytes.length) :
    places off (xs.set m y) = places off xs ∧ endOf off (xs.set m y) = endOf off xs ∧
    image off (xs.set m y) = overwrite (image off xs)
      ((places off xs)[m]'(by rw [places_length]; exact hm) - off) y.bytes := by
  have hpe : places off (xs.set m y) = places off xs ∧ endOf off (xs.set m y) = endOf off xs := by
    induction xs generalizing off m with
    | nil => simp at hm
    | cons x r ih =>
      cases m with
      | zero =>
        simp only [List.getElem_cons_zero] at ha hs
        simp [places, endOf, ha, hs]
      | succ m =>
        simp only [List.getElem_cons_succ] at ha hs
        obtain ⟨h1, h2⟩ := ih (nextOffset off x.alignment + x.bytes.length) m (by simpa using hm) ha hs
        simp [places, endOf, h1, h2]
  refine ⟨hpe.1, hpe.2, ?_⟩
  obtain ⟨h1, h2⟩ := place_split off xs m hm
  obtain ⟨-, h4⟩ := place_split off (xs.set m y) m (by simpa using hm)
  have hl := image_length off (xs.take m)
  have hle := le_nextOffset (endOf off (xs.take m)) xs[m].alignment
  have ht : (xs.set m y).take m = xs.take m := by rw [List.take_set_of_le (Nat.le_refl _)]
  have hd : (xs.set m y).drop (m + 1) = xs.drop (m + 1) := by
    rw [List.drop_set_of_lt (by omega)]
  simp only [ht, hd, List.getElem_set_self, ha, hs] at h4
  rw [h4, h1, h2, ← List.append_assoc, ← List.append_assoc, ← List.append_assoc, ← List.append_assoc]
  have e : nextOffset (endOf off (xs.take m)) xs[m].alignment - off =
      (image off (xs.take m) ++ List.replicate (nextOffset (endOf off (xs.take m)) xs[m].alignment -
        endOf off (xs.take m)) 0).length := by
    simp; omega
  rw [e, overwrite_mid hs]

end Crevice
