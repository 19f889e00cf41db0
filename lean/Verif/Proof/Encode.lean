import Verif.Spec.Encode
import Verif.Proof.Congr
import Verif.Proof.GlslWf
import Verif.Proof.Read
/-
The reference encoder writes what a shader reads back, zeros elsewhere, and nothing else reads the
same with zero padding and canonical bools.
-/
namespace Glsl
open Crevice (Byte Endian Layout SliceAt natToLE leToNat)

/-! ### Numbers -/

theorem range_map_natToLE (n w : Nat) :
    ((List.range n).map fun i => BitVec.ofNat 8 (w / 256 ^ i)) = natToLE n w := by
  induction n generalizing w with
  | zero => rfl
  | succ n ih =>
    rw [List.range_succ_eq_map, List.map_cons, List.map_map, natToLE, ← ih (w / 256)]
    simp only [Nat.pow_zero, Nat.div_one, List.cons.injEq, true_and]
    apply List.map_congr_left
    intro i _
    simp only [Function.comp, Nat.succ_eq_add_one, Nat.pow_succ]
    rw [Nat.div_div_eq_div_mul, Nat.mul_comm 256]

theorem numberBytes_length (e : Endian) (n w : Nat) : (numberBytes e n w).length = n := by
  cases e <;> simp [numberBytes]

theorem number_numberBytes (e : Endian) {n w : Nat} (h : w < 256 ^ n) :
    number e (numberBytes e n w) = w := by
  cases e
  · rw [Crevice.number_little, numberBytes, range_map_natToLE, Crevice.leToNat_natToLE _ _ h]
  · rw [Crevice.number_big, numberBytes, range_map_natToLE, List.reverse_reverse,
      Crevice.leToNat_natToLE _ _ h]

theorem number_lt (e : Endian) (bs : List Byte) : number e bs < 256 ^ bs.length := by
  cases e
  · rw [Crevice.number_little]; exact Crevice.leToNat_lt bs
  · rw [Crevice.number_big]; simpa using Crevice.leToNat_lt bs.reverse

theorem number_inj (e : Endian) {as bs : List Byte} (hl : as.length = bs.length)
    (h : number e as = number e bs) : as = bs := by
  cases e
  · rw [Crevice.number_little, Crevice.number_little] at h
    rw [← Crevice.natToLE_leToNat as, ← Crevice.natToLE_leToNat bs, hl, h]
  · rw [Crevice.number_big, Crevice.number_big] at h
    have := Crevice.natToLE_leToNat as.reverse
    rw [h, List.length_reverse, hl, ← List.length_reverse, Crevice.natToLE_leToNat] at this
    exact (List.reverse_inj.1 this).symm

theorem wordAt_numberBytes (e : Endian) {buf : List Byte} {off n w : Nat} (hn : 0 < n)
    (hw : w < 256 ^ n) (h : SliceAt buf off (numberBytes e n w)) : wordAt e buf off n = some w := by
  have hl := h.length_le (by rw [numberBytes_length]; exact hn)
  rw [numberBytes_length] at hl
  unfold SliceAt at h
  rw [numberBytes_length] at h
  rw [wordAt, if_pos hl, h, number_numberBytes e hw]

/-! ### Pieces of equal length -/

theorem flatten_length {ps : List (List Byte)} {s : Nat} (h : ∀ p ∈ ps, p.length = s) :
    ps.flatten.length = ps.length * s := by
  induction ps with
  | nil => simp
  | cons p r ih =>
    rw [List.flatten_cons, List.length_append, ih fun p hp => h p (by simp [hp]), h p (by simp),
      List.length_cons, Nat.succ_mul, Nat.add_comm]

theorem sliceAt_left {pre xs post : List Byte} {off : Nat} (h : pre.length = off) :
    SliceAt (pre ++ (xs ++ post)) off xs := by
  unfold SliceAt
  rw [← h, List.drop_left, List.take_left]

theorem flatten_slice {ps : List (List Byte)} {s : Nat} (h : ∀ p ∈ ps, p.length = s) {i : Nat}
    (hi : i < ps.length) : SliceAt ps.flatten (i * s) ps[i] := by
  have e1 : ps.flatten = (ps.take i).flatten ++ (ps[i] ++ (ps.drop (i + 1)).flatten) := by
    rw [← List.flatten_cons, ← List.flatten_append, ← List.drop_eq_getElem_cons hi,
      List.take_append_drop]
  rw [e1]
  apply sliceAt_left
  rw [flatten_length fun p hp => h p (List.mem_of_mem_take hp), List.length_take,
    Nat.min_eq_left (by omega)]

theorem flatten_get {ps : List (List Byte)} {s : Nat} (h : ∀ p ∈ ps, p.length = s) {k : Nat} {b : Byte}
    (hb : ps.flatten[k]? = some b) :
    ∃ i j, ∃ hi : i < ps.length, k = i * s + j ∧ ps[i][j]? = some b := by
  induction ps generalizing k with
  | nil => simp at hb
  | cons p r ih =>
    rw [List.flatten_cons] at hb
    have hp := h p (by simp)
    by_cases hk : k < p.length
    · rw [List.getElem?_append_left hk] at hb
      exact ⟨0, k, by simp, by simp, hb⟩
    · rw [List.getElem?_append_right (by omega)] at hb
      obtain ⟨i, j, hi, h1, h2⟩ := ih (fun p hp => h p (by simp [hp])) hb
      refine ⟨i + 1, j, by simpa using hi, ?_, h2⟩
      rw [Nat.succ_mul]
      omega

theorem padTo_length {n : Nat} {bs : List Byte} (h : bs.length ≤ n) : (padTo n bs).length = n := by
  simp [padTo]; omega

theorem padTo_slice {n : Nat} {bs : List Byte} : SliceAt (padTo n bs) 0 bs := by
  simp [SliceAt, padTo]

theorem padTo_nonzero {n : Nat} {bs : List Byte} {k : Nat} {b : Byte} (h : (padTo n bs)[k]? = some b)
    (hne : b ≠ 0) : bs[k]? = some b := by
  unfold padTo at h
  by_cases hk : k < bs.length
  · rwa [List.getElem?_append_left hk] at h
  · rw [List.getElem?_append_right (by omega)] at h
    exact absurd (List.eq_of_mem_replicate (List.mem_of_getElem? h)) hne

/-- What the encoder must do on a part: the right length, read back as the value, bools canonical,
and zero outside the cells. -/
structure Stored (e : Endian) (rd : List Byte → Nat → Prop) (bl : Nat → List Nat)
    (cs : Nat → List (Nat × Nat)) (n : Nat) (bs : List Byte) : Prop where
  length : bs.length = n
  read : ∀ buf off, SliceAt buf off bs → rd buf off
  bools : ∀ buf off, SliceAt buf off bs → ∀ k ∈ bl off, ∃ w, wordAt e buf k 4 = some w ∧ (w = 0 ∨ w = 1)
  pad : ∀ off k b, bs[k]? = some b → b ≠ 0 → Crevice.CellsHit (cs off) (off + k)

theorem Stored.padTo {e : Endian} {rd bl cs n m bs} (h : Stored e rd bl cs n bs) (hm : n ≤ m) :
    Stored e rd bl cs m (padTo m bs) where
  length := padTo_length (by rw [h.length]; exact hm)
  read buf off hs := h.read buf off (by simpa using hs.trans padTo_slice)
  bools buf off hs := h.bools buf off (by simpa using hs.trans padTo_slice)
  pad off k b hb hne := h.pad off k b (padTo_nonzero hb hne) hne

/-- Pieces at a constant stride. -/
theorem stored_mapM {α : Type} {e : Endian} {f : α → Option (List Byte)} {rd : List Byte → Nat → Option α}
    {bl : Nat → List Nat} {cs : Nat → List (Nat × Nat)} {s n : Nat} {vs : List α} {bs : List Byte}
    (hn : vs.length = n) (hf : (vs.mapM f).map List.flatten = some bs)
    (H : ∀ v ∈ vs, ∀ ps, f v = some ps → Stored e (fun buf off => rd buf off = some v) bl cs s ps) :
    Stored e (fun buf off => ((List.range n).mapM fun i => rd buf (off + i * s)) = some vs)
      (fun off => (List.range n).flatMap fun i => bl (off + i * s))
      (fun off => (List.range n).flatMap fun i => cs (off + i * s)) (n * s) bs := by
  simp only [Option.map_eq_some_iff] at hf
  obtain ⟨ps, hps, rfl⟩ := hf
  obtain ⟨h1, h2⟩ := (Crevice.mapM_eq_some_iff _ _ _).1 hps
  subst hn
  have hH : ∀ i (hi : i < vs.length) (hi' : i < ps.length),
      Stored e (fun buf off => rd buf off = some vs[i]) bl cs s ps[i] :=
    fun i hi hi' => H _ (List.getElem_mem hi) _ (h2 i hi hi')
  have hlen : ∀ p ∈ ps, p.length = s := by
    intro p hp
    obtain ⟨i, hi, rfl⟩ := List.mem_iff_getElem.1 hp
    exact (hH i (by omega) hi).length
  refine ⟨by rw [flatten_length hlen, h1], ?_, ?_, ?_⟩
  · intro buf off hs
    rw [Crevice.mapM_eq_some_iff]
    refine ⟨by simp, fun i hi hi' => ?_⟩
    simp only [List.getElem_range]
    exact (hH i hi' (by omega)).read _ _ (hs.trans (flatten_slice hlen (by omega)))
  · intro buf off hs k hk
    obtain ⟨i, hi, hk⟩ := List.mem_flatMap.1 hk
    have hi := List.mem_range.1 hi
    exact (hH i hi (by omega)).bools _ _ (hs.trans (flatten_slice hlen (by omega))) k hk
  · intro off k b hb hne
    obtain ⟨i, j, hi, rfl, hj⟩ := flatten_get hlen hb
    obtain ⟨c, hc, h3, h4⟩ := (hH i (by omega) hi).pad (off + i * s) j b hj hne
    exact ⟨c, List.mem_flatMap.2 ⟨i, List.mem_range.2 (by omega), hc⟩, by omega, by omega⟩

theorem scalar_size_pos (s : Scalar) : 0 < s.size := by cases s <;> decide

theorem stored_scalar {e : Endian} {s : Scalar} {v : Val} {bs : List Byte}
    (h : storeScalar e s v = some bs) :
    Stored e (fun buf off => readScalar e s buf off = some v)
      (fun off => if s = .bool then [off] else []) (fun off => [(off, s.size)]) s.size bs := by
  have key : ∀ w, w < 256 ^ s.size → bs = numberBytes e s.size w →
      (∀ buf off, SliceAt buf off bs → wordAt e buf off s.size = some w) ∧
      bs.length = s.size ∧
      (∀ off k b, bs[k]? = some b → b ≠ 0 → Crevice.CellsHit [(off, s.size)] (off + k)) := by
    intro w hw hb
    subst hb
    refine ⟨fun buf off hs => wordAt_numberBytes e (scalar_size_pos s) hw hs,
      numberBytes_length .., ?_⟩
    intro off k b hb _
    have hk : k < s.size := by
      rcases Nat.lt_or_ge k s.size with h | h
      · exact h
      · rw [List.getElem?_eq_none (by rw [numberBytes_length]; exact h)] at hb; cases hb
    exact ⟨(off, s.size), by simp, by simp, by simpa using hk⟩
  cases s <;> cases v <;> simp only [storeScalar, Option.some.injEq, reduceCtorEq] at h
  · rename_i x
    obtain ⟨k1, k2, k3⟩ := key x.toNat (by simpa [Scalar.size] using x.isLt) h.symm
    exact ⟨k2, fun buf off hs => by simp [readScalar, k1 buf off hs], by simp, k3⟩
  · rename_i x
    obtain ⟨k1, k2, k3⟩ := key x.toNat (by simpa [Scalar.size] using x.isLt) h.symm
    exact ⟨k2, fun buf off hs => by simp [readScalar, k1 buf off hs], by simp, k3⟩
  · rename_i x
    obtain ⟨k1, k2, k3⟩ := key x.toNat (by simpa [Scalar.size] using x.isLt) h.symm
    exact ⟨k2, fun buf off hs => by simp [readScalar, k1 buf off hs], by simp, k3⟩
  · rename_i x
    obtain ⟨k1, k2, k3⟩ := key x.toNat (by simpa [Scalar.size] using x.isLt) h.symm
    exact ⟨k2, fun buf off hs => by simp [readScalar, k1 buf off hs], by simp, k3⟩
  · rename_i x
    obtain ⟨k1, k2, k3⟩ := key (if x then 1 else 0) (by cases x <;> decide) h.symm
    refine ⟨k2, fun buf off hs => by simp only [readScalar, k1 buf off hs]; cases x <;> rfl, ?_, k3⟩
    intro buf off hs k hk
    simp only [if_true, List.mem_singleton] at hk
    subst hk
    exact ⟨_, k1 buf k hs, by cases x <;> simp⟩

theorem flatMap_bools (s : Scalar) (n off : Nat) :
    ((List.range n).flatMap fun i => if s = .bool then [off + i * s.size] else []) =
      scalarBools s n off := by
  unfold scalarBools
  by_cases h : s = .bool
  · simp only [if_pos h]; rw [List.map_eq_flatMap]
  · simp only [if_neg h]; simp

theorem stored_scalars {e : Endian} {s : Scalar} {n : Nat} {vs : List Val} {bs : List Byte}
    (h : storeScalars e s n vs = some bs) :
    Stored e (fun buf off => readScalars e s n buf off = some vs) (scalarBools s n) (scalarCells s n)
      (n * s.size) bs := by
  unfold storeScalars at h
  split at h
  · rename_i hn
    have := stored_mapM (rd := fun buf off => readScalar e s buf off) hn h
      fun v _ ps hp => stored_scalar hp
    simp only [flatMap_bools] at this
    refine ⟨this.length, this.read, this.bools, ?_⟩
    have hc : (fun off => (List.range n).flatMap fun i => [(off + i * s.size, s.size)]) =
        scalarCells s n := by
      funext off
      unfold scalarCells
      rw [List.map_eq_flatMap]
    rw [← hc]
    exact this.pad
  · cases h

/-- The reference encoder is right. -/
theorem stored_store {e : Endian} {l : Layout} {t : Ty} (hwf : t.Wf) {v : Val} {bs : List Byte}
    (h : store e l t v = some bs) :
    Stored e (fun buf off => read e l t buf off = some v) (bools l t) (cells l t) (t.size l) bs := by
  induction t using Ty.ind generalizing v bs with
  | hs s =>
    simp only [store] at h
    exact stored_scalar h
  | hv s n =>
    cases v <;> simp only [store, reduceCtorEq] at h
    have := stored_scalars h
    exact ⟨this.length, fun buf off hs => by simp [read, this.read buf off hs], this.bools, this.pad⟩
  | hm s c r =>
    cases v <;> simp only [store, reduceCtorEq] at h
    split at h
    · rename_i cols hc
      have hle : r * s.size ≤ columnStride l s r :=
        Crevice.le_roundUp _ _ (Crevice.isPow2_roundToVec4 (Crevice.isPow2_vecAlign s r)).pos
      have := stored_mapM (rd := fun buf off => readScalars e s r buf off) (bl := scalarBools s r)
        (cs := scalarCells s r) (s := columnStride l s r) (e := e) hc h (by
          intro v _ ps hp
          simp only [Option.map_eq_some_iff] at hp
          obtain ⟨qs, hq, rfl⟩ := hp
          exact (stored_scalars hq).padTo hle)
      exact ⟨by simpa [Ty.size] using this.length,
        fun buf off hs => by simp only [read]; rw [this.read buf off hs]; rfl,
        fun buf off hs => by simp only [bools]; exact this.bools buf off hs,
        fun off => by simp only [cells]; exact this.pad off⟩
    · cases h
  | ha t n ih =>
    simp only [Ty.Wf] at hwf
    cases v <;> simp only [store, reduceCtorEq] at h
    split at h
    · rename_i vs hc
      have hle : t.size l ≤ arrayStride l t :=
        Crevice.le_roundUp _ _ (Crevice.isPow2_roundToVec4 (isPow2_align l t hwf)).pos
      have := stored_mapM (rd := fun buf off => read e l t buf off) (bl := bools l t)
        (cs := cells l t) (s := arrayStride l t) (e := e) hc h (by
          intro v _ ps hp
          simp only [Option.map_eq_some_iff] at hp
          obtain ⟨qs, hq, rfl⟩ := hp
          exact (ih hwf hq).padTo hle)
      exact ⟨by simpa [Ty.size, arrayStride] using this.length,
        fun buf off hs => by simp only [read]; rw [this.read buf off hs]; rfl,
        fun buf off hs => by simp only [bools]; exact this.bools buf off hs,
        fun off => by simp only [cells]; exact this.pad off⟩
    · cases h
  | hst nm ms ih =>
    have hal := (isPow2_align l _ hwf).pos
    simp only [Ty.Wf] at hwf
    cases v <;> simp only [store, reduceCtorEq, Option.map_eq_some_iff] at h
    obtain ⟨qs, hq, rfl⟩ := h
    rename_i vs
    have key : ∀ cur vs qs, storeMembers e l ms vs cur = some qs →
        cur + qs.length = endOfMembers l cur ms ∧
        ∀ base, (∀ buf, SliceAt buf (base + cur) qs → readMembers e l ms buf base cur = some vs) ∧
          (∀ buf, SliceAt buf (base + cur) qs → ∀ k ∈ memberBools l ms base cur,
            ∃ w, wordAt e buf k 4 = some w ∧ (w = 0 ∨ w = 1)) ∧
          (∀ k b, qs[k]? = some b → b ≠ 0 →
            Crevice.CellsHit (memberCells l ms base cur) (base + cur + k)) := by
      clear hq qs vs hal
      replace hwf := hwf.2
      induction ms with
      | nil =>
        intro cur vs qs h
        cases vs <;> simp [storeMembers] at h
        subst h
        simp [endOfMembers, readMembers, memberBools]
      | cons m r ihr =>
        obtain ⟨n, t⟩ := m
        intro cur vs qs h
        cases vs with
        | nil => simp [storeMembers] at h
        | cons p vs =>
          obtain ⟨m, v⟩ := p
          simp only [storeMembers] at h
          split at h
          · rename_i hnm
            subst hnm
            simp only [Option.bind_eq_some_iff, Option.map_eq_some_iff] at h
            obtain ⟨bs, hb, rest, hr, rfl⟩ := h
            have hwt := hwf.1
            have st := ih (n, t) (by simp) hwt hb
            obtain ⟨k1, k2⟩ := ihr (fun m hm => ih m (by simp [hm])) hwf.2 _ _ _ hr
            have hru := Crevice.le_roundUp cur _ (isPow2_align l t hwt).pos
            have hz : (List.replicate (roundUp cur (t.align l) - cur) (0 : Byte)).length =
              roundUp cur (t.align l) - cur := by simp
            have hbl : bs.length = t.size l := st.length
            refine ⟨?_, fun base => ⟨?_, ?_, ?_⟩⟩
            · simp only [endOfMembers, List.length_append, hz, hbl]
              omega
            · intro buf hs
              have h1 : SliceAt buf (base + roundUp cur (t.align l)) bs := by
                have hsl := sliceAt_left (pre := List.replicate (roundUp cur (t.align l) - cur) 0)
                  (xs := bs) (post := rest) hz
                rw [← List.append_assoc] at hsl
                have := hs.trans hsl
                rwa [Nat.add_assoc, Nat.add_sub_cancel' hru] at this
              have h2 : SliceAt buf (base + (roundUp cur (t.align l) + t.size l)) rest := by
                have := hs.trans (by
                  have := sliceAt_left (pre := List.replicate (roundUp cur (t.align l) - cur) 0 ++ bs)
                    (xs := rest) (post := []) rfl
                  rwa [List.append_nil] at this)
                rw [List.length_append, hz, hbl] at this
                have e1 : base + cur + (roundUp cur (t.align l) - cur + t.size l) =
                  base + (roundUp cur (t.align l) + t.size l) := by omega
                rwa [e1] at this
              simp only [readMembers, st.read _ _ h1, (k2 base).1 buf h2, Option.bind_some,
                Option.map_some]
            · intro buf hs k hk
              have h1 : SliceAt buf (base + roundUp cur (t.align l)) bs := by
                have hsl := sliceAt_left (pre := List.replicate (roundUp cur (t.align l) - cur) 0)
                  (xs := bs) (post := rest) hz
                rw [← List.append_assoc] at hsl
                have := hs.trans hsl
                rwa [Nat.add_assoc, Nat.add_sub_cancel' hru] at this
              have h2 : SliceAt buf (base + (roundUp cur (t.align l) + t.size l)) rest := by
                have := hs.trans (by
                  have := sliceAt_left (pre := List.replicate (roundUp cur (t.align l) - cur) 0 ++ bs)
                    (xs := rest) (post := []) rfl
                  rwa [List.append_nil] at this)
                rw [List.length_append, hz, hbl] at this
                have e1 : base + cur + (roundUp cur (t.align l) - cur + t.size l) =
                  base + (roundUp cur (t.align l) + t.size l) := by omega
                rwa [e1] at this
              simp only [memberBools] at hk
              rcases List.mem_append.1 hk with hk | hk
              · exact st.bools _ _ h1 k hk
              · exact (k2 base).2.1 buf h2 k hk
            · intro k b hb hne
              simp only [memberCells]
              rw [List.append_assoc] at hb
              by_cases hk1 : k < roundUp cur (t.align l) - cur
              · rw [List.getElem?_append_left (by rw [hz]; exact hk1)] at hb
                exact absurd (List.eq_of_mem_replicate (List.mem_of_getElem? hb)) hne
              · rw [List.getElem?_append_right (by rw [hz]; omega), hz] at hb
                by_cases hk2 : k - (roundUp cur (t.align l) - cur) < bs.length
                · rw [List.getElem?_append_left hk2] at hb
                  obtain ⟨c, hc, h3, h4⟩ := st.pad (base + roundUp cur (t.align l)) _ b hb hne
                  exact ⟨c, List.mem_append_left _ hc, by omega, by omega⟩
                · rw [List.getElem?_append_right (by omega), hbl] at hb
                  obtain ⟨c, hc, h3, h4⟩ := (k2 base).2.2 _ b hb hne
                  exact ⟨c, List.mem_append_right _ hc, by omega, by omega⟩
          · cases h
    obtain ⟨k1, k2⟩ := key 0 vs qs hq
    have : Stored e (fun buf off => read e l (.struct nm ms) buf off = some (.struct vs))
        (bools l (.struct nm ms)) (cells l (.struct nm ms)) (endOfMembers l 0 ms) qs :=
      ⟨by omega, fun buf off hs => by simp only [read]; rw [(k2 off).1 buf hs]; rfl,
        fun buf off hs => by simp only [bools]; exact (k2 off).2.1 buf hs,
        fun off k b hb hne => by simp only [cells]; exact (k2 off).2.2 k b hb hne⟩
    exact this.padTo (Crevice.le_roundUp _ _ hal)
  | hal a t ih =>
    simp only [Ty.Wf] at hwf
    cases v <;> simp only [store] at h <;> exact ih hwf.2 h

/-! ### Everything a shader can read can be written -/

theorem storeScalar_of_read {e : Endian} {s : Scalar} {buf : List Byte} {off : Nat} {v : Val}
    (h : readScalar e s buf off = some v) : ∃ bs, storeScalar e s v = some bs := by
  simp only [readScalar, Option.map_eq_some_iff] at h
  obtain ⟨w, _, rfl⟩ := h
  cases s <;> exact ⟨_, rfl⟩

theorem store_mapM_of_read {α : Type} {f : α → Option (List Byte)} {g : Nat → Option α} {n : Nat}
    {vs : List α} (h : (List.range n).mapM g = some vs)
    (H : ∀ i v, g i = some v → ∃ bs, f v = some bs) :
    vs.length = n ∧ ∃ bs, (vs.mapM f).map List.flatten = some bs := by
  obtain ⟨h1, h2⟩ := (Crevice.mapM_eq_some_iff _ _ _).1 h
  rw [List.length_range] at h1
  refine ⟨h1, ?_⟩
  obtain ⟨ps, hps⟩ := Crevice.mapM_isSome (f := f) (l := vs) (by
    intro v hv
    obtain ⟨i, hi, rfl⟩ := List.mem_iff_getElem.1 hv
    have := h2 i (by simpa using (by omega : i < n)) hi
    rw [List.getElem_range] at this
    exact H i _ this)
  exact ⟨_, by rw [hps]; rfl⟩

theorem storeScalars_of_read {e : Endian} {s : Scalar} {n : Nat} {buf : List Byte} {off : Nat}
    {vs : List Val} (h : readScalars e s n buf off = some vs) :
    ∃ bs, storeScalars e s n vs = some bs := by
  obtain ⟨h1, h2⟩ := store_mapM_of_read (f := storeScalar e s) h fun _ _ hv => storeScalar_of_read hv
  unfold storeScalars
  rw [if_pos h1]
  exact h2

/-- Every value a shader can read from some buffer has an encoding. -/
theorem store_of_read {e : Endian} {l : Layout} {t : Ty} {buf : List Byte} {off : Nat} {v : Val}
    (h : read e l t buf off = some v) : ∃ bs, store e l t v = some bs := by
  induction t using Ty.ind generalizing v off with
  | hs s => simp only [read] at h; simp only [store]; exact storeScalar_of_read h
  | hv s n =>
    simp only [read, Option.map_eq_some_iff] at h
    obtain ⟨vs, hv, rfl⟩ := h
    simp only [store]
    exact storeScalars_of_read hv
  | hm s c r =>
    simp only [read, Option.map_eq_some_iff] at h
    obtain ⟨vs, hv, rfl⟩ := h
    simp only [store]
    obtain ⟨h1, h2⟩ := store_mapM_of_read
      (f := fun col => (storeScalars e s r col).map (padTo (columnStride l s r))) hv (by
        intro i v hv
        obtain ⟨bs, hb⟩ := storeScalars_of_read hv
        exact ⟨_, by simp only [hb]; rfl⟩)
    rw [if_pos h1]
    exact h2
  | ha t n ih =>
    simp only [read, Option.map_eq_some_iff] at h
    obtain ⟨vs, hv, rfl⟩ := h
    simp only [store]
    obtain ⟨h1, h2⟩ := store_mapM_of_read
      (f := fun v => (store e l t v).map (padTo (arrayStride l t))) hv (by
        intro i v hv
        obtain ⟨bs, hb⟩ := ih hv
        exact ⟨_, by simp only [hb]; rfl⟩)
    rw [if_pos h1]
    exact h2
  | hst nm ms ih =>
    simp only [read, Option.map_eq_some_iff] at h
    obtain ⟨vs, hv, rfl⟩ := h
    simp only [store]
    suffices ∃ bs, storeMembers e l ms vs 0 = some bs by
      obtain ⟨bs, hb⟩ := this
      exact ⟨_, by rw [hb]; rfl⟩
    generalize (0 : Nat) = cur at hv ⊢
    induction ms generalizing cur vs with
    | nil => simp only [readMembers, Option.some.injEq] at hv; subst hv; exact ⟨[], rfl⟩
    | cons m r ihr =>
      obtain ⟨n, t⟩ := m
      simp only [readMembers, Option.bind_eq_some_iff, Option.map_eq_some_iff] at hv
      obtain ⟨v, hv, ws, hw, rfl⟩ := hv
      obtain ⟨bs, hb⟩ := ih (n, t) (by simp) hv
      obtain ⟨rest, hr⟩ := ihr (fun m hm => ih m (by simp [hm])) _ _ hw
      exact ⟨_, by simp only [storeMembers, if_true, hb, hr, Option.bind_some]; rfl⟩
  | hal a t ih =>
    simp only [read] at h
    obtain ⟨bs, hb⟩ := ih h
    exact ⟨bs, by cases v <;> simpa only [store] using hb⟩

/-! ### Uniqueness -/

theorem wordAt_inj {e : Endian} {buf buf' : List Byte} {off n w : Nat}
    (h : wordAt e buf off n = some w) (h' : wordAt e buf' off n = some w) :
    ∀ k, off ≤ k → k < off + n → buf[k]? = buf'[k]? := by
  unfold wordAt at h h'
  split at h
  · rename_i hl
    split at h'
    · rename_i hl'
      simp only [Option.some.injEq] at h h'
      have := number_inj e (by simp; omega) (h.trans h'.symm)
      intro k hk1 hk2
      have e1 := congrArg (fun xs => xs[k - off]?) this
      rw [List.getElem?_take_of_lt (by omega), List.getElem?_take_of_lt (by omega),
        List.getElem?_drop, List.getElem?_drop] at e1
      rwa [Nat.add_sub_cancel' hk1] at e1
    · cases h'
  · cases h

theorem wordAt_lt {e : Endian} {buf : List Byte} {off n w : Nat} (h : wordAt e buf off n = some w) :
    w < 256 ^ n := by
  unfold wordAt at h
  split at h
  · rename_i hl
    simp only [Option.some.injEq] at h
    subst h
    have := number_lt e ((buf.drop off).take n)
    rwa [List.length_take, List.length_drop, Nat.min_eq_left (by omega)] at this
  · cases h

theorem ofNat_inj {n a b : Nat} (ha : a < 2 ^ n) (hb : b < 2 ^ n)
    (h : BitVec.ofNat n a = BitVec.ofNat n b) : a = b := by
  have := congrArg BitVec.toNat h
  simpa [Nat.mod_eq_of_lt ha, Nat.mod_eq_of_lt hb] using this

/-- The bools listed are canonical in the buffer. -/
def CanonicalAt (e : Endian) (buf : List Byte) (ks : List Nat) : Prop :=
  ∀ k ∈ ks, ∃ w, wordAt e buf k 4 = some w ∧ (w = 0 ∨ w = 1)

theorem readScalar_same {e : Endian} {s : Scalar} {buf buf' : List Byte} {off : Nat} {v : Val}
    (h : readScalar e s buf off = some v) (h' : readScalar e s buf' off = some v)
    (hc : CanonicalAt e buf (if s = .bool then [off] else []))
    (hc' : CanonicalAt e buf' (if s = .bool then [off] else [])) :
    SameCells buf buf' [(off, s.size)] := by
  simp only [readScalar, Option.map_eq_some_iff] at h h'
  obtain ⟨w, hw, h⟩ := h
  obtain ⟨w', hw', h'⟩ := h'
  have hlt := wordAt_lt hw
  have hlt' := wordAt_lt hw'
  have : w = w' := by
    rw [← h'] at h
    cases s <;> simp only [Val.float.injEq, Val.double.injEq, Val.int.injEq, Val.uint.injEq,
      Val.bool.injEq] at h
    · exact ofNat_inj (by simpa [Scalar.size] using hlt) (by simpa [Scalar.size] using hlt') h
    · exact ofNat_inj (by simpa [Scalar.size] using hlt) (by simpa [Scalar.size] using hlt') h
    · exact ofNat_inj (by simpa [Scalar.size] using hlt) (by simpa [Scalar.size] using hlt') h
    · exact ofNat_inj (by simpa [Scalar.size] using hlt) (by simpa [Scalar.size] using hlt') h
    · obtain ⟨x, hx, hx1⟩ := hc off (by simp)
      obtain ⟨x', hx', hx1'⟩ := hc' off (by simp)
      simp only [Scalar.size] at hw hw'
      rw [hw] at hx; cases hx
      rw [hw'] at hx'; cases hx'
      rcases hx1 with rfl | rfl <;> rcases hx1' with rfl | rfl <;> simp at h ⊢
  subst this
  intro c hc
  simp only [List.mem_singleton] at hc
  subst hc
  exact wordAt_inj hw hw'

theorem range_mapM_same {α : Type} {g g' : Nat → Option α} {n : Nat} {vs : List α}
    (h : (List.range n).mapM g = some vs) (h' : (List.range n).mapM g' = some vs) {i : Nat}
    (hi : i ∈ List.range n) : ∃ v, g i = some v ∧ g' i = some v := by
  obtain ⟨h1, h2⟩ := (Crevice.mapM_eq_some_iff _ _ _).1 h
  obtain ⟨_, h3⟩ := (Crevice.mapM_eq_some_iff _ _ _).1 h'
  rw [List.length_range] at h1
  have hi := List.mem_range.1 hi
  have a1 := h2 i (by simpa using hi) (by omega)
  have a2 := h3 i (by simpa using hi) (by omega)
  rw [List.getElem_range] at a1 a2
  exact ⟨_, a1, a2⟩

theorem readScalars_same {e : Endian} {s : Scalar} {n : Nat} {buf buf' : List Byte} {off : Nat}
    {vs : List Val} (h : readScalars e s n buf off = some vs) (h' : readScalars e s n buf' off = some vs)
    (hc : CanonicalAt e buf (scalarBools s n off)) (hc' : CanonicalAt e buf' (scalarBools s n off)) :
    SameCells buf buf' (scalarCells s n off) := by
  intro c hcm
  simp only [scalarCells, List.mem_map] at hcm
  obtain ⟨i, hi, rfl⟩ := hcm
  obtain ⟨v, hv, hv'⟩ := range_mapM_same h h' hi
  rw [← flatMap_bools] at hc hc'
  exact readScalar_same hv hv' (fun k hk => hc k (List.mem_flatMap.2 ⟨i, hi, hk⟩))
    (fun k hk => hc' k (List.mem_flatMap.2 ⟨i, hi, hk⟩)) _ (by simp)

/-- Two buffers that read the same and have canonical bools agree on all cells. -/
theorem read_same {e : Endian} {l : Layout} {t : Ty} {buf buf' : List Byte} {off : Nat} {v : Val}
    (h : read e l t buf off = some v) (h' : read e l t buf' off = some v)
    (hc : CanonicalAt e buf (bools l t off)) (hc' : CanonicalAt e buf' (bools l t off)) :
    SameCells buf buf' (cells l t off) := by
  induction t using Ty.ind generalizing v off with
  | hs s => simp only [read] at h h'; exact readScalar_same h h' hc hc'
  | hv s n =>
    simp only [read, Option.map_eq_some_iff] at h h'
    obtain ⟨vs, hv, rfl⟩ := h
    obtain ⟨vs', hv', e1⟩ := h'
    cases e1
    exact readScalars_same hv hv' hc hc'
  | hm s c r =>
    simp only [read, Option.map_eq_some_iff] at h h'
    obtain ⟨vs, hv, rfl⟩ := h
    obtain ⟨vs', hv', e1⟩ := h'
    cases e1
    intro c hcm
    simp only [cells] at hcm
    obtain ⟨i, hi, hcm⟩ := List.mem_flatMap.1 hcm
    obtain ⟨v, hv, hv'⟩ := range_mapM_same hv hv' hi
    simp only [bools] at hc hc'
    exact readScalars_same hv hv' (fun k hk => hc k (List.mem_flatMap.2 ⟨i, hi, hk⟩))
      (fun k hk => hc' k (List.mem_flatMap.2 ⟨i, hi, hk⟩)) c hcm
  | ha t n ih =>
    simp only [read, Option.map_eq_some_iff] at h h'
    obtain ⟨vs, hv, rfl⟩ := h
    obtain ⟨vs', hv', e1⟩ := h'
    cases e1
    intro c hcm
    simp only [cells] at hcm
    obtain ⟨i, hi, hcm⟩ := List.mem_flatMap.1 hcm
    obtain ⟨v, hv, hv'⟩ := range_mapM_same hv hv' hi
    simp only [bools] at hc hc'
    exact ih hv hv' (fun k hk => hc k (List.mem_flatMap.2 ⟨i, hi, hk⟩))
      (fun k hk => hc' k (List.mem_flatMap.2 ⟨i, hi, hk⟩)) c hcm
  | hst nm ms ih =>
    simp only [read, Option.map_eq_some_iff] at h h'
    obtain ⟨vs, hv, rfl⟩ := h
    obtain ⟨vs', hv', e1⟩ := h'
    cases e1
    simp only [cells]
    simp only [bools] at hc hc'
    generalize (0 : Nat) = cur at hv hv' hc hc' ⊢
    induction ms generalizing cur vs with
    | nil => intro c hcm; simp [memberCells] at hcm
    | cons m r ihr =>
      obtain ⟨n, t⟩ := m
      simp only [readMembers, Option.bind_eq_some_iff, Option.map_eq_some_iff] at hv hv'
      obtain ⟨v, hv, ws, hw, rfl⟩ := hv
      obtain ⟨v', hv', ws', hw', e1⟩ := hv'
      cases e1
      simp only [memberBools] at hc hc'
      intro c hcm
      simp only [memberCells] at hcm
      rcases List.mem_append.1 hcm with hcm | hcm
      · exact ih (n, t) (by simp) hv hv' (fun k hk => hc k (List.mem_append_left _ hk))
          (fun k hk => hc' k (List.mem_append_left _ hk)) c hcm
      · exact ihr (fun m hm => ih m (by simp [hm])) _ _ hw hw'
          (fun k hk => hc k (List.mem_append_right _ hk))
          (fun k hk => hc' k (List.mem_append_right _ hk)) c hcm
  | hal a t ih => simp only [read] at h h'; exact ih h h' hc hc'

/-- Length, contents, zero padding and canonical bools determine the bytes. -/
theorem encoding_unique {e : Endian} {l : Layout} {t : Ty} {buf buf' : List Byte} {v : Val}
    (hl : buf.length = buf'.length) (h : read e l t buf 0 = some v) (h' : read e l t buf' 0 = some v)
    (hc : CanonicalBools e l t buf) (hc' : CanonicalBools e l t buf')
    (hz : ZeroPadding l t buf) (hz' : ZeroPadding l t buf') : buf = buf' := by
  have hs := read_same h h' hc hc'
  apply List.ext_getElem hl
  intro k hk hk'
  by_cases ho : Occupied l t k
  · obtain ⟨c, hcm, h1, h2⟩ := ho
    have := hs c hcm k h1 h2
    rwa [List.getElem?_eq_getElem hk, List.getElem?_eq_getElem hk', Option.some.injEq] at this
  · rw [hz k hk ho, hz' k hk' ho]

/-- The encoding of a value is characterised by its length, what is read from it, zero padding and
canonical bools. -/
theorem store_iff {e : Endian} {l : Layout} {t : Ty} (hwf : t.Wf) {v : Val} {bs : List Byte} :
    store e l t v = some bs ↔ bs.length = t.size l ∧ read e l t bs 0 = some v ∧
      CanonicalBools e l t bs ∧ ZeroPadding l t bs := by
  have key : ∀ bs, store e l t v = some bs → bs.length = t.size l ∧ read e l t bs 0 = some v ∧
      CanonicalBools e l t bs ∧ ZeroPadding l t bs := by
    intro bs h
    have st := stored_store hwf h
    refine ⟨st.length, st.read _ _ (Crevice.sliceAt_self bs), st.bools _ _ (Crevice.sliceAt_self bs), ?_⟩
    intro k hk hno
    apply Classical.byContradiction
    intro hne
    apply hno
    have := st.pad 0 k _ (List.getElem?_eq_getElem hk) hne
    rwa [Nat.zero_add] at this
  refine ⟨key bs, ?_⟩
  rintro ⟨h1, h2, h3, h4⟩
  obtain ⟨bs', hb⟩ := store_of_read h2
  obtain ⟨k1, k2, k3, k4⟩ := key bs' hb
  rw [hb, encoding_unique (h1.trans k1.symm) h2 k2 h3 k3 h4 k4]

end Glsl
