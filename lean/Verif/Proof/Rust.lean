import Verif.Proof.Arith
/-
Lemmas about Rust memory layout: types whose `repr(C)` layout inserts no padding ("packed"), and
their byte images.
-/
namespace Crevice

theorem RTy.ind {P : RTy → Prop} (hs : ∀ s, P (.scalar s)) (hb : P .bool)
    (ha : ∀ t n, P t → P (.array t n)) (hn : ∀ t, P t → P (.newtype t))
    (hst : ∀ fs, (∀ f ∈ fs, P f.2) → P (.struct fs)) : ∀ t, P t := by
  intro t
  refine RTy.rec (motive_1 := P) (motive_2 := fun fs => ∀ f ∈ fs, P f.2)
    (motive_3 := fun f => P f.2) hs hb ?_ ?_ ?_ ?_ ?_ ?_ t
  · intro t n h; exact ha t n h
  · intro t h; exact hn t h
  · intro fs h; exact hst fs h
  · intro f hf; simp at hf
  · intro f r h1 h2 g hg
    rcases List.mem_cons.1 hg with rfl | hg
    · exact h1
    · exact h2 g hg
  · intro a b h; exact h

mutual
/-- Upper bound of the Rust alignment over all targets. -/
def RTy.natAlign : RTy → Nat
  | .scalar s => s.size
  | .bool => 1
  | .array t _ => RTy.natAlign t
  | .newtype t => RTy.natAlign t
  | .struct fs => natAlignFields fs
def natAlignFields : List (String × RTy) → Nat
  | [] => 1
  | (_, t) :: r => max (RTy.natAlign t) (natAlignFields r)
end

mutual
/-- Sum of the sizes of all parts. -/
def RTy.natSize : RTy → Nat
  | .scalar s => s.size
  | .bool => 1
  | .array t n => RTy.natSize t * n
  | .newtype t => RTy.natSize t
  | .struct fs => natSizeFields fs
def natSizeFields : List (String × RTy) → Nat
  | [] => 0
  | (_, t) :: r => RTy.natSize t + natSizeFields r
end

mutual
/-- Laying the parts out one after the other leaves each of them aligned. -/
def RTy.packed : RTy → Bool
  | .scalar _ => true
  | .bool => true
  | .array t n => decide (n = 0) || RTy.packed t
  | .newtype t => RTy.packed t
  | .struct fs => packedFields 0 fs && decide (natSizeFields fs % natAlignFields fs = 0)
def packedFields (off : Nat) : List (String × RTy) → Bool
  | [] => true
  | (_, t) :: r =>
    RTy.packed t && decide (off % RTy.natAlign t = 0) && packedFields (off + RTy.natSize t) r
end

mutual
/-- No Rust `bool` inside. -/
def RTy.noBool : RTy → Bool
  | .scalar _ => true
  | .bool => false
  | .array t n => decide (n = 0) || RTy.noBool t
  | .newtype t => RTy.noBool t
  | .struct fs => noBoolFields fs
def noBoolFields : List (String × RTy) → Bool
  | [] => true
  | (_, t) :: r => RTy.noBool t && noBoolFields r
end

theorem isPow2_natAlign (t : RTy) : IsPow2 t.natAlign := by
  induction t using RTy.ind with
  | hs s => cases s <;> simp [RTy.natAlign, Scalar.size, isPow2_4, isPow2_8, isPow2_one]
  | hb => exact isPow2_one
  | ha t n ih => simpa [RTy.natAlign] using ih
  | hn t ih => simpa [RTy.natAlign] using ih
  | hst fs ih =>
    simp only [RTy.natAlign]
    induction fs with
    | nil => exact isPow2_one
    | cons f r ihr =>
      obtain ⟨n, t⟩ := f
      simp only [natAlignFields]
      exact (ih (n, t) (by simp)).max (ihr fun g hg => ih g (List.mem_cons_of_mem _ hg))

theorem isPow2_natAlignFields (fs : List (String × RTy)) : IsPow2 (natAlignFields fs) :=
  isPow2_natAlign (.struct fs)

theorem isPow2_align {tg : Target} (htg : tg.Valid) (t : RTy) : IsPow2 (t.align tg) := by
  induction t using RTy.ind with
  | hs s => simpa [RTy.align] using isPow2_scalar_align htg s
  | hb => exact isPow2_one
  | ha t n ih => simpa [RTy.align] using ih
  | hn t ih => simpa [RTy.align] using ih
  | hst fs ih =>
    simp only [RTy.align]
    induction fs with
    | nil => exact isPow2_one
    | cons f r ihr =>
      obtain ⟨n, t⟩ := f
      simp only [alignFields]
      exact (ih (n, t) (by simp)).max (ihr fun g hg => ih g (List.mem_cons_of_mem _ hg))

theorem align_le_natAlign {tg : Target} (htg : tg.Valid) (t : RTy) : t.align tg ≤ t.natAlign := by
  induction t using RTy.ind with
  | hs s =>
    simp only [RTy.align, RTy.natAlign]
    refine Nat.le_of_dvd ?_ (htg s)
    cases s <;> simp [Scalar.size]
  | hb => simp [RTy.align, RTy.natAlign]
  | ha t n ih => simpa [RTy.align, RTy.natAlign] using ih
  | hn t ih => simpa [RTy.align, RTy.natAlign] using ih
  | hst fs ih =>
    simp only [RTy.align, RTy.natAlign]
    induction fs with
    | nil => simp [alignFields, natAlignFields]
    | cons f r ihr =>
      obtain ⟨n, t⟩ := f
      simp only [alignFields, natAlignFields]
      have h1 := ih (n, t) (by simp)
      have h2 := ihr fun g hg => ih g (List.mem_cons_of_mem _ hg)
      simp only at h1
      omega

theorem align_dvd_natAlign {tg : Target} (htg : tg.Valid) (t : RTy) : t.align tg ∣ t.natAlign :=
  (isPow2_align htg t).dvd_of_le (isPow2_natAlign t) (align_le_natAlign htg t)

theorem natAlign_dvd_natSize {t : RTy} (h : t.packed = true) : t.natAlign ∣ t.natSize := by
  induction t using RTy.ind with
  | hs s => simp [RTy.natAlign, RTy.natSize]
  | hb => simp [RTy.natAlign]
  | ha t n ih =>
    simp only [RTy.packed, Bool.or_eq_true, decide_eq_true_eq] at h
    simp only [RTy.natAlign, RTy.natSize]
    rcases h with rfl | h
    · exact Nat.dvd_zero _
    · exact Nat.dvd_trans (ih h) (Nat.dvd_mul_right _ _)
  | hn t ih =>
    simp only [RTy.packed] at h
    simpa only [RTy.natAlign, RTy.natSize] using ih h
  | hst fs _ =>
    simp only [RTy.packed, Bool.and_eq_true, decide_eq_true_eq] at h
    exact Nat.dvd_of_mod_eq_zero h.2

/-- Without gaps the `repr(C)` size is the sum of the parts, on every target. -/
theorem size_eq_natSize {tg : Target} (htg : tg.Valid) {t : RTy} (h : t.packed = true) :
    t.size tg = t.natSize := by
  induction t using RTy.ind with
  | hs s => simp [RTy.size, RTy.natSize]
  | hb => simp [RTy.size, RTy.natSize]
  | ha t n ih =>
    simp only [RTy.packed, Bool.or_eq_true, decide_eq_true_eq] at h
    rcases h with rfl | h
    · simp only [RTy.size, RTy.natSize, Nat.mul_zero]
    · simp only [RTy.size, RTy.natSize, ih h]
  | hn t ih =>
    simp only [RTy.packed] at h
    simpa only [RTy.size, RTy.natSize] using ih h
  | hst fs ih =>
    simp only [RTy.packed, Bool.and_eq_true, decide_eq_true_eq] at h
    obtain ⟨hp, hal⟩ := h
    have key : ∀ (gs : List (String × RTy)) (off : Nat), (∀ g ∈ gs, g.2.packed = true →
        g.2.size tg = g.2.natSize) → packedFields off gs = true →
        endOfFields tg off gs = off + natSizeFields gs := by
      intro gs
      induction gs with
      | nil => intro off _ _; simp [endOfFields, natSizeFields]
      | cons g r ihr =>
        obtain ⟨n, t⟩ := g
        intro off hsz hpk
        simp only [packedFields, Bool.and_eq_true, decide_eq_true_eq] at hpk
        obtain ⟨⟨h1, h2⟩, h3⟩ := hpk
        have hd : t.align tg ∣ off :=
          Nat.dvd_trans (align_dvd_natAlign htg t) (Nat.dvd_of_mod_eq_zero h2)
        have hs := hsz (n, t) (by simp) h1
        simp only at hs
        simp only [endOfFields, natSizeFields, paddingFor_of_dvd hd, hs, Nat.add_zero]
        rw [ihr _ (fun g hg => hsz g (List.mem_cons_of_mem _ hg)) h3]
        omega
    have he := key fs 0 (fun g hg => ih g hg) hp
    simp only [RTy.size, RTy.natSize, he, Nat.zero_add]
    have hd : alignFields tg fs ∣ natSizeFields fs :=
      Nat.dvd_trans (align_dvd_natAlign htg (.struct fs)) (Nat.dvd_of_mod_eq_zero hal)
    simp [paddingFor_of_dvd hd]

theorem endOfFields_packed {tg : Target} (htg : tg.Valid) (fs : List (String × RTy)) (off : Nat)
    (h : packedFields off fs = true) : endOfFields tg off fs = off + natSizeFields fs := by
  induction fs generalizing off with
  | nil => simp [endOfFields, natSizeFields]
  | cons g r ihr =>
    obtain ⟨n, t⟩ := g
    simp only [packedFields, Bool.and_eq_true, decide_eq_true_eq] at h
    obtain ⟨⟨h1, h2⟩, h3⟩ := h
    have hd : t.align tg ∣ off :=
      Nat.dvd_trans (align_dvd_natAlign htg t) (Nat.dvd_of_mod_eq_zero h2)
    simp only [endOfFields, natSizeFields, paddingFor_of_dvd hd, size_eq_natSize htg h1,
      Nat.add_zero]
    rw [ihr _ h3]; omega

/-- Offsets of consecutive fields without gaps. -/
def natOffsets (off : Nat) : List (String × RTy) → List (String × Nat)
  | [] => []
  | (n, t) :: r => (n, off) :: natOffsets (off + t.natSize) r

theorem fieldOffsets_packed {tg : Target} (htg : tg.Valid) (fs : List (String × RTy)) (off : Nat)
    (h : packedFields off fs = true) : fieldOffsets tg off fs = natOffsets off fs := by
  induction fs generalizing off with
  | nil => simp [fieldOffsets, natOffsets]
  | cons g r ihr =>
    obtain ⟨n, t⟩ := g
    simp only [packedFields, Bool.and_eq_true, decide_eq_true_eq] at h
    obtain ⟨⟨h1, h2⟩, h3⟩ := h
    have hd : t.align tg ∣ off :=
      Nat.dvd_trans (align_dvd_natAlign htg t) (Nat.dvd_of_mod_eq_zero h2)
    simp only [fieldOffsets, natOffsets, paddingFor_of_dvd hd, size_eq_natSize htg h1,
      Nat.add_zero]
    rw [ihr _ h3]

/-! ### Bytes of scalars -/

theorem natToLE_length (n x : Nat) : (natToLE n x).length = n := by
  induction n generalizing x with
  | zero => rfl
  | succ n ih => simp [natToLE, ih]

theorem leToNat_natToLE (n x : Nat) (h : x < 256 ^ n) : leToNat (natToLE n x) = x := by
  induction n generalizing x with
  | zero => simp at h; simp [natToLE, leToNat, h]
  | succ n ih =>
    simp only [natToLE, leToNat]
    rw [ih (x / 256) (by rw [Nat.pow_succ] at h; omega)]
    simp; omega

theorem leToNat_lt (bs : List Byte) : leToNat bs < 256 ^ bs.length := by
  induction bs with
  | nil => simp [leToNat]
  | cons b bs ih =>
    simp only [leToNat, List.length_cons, Nat.pow_succ]
    have := b.isLt
    omega

theorem natToLE_leToNat (bs : List Byte) : natToLE bs.length (leToNat bs) = bs := by
  induction bs with
  | nil => rfl
  | cons b bs ih =>
    simp only [List.length_cons, natToLE, leToNat]
    have := b.isLt
    have h1 : (b.toNat + 256 * leToNat bs) / 256 = leToNat bs := by omega
    rw [h1, ih]
    congr 1
    apply BitVec.eq_of_toNat_eq
    simp; omega

theorem pow_256 (n : Nat) : 256 ^ n = 2 ^ (8 * n) := by
  rw [Nat.pow_mul]

theorem scalarBytes_length (e : Endian) (s : Scalar) (b : BitVec (8 * s.size)) :
    (scalarBytes e s b).length = s.size := by
  cases e <;> simp [scalarBytes, natToLE_length]

theorem scalarOfBytes_scalarBytes (e : Endian) (s : Scalar) (b : BitVec (8 * s.size)) :
    scalarOfBytes e s (scalarBytes e s b) = b := by
  have hb : b.toNat < 256 ^ s.size := by rw [pow_256]; exact b.isLt
  cases e <;> simp [scalarBytes, scalarOfBytes, leToNat_natToLE _ _ hb]

theorem scalarBytes_scalarOfBytes (e : Endian) (s : Scalar) (bs : List Byte)
    (h : bs.length = s.size) : scalarBytes e s (scalarOfBytes e s bs) = bs := by
  cases e with
  | little =>
    have := leToNat_lt bs
    rw [h, pow_256] at this
    simp only [scalarBytes, scalarOfBytes, BitVec.toNat_ofNat, Nat.mod_eq_of_lt this]
    rw [← h, natToLE_leToNat]
  | big =>
    have := leToNat_lt bs.reverse
    rw [List.length_reverse, h, pow_256] at this
    simp only [scalarBytes, scalarOfBytes, BitVec.toNat_ofNat, Nat.mod_eq_of_lt this]
    rw [← h, ← List.length_reverse, natToLE_leToNat, List.reverse_reverse]

/-! ### Plain images -/

mutual
/-- Bytes of a value without any padding. -/
def enc (e : Endian) : RVal → List Byte
  | .scalar s b => scalarBytes e s b
  | .bool b => [if b then 1 else 0]
  | .array vs => encList e vs
  | .newtype v => enc e v
  | .struct fs => encFields e fs
def encList (e : Endian) : List RVal → List Byte
  | [] => []
  | v :: r => enc e v ++ encList e r
def encFields (e : Endian) : List (String × RVal) → List Byte
  | [] => []
  | (_, v) :: r => enc e v ++ encFields e r
end

theorem encList_length (e : Endian) {t : RTy} (vs : List RVal)
    (h : ∀ v ∈ vs, (enc e v).length = t.natSize) : (encList e vs).length = t.natSize * vs.length := by
  induction vs with
  | nil => simp [encList]
  | cons v r ih =>
    simp only [encList, List.length_append, List.length_cons]
    rw [h v (by simp), ih fun w hw => h w (List.mem_cons_of_mem _ hw), Nat.mul_add]
    omega

theorem HasTys_cons {n : String} {t : RTy} {r : List (String × RTy)} {vs : List (String × RVal)}
    (h : HasTys ((n, t) :: r) vs) :
    ∃ v s, vs = (n, v) :: s ∧ RVal.HasTy t v ∧ HasTys r s := by
  cases vs with
  | nil => simp [HasTys] at h
  | cons p s =>
    obtain ⟨m, v⟩ := p
    simp only [HasTys] at h
    obtain ⟨rfl, h1, h2⟩ := h
    exact ⟨v, s, rfl, h1, h2⟩

theorem HasTys_nil {vs : List (String × RVal)} (h : HasTys [] vs) : vs = [] := by
  cases vs with
  | nil => rfl
  | cons p s => simp [HasTys] at h

theorem enc_length (e : Endian) {t : RTy} {v : RVal} (h : RVal.HasTy t v) :
    (enc e v).length = t.natSize := by
  induction t using RTy.ind generalizing v with
  | hs s =>
    cases v <;> simp only [RVal.HasTy] at h
    subst h; simp [enc, scalarBytes_length, RTy.natSize]
  | hb => cases v <;> simp only [RVal.HasTy] at h; simp [enc, RTy.natSize]
  | ha t n ih =>
    cases v <;> simp only [RVal.HasTy] at h
    obtain ⟨rfl, h⟩ := h
    simp only [enc, RTy.natSize]
    exact encList_length e _ fun v hv => ih (h v hv)
  | hn t ih =>
    cases v <;> simp only [RVal.HasTy] at h
    simpa only [enc, RTy.natSize] using ih h
  | hst fs ih =>
    cases v <;> simp only [RVal.HasTy] at h
    rename_i vs
    simp only [enc, RTy.natSize]
    induction fs generalizing vs with
    | nil => rw [HasTys_nil h]; simp [encFields, natSizeFields]
    | cons f r ihr =>
      obtain ⟨n, t⟩ := f
      obtain ⟨v, s, rfl, h1, h2⟩ := HasTys_cons h
      simp only [encFields, natSizeFields, List.length_append]
      rw [ih (n, t) (by simp) h1, ihr (fun g hg => ih g (List.mem_cons_of_mem _ hg)) _ h2]

theorem encFields_length (e : Endian) {fs : List (String × RTy)} {vs : List (String × RVal)}
    (h : HasTys fs vs) : (encFields e vs).length = natSizeFields fs := by
  have := enc_length e (t := .struct fs) (v := .struct vs) (by simpa [RVal.HasTy] using h)
  simpa [enc, RTy.natSize] using this

/-- A packed value has no uninitialised bytes: its memory is its plain image. -/
theorem encode_eq_enc {tg : Target} (htg : tg.Valid) {t : RTy} {v : RVal}
    (hp : t.packed = true) (h : RVal.HasTy t v) :
    encode tg t v = some ((enc tg.endian v).map some) := by
  induction t using RTy.ind generalizing v with
  | hs s =>
    cases v <;> simp only [RVal.HasTy] at h
    subst h; simp [encode, enc]
  | hb => cases v <;> simp only [RVal.HasTy] at h; simp [encode, enc]
  | ha t n ih =>
    cases v <;> simp only [RVal.HasTy] at h
    rename_i vs
    obtain ⟨rfl, h⟩ := h
    simp only [RTy.packed, Bool.or_eq_true, decide_eq_true_eq] at hp
    simp only [encode, enc, if_true]
    replace hp : vs = [] ∨ t.packed = true := by simpa using hp
    rcases hp with rfl | hp
    · simp [encList]
    induction vs with
    | nil => simp [encList]
    | cons v r ihr =>
      have h1 := ih hp (h v (by simp))
      have h2 := ihr fun w hw => h w (List.mem_cons_of_mem _ hw)
      cases hm : List.mapM (fun v => encode tg t v) r with
      | none => simp [hm] at h2
      | some x =>
        rw [hm] at h2
        simp only [Option.map_some, Option.some.injEq] at h2
        simp [List.mapM_cons, h1, hm, encList, h2]
  | hn t ih =>
    cases v <;> simp only [RVal.HasTy] at h
    simp only [RTy.packed] at hp
    simpa only [encode, enc] using ih hp h
  | hst fs ih =>
    cases v <;> simp only [RVal.HasTy] at h
    rename_i vs
    simp only [RTy.packed, Bool.and_eq_true, decide_eq_true_eq] at hp
    obtain ⟨hp, hal⟩ := hp
    have he := endOfFields_packed htg fs 0 hp
    have hd : alignFields tg fs ∣ natSizeFields fs :=
      Nat.dvd_trans (align_dvd_natAlign htg (.struct fs)) (Nat.dvd_of_mod_eq_zero hal)
    have key : ∀ (gs : List (String × RTy)) (off : Nat) (ws : List (String × RVal)),
        (∀ g ∈ gs, ∀ {v : RVal}, g.2.packed = true → RVal.HasTy g.2 v →
          encode tg g.2 v = some ((enc tg.endian v).map some)) →
        packedFields off gs = true → HasTys gs ws →
        encodeFields tg off gs ws = some ((encFields tg.endian ws).map some) := by
      intro gs
      induction gs with
      | nil => intro off ws _ _ hw; rw [HasTys_nil hw]; simp [encodeFields, encFields]
      | cons g r ihr =>
        obtain ⟨n, t⟩ := g
        intro off ws hen hpk hw
        obtain ⟨v, s, rfl, h1, h2⟩ := HasTys_cons hw
        simp only [packedFields, Bool.and_eq_true, decide_eq_true_eq] at hpk
        obtain ⟨⟨hp1, hp2⟩, hp3⟩ := hpk
        have hd : t.align tg ∣ off :=
          Nat.dvd_trans (align_dvd_natAlign htg t) (Nat.dvd_of_mod_eq_zero hp2)
        have hr := ihr (off + t.natSize) s (fun g hg => hen g (List.mem_cons_of_mem _ hg)) hp3 h2
        simp [encodeFields, encFields, hen (n, t) (by simp) hp1 h1, paddingFor_of_dvd hd,
          size_eq_natSize htg hp1, hr]
    have hk := key fs 0 vs (fun g hg => ih g hg) hp h
    simp [encode, enc, hk, he, paddingFor_of_dvd hd]

theorem bytesOf_eq_enc {tg : Target} (htg : tg.Valid) {t : RTy} {v : RVal}
    (hp : t.packed = true) (h : RVal.HasTy t v) :
    bytesOf tg t v = some (enc tg.endian v) := by
  simp only [bytesOf, encode_eq_enc htg hp h, Option.bind_some]
  induction enc tg.endian v with
  | nil => rfl
  | cons b r ih => simp [ih]

end Crevice
