import Verif.Proof.Rust
/-
`decode` inverts `enc` on packed types.
-/
namespace Crevice

theorem mapM_option_cons {α β} (f : α → Option β) (a : α) (l : List α) :
    (a :: l).mapM f = (f a).bind fun b => (l.mapM f).map fun bs => b :: bs := by
  rw [List.mapM_cons]
  cases f a <;> simp
  cases List.mapM f l <;> simp

theorem mapM_option_nil {α β} (f : α → Option β) : ([] : List α).mapM f = some [] := by simp

theorem mapM_congr {α β} {f g : α → Option β} {l : List α} (h : ∀ a ∈ l, f a = g a) :
    l.mapM f = l.mapM g := by
  induction l with
  | nil => simp
  | cons a r ih =>
    rw [mapM_option_cons, mapM_option_cons, h a (by simp), ih fun b hb => h b (List.mem_cons_of_mem _ hb)]

theorem mapM_map {α β γ} (g : α → β) (f : β → Option γ) (l : List α) :
    (l.map g).mapM f = l.mapM fun a => f (g a) := by
  induction l with
  | nil => simp
  | cons a r ih => rw [List.map_cons, mapM_option_cons, mapM_option_cons, ih]

theorem mapM_eq_some_iff {α β} (f : α → Option β) (l : List α) (r : List β) :
    l.mapM f = some r ↔ r.length = l.length ∧ ∀ i (h : i < l.length) (h' : i < r.length), f l[i] = some r[i] := by
  induction l generalizing r with
  | nil => cases r <;> simp
  | cons a l ih =>
    rw [mapM_option_cons]
    constructor
    · intro h
      cases hf : f a with
      | none => simp [hf] at h
      | some b =>
        cases hl : List.mapM f l with
        | none => simp [hf, hl] at h
        | some bs =>
          simp only [hf, hl, Option.bind_some, Option.map_some, Option.some.injEq] at h
          subst h
          obtain ⟨h1, h2⟩ := (ih bs).1 hl
          refine ⟨by simp [h1], ?_⟩
          intro i hi hi'
          cases i with
          | zero => simpa using hf
          | succ i => simpa using h2 i (by simpa using hi) (by simpa using hi')
    · rintro ⟨h1, h2⟩
      cases r with
      | nil => simp at h1
      | cons b bs =>
        have hb := h2 0 (by simp) (by simp)
        have hl := (ih bs).2 ⟨by simpa using h1, fun i hi hi' => by
          have := h2 (i + 1) (by simpa using hi) (by simpa using hi')
          simpa using this⟩
        simp only [List.getElem_cons_zero] at hb
        simp [hb, hl]

theorem mapM_range_succ {β} (f : Nat → Option β) (n : Nat) :
    (List.range (n + 1)).mapM f =
      (f 0).bind fun b => ((List.range n).mapM fun i => f (i + 1)).map fun bs => b :: bs := by
  rw [List.range_succ_eq_map, mapM_option_cons, mapM_map]

theorem decode_enc {tg : Target} (htg : tg.Valid) {t : RTy} {v : RVal}
    (hp : t.packed = true) (h : RVal.HasTy t v) : decode tg t (enc tg.endian v) = some v := by
  induction t using RTy.ind generalizing v with
  | hs s =>
    cases v <;> simp only [RVal.HasTy] at h
    subst h
    simp [decode, enc, scalarBytes_length, scalarOfBytes_scalarBytes]
  | hb =>
    cases v <;> simp only [RVal.HasTy] at h
    rename_i b
    cases b <;> simp [decode, enc]
  | ha t n ih =>
    cases v <;> simp only [RVal.HasTy] at h
    rename_i vs
    obtain ⟨rfl, h⟩ := h
    simp only [RTy.packed, Bool.or_eq_true, decide_eq_true_eq] at hp
    replace hp : vs = [] ∨ t.packed = true := by simpa using hp
    rcases hp with rfl | hp
    · simp [decode, enc, encList]
    have hsz := size_eq_natSize htg hp
    have hlen := encList_length tg.endian vs fun v hv => enc_length tg.endian (h v hv)
    simp only [decode, enc, hsz, hlen, if_true]
    rw [show some (RVal.array vs) = (some vs).map RVal.array from rfl]
    congr 1
    clear hlen
    induction vs with
    | nil => simp
    | cons v r ihr =>
      have hv := h v (by simp)
      have hl := enc_length tg.endian hv
      have h1 : ((enc tg.endian v ++ encList tg.endian r).take t.natSize) = enc tg.endian v := by
        rw [← hl, List.take_left]
      rw [List.length_cons, mapM_range_succ]
      simp only [encList, Nat.zero_mul, List.drop_zero, h1, ih hp hv, Option.bind_some]
      have h2 : ∀ i, (enc tg.endian v ++ encList tg.endian r).drop ((i + 1) * t.natSize) =
          (encList tg.endian r).drop (i * t.natSize) := by
        intro i
        rw [Nat.add_mul, Nat.one_mul, Nat.add_comm, ← hl, List.drop_append]
        simp [Nat.add_sub_cancel_left]
      simp only [h2]
      rw [ihr fun w hw => h w (List.mem_cons_of_mem _ hw)]
      rfl
  | hn t ih =>
    cases v <;> simp only [RVal.HasTy] at h
    simp only [RTy.packed] at hp
    simp [decode, enc, ih hp h]
  | hst fs ih =>
    cases v <;> simp only [RVal.HasTy] at h
    rename_i vs
    have hsz := size_eq_natSize htg hp
    have hp' := hp
    simp only [RTy.packed, Bool.and_eq_true, decide_eq_true_eq] at hp
    obtain ⟨hp, hal⟩ := hp
    have key : ∀ (gs : List (String × RTy)) (off : Nat) (ws : List (String × RVal)) (post : List Byte),
        (∀ g ∈ gs, ∀ {v : RVal}, g.2.packed = true → RVal.HasTy g.2 v →
          decode tg g.2 (enc tg.endian v) = some v) →
        packedFields off gs = true → HasTys gs ws →
        decodeFields tg off gs (encFields tg.endian ws ++ post) = some ws := by
      intro gs
      induction gs with
      | nil => intro off ws _ _ _ hw; rw [HasTys_nil hw]; simp [decodeFields]
      | cons g r ihr =>
        obtain ⟨n, t⟩ := g
        intro off ws post hen hpk hw
        obtain ⟨v, s, rfl, h1, h2⟩ := HasTys_cons hw
        simp only [packedFields, Bool.and_eq_true, decide_eq_true_eq] at hpk
        obtain ⟨⟨hp1, hp2⟩, hp3⟩ := hpk
        have hd : t.align tg ∣ off :=
          Nat.dvd_trans (align_dvd_natAlign htg t) (Nat.dvd_of_mod_eq_zero hp2)
        have hl := enc_length tg.endian h1
        have hr := ihr (off + t.natSize) s post (fun g hg => hen g (List.mem_cons_of_mem _ hg)) hp3 h2
        have ht : (encFields tg.endian ((n, v) :: s) ++ post).take t.natSize = enc tg.endian v := by
          simp only [encFields, List.append_assoc]
          rw [← hl, List.take_left]
        have hdr : (encFields tg.endian ((n, v) :: s) ++ post).drop t.natSize =
            encFields tg.endian s ++ post := by
          simp only [encFields, List.append_assoc]
          rw [← hl, List.drop_left]
        simp only [decodeFields, paddingFor_of_dvd hd, size_eq_natSize htg hp1, Nat.add_zero,
          List.drop_zero, Nat.zero_add, ht, hdr, hr, hen (n, t) (by simp) hp1 h1,
          Option.bind_some, Option.map_some]
    have hk := key fs 0 vs [] (fun g hg => ih g hg) hp h
    simp only [List.append_nil] at hk
    have hl := encFields_length tg.endian h
    simp only [decode, enc, hsz, RTy.natSize, hl, if_true, hk, Option.map_some]

theorem decode_exists {tg : Target} (htg : tg.Valid) {t : RTy} (hp : t.packed = true)
    (hb : t.noBool = true) (bs : List Byte) (hl : bs.length = t.natSize) :
    ∃ v, decode tg t bs = some v ∧ RVal.HasTy t v ∧ enc tg.endian v = bs := by
  -- it is enough to find a value with the given image
  suffices h : ∃ v, RVal.HasTy t v ∧ enc tg.endian v = bs by
    obtain ⟨v, hv, rfl⟩ := h
    exact ⟨v, decode_enc htg hp hv, hv, rfl⟩
  clear hp
  induction t using RTy.ind generalizing bs with
  | hs s =>
    refine ⟨.scalar s (scalarOfBytes tg.endian s bs), rfl, ?_⟩
    simp only [enc]
    exact scalarBytes_scalarOfBytes _ _ _ hl
  | hb => simp [RTy.noBool] at hb
  | ha t n ih =>
    simp only [RTy.noBool, Bool.or_eq_true, decide_eq_true_eq] at hb
    simp only [RTy.natSize] at hl
    rcases hb with rfl | hb
    · simp only [Nat.mul_zero, List.length_eq_zero_iff] at hl
      exact ⟨.array [], ⟨rfl, by simp⟩, by simp [enc, encList, hl]⟩
    suffices h : ∃ vs : List RVal, vs.length = n ∧ (∀ v ∈ vs, RVal.HasTy t v) ∧
        encList tg.endian vs = bs by
      obtain ⟨vs, h1, h2, h3⟩ := h
      exact ⟨.array vs, ⟨h1, h2⟩, by simpa [enc] using h3⟩
    induction n generalizing bs with
    | zero =>
      simp only [Nat.mul_zero, List.length_eq_zero_iff] at hl
      exact ⟨[], rfl, by simp, by simp [encList, hl]⟩
    | succ n ihn =>
      rw [Nat.mul_add, Nat.mul_one] at hl
      obtain ⟨v, hv1, hv2⟩ := ih hb (bs.take t.natSize) (by simp; omega)
      obtain ⟨vs, h1, h2, h3⟩ := ihn (bs.drop t.natSize) (by simp; omega)
      refine ⟨v :: vs, by simp [h1], ?_, ?_⟩
      · intro w hw
        rcases List.mem_cons.1 hw with rfl | hw
        · exact hv1
        · exact h2 w hw
      · simp [encList, hv2, h3, List.take_append_drop]
  | hn t ih =>
    simp only [RTy.noBool] at hb
    obtain ⟨v, h1, h2⟩ := ih hb bs (by simpa [RTy.natSize] using hl)
    exact ⟨.newtype v, h1, by simpa [enc] using h2⟩
  | hst fs ih =>
    simp only [RTy.noBool] at hb
    simp only [RTy.natSize] at hl
    suffices h : ∃ vs, HasTys fs vs ∧ encFields tg.endian vs = bs by
      obtain ⟨vs, h1, h2⟩ := h
      exact ⟨.struct vs, by simpa [RVal.HasTy] using h1, by simpa [enc] using h2⟩
    induction fs generalizing bs with
    | nil =>
      simp only [natSizeFields, List.length_eq_zero_iff] at hl
      exact ⟨[], by simp [HasTys], by simp [encFields, hl]⟩
    | cons f r ihr =>
      obtain ⟨n, t⟩ := f
      simp only [noBoolFields, Bool.and_eq_true] at hb
      simp only [natSizeFields] at hl
      obtain ⟨v, hv1, hv2⟩ := ih (n, t) (by simp) hb.1 (bs.take t.natSize) (by simp; omega)
      obtain ⟨vs, h1, h2⟩ := ihr (fun g hg => ih g (List.mem_cons_of_mem _ hg)) hb.2
        (bs.drop t.natSize) (by simp; omega)
      refine ⟨(n, v) :: vs, by simp [HasTys, hv1, h1], ?_⟩
      simp [encFields, hv2, h2, List.take_append_drop]

theorem hasTy_zeroed (t : RTy) : RVal.HasTy t (zeroed t) := by
  induction t using RTy.ind with
  | hs s => simp [zeroed, RVal.HasTy]
  | hb => simp [zeroed, RVal.HasTy]
  | ha t n ih =>
    simp only [zeroed, RVal.HasTy, List.length_replicate, true_and]
    intro v hv
    rw [(List.mem_replicate.1 hv).2]; exact ih
  | hn t ih => simpa [zeroed, RVal.HasTy] using ih
  | hst fs ih =>
    simp only [zeroed, RVal.HasTy]
    induction fs with
    | nil => simp [zeroedFields, HasTys]
    | cons f r ihr =>
      obtain ⟨n, t⟩ := f
      simp only [zeroedFields, HasTys, true_and]
      exact ⟨ih (n, t) (by simp), ihr fun g hg => ih g (List.mem_cons_of_mem _ hg)⟩

theorem natToLE_zero (n : Nat) : natToLE n 0 = List.replicate n 0 := by
  induction n with
  | zero => rfl
  | succ n ih => simp [natToLE, ih, List.replicate_succ]

theorem enc_zeroed (e : Endian) (t : RTy) : enc e (zeroed t) = List.replicate t.natSize 0 := by
  induction t using RTy.ind with
  | hs s => cases e <;> simp [zeroed, enc, scalarBytes, natToLE_zero, RTy.natSize]
  | hb => simp [zeroed, enc, RTy.natSize]
  | ha t n ih =>
    simp only [zeroed, enc, RTy.natSize]
    induction n with
    | zero => simp [encList]
    | succ n ihn =>
      rw [List.replicate_succ]
      simp only [encList, ihn, ih, Nat.mul_add, Nat.mul_one]
      rw [List.replicate_append_replicate]; congr 1; omega
  | hn t ih => simpa [zeroed, enc, RTy.natSize] using ih
  | hst fs ih =>
    simp only [zeroed, enc, RTy.natSize]
    induction fs with
    | nil => simp [zeroedFields, encFields, natSizeFields]
    | cons f r ihr =>
      obtain ⟨n, t⟩ := f
      simp only [zeroedFields, encFields, natSizeFields]
      rw [ih (n, t) (by simp), ihr fun g hg => ih g (List.mem_cons_of_mem _ hg),
        List.replicate_append_replicate]

/-- The image determines a packed value. -/
theorem enc_injective {tg : Target} (htg : tg.Valid) {t : RTy} (hp : t.packed = true) {v w : RVal}
    (hv : RVal.HasTy t v) (hw : RVal.HasTy t w) (h : enc tg.endian v = enc tg.endian w) : v = w := by
  have h1 := decode_enc htg hp hv
  have h2 := decode_enc htg hp hw
  rw [h, h2] at h1
  exact (Option.some.inj h1).symm

end Crevice
