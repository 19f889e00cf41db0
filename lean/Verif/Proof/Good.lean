import Verif.Proof.Derive
import Verif.Proof.Math
/-
Layout invariant of every implementation: no implicit padding, Rust alignment divides ALIGNMENT,
ALIGNMENT is a power of two (or 0 for structs without any scalar, in std430).
-/
namespace Crevice

theorem Ty.ind {P : Ty → Prop} (hs : ∀ s, P (.scalar s)) (hb : P .bool) (hm : ∀ m, P (.math m))
    (hf : ∀ n, P (.foreign n)) (hst : ∀ n fs, (∀ f ∈ fs, P f.2) → P (.struct n fs))
    (hd : ∀ t, P t → P (.dynamic t)) (ho : ∀ l t, P t → P (.output l t))
    (hu : ∀ n t, P t → P (.user n t)) : ∀ t, P t := by
  intro t
  refine Ty.rec (motive_1 := P) (motive_2 := fun fs => ∀ f ∈ fs, P f.2)
    (motive_3 := fun f => P f.2) hs hb hm hf ?_ hd ho hu ?_ ?_ ?_ t
  · intro n fs h; exact hst n fs h
  · intro f hf; simp at hf
  · intro f r h1 h2 g hg
    rcases List.mem_cons.1 hg with rfl | hg
    · exact h1
    · exact h2 g hg
  · intro a b h; exact h

/-- Layout invariant of an implementation. -/
structure Good (i : Impl) : Prop where
  packed : i.out.packed = true
  noBool : i.out.noBool = true
  al : (IsPow2 i.alignment ∧ i.out.natAlign ∣ i.alignment) ∨
    (i.alignment = 0 ∧ i.out.natAlign = 1 ∧ i.out.natSize = 0)

/-- `off` is a suitable position for alignment `al`. -/
def AlignedAt (off al : Nat) : Prop := al = 0 ∨ al ∣ off

theorem Good.off_mod {i : Impl} (h : Good i) {off : Nat} (ha : AlignedAt off i.alignment) :
    off % i.out.natAlign = 0 := by
  rcases h.al with ⟨h1, h2⟩ | ⟨h1, h2, _⟩
  · rcases ha with h0 | h0
    · have := h1.pos; omega
    · exact Nat.mod_eq_zero_of_dvd (Nat.dvd_trans h2 h0)
  · rw [h2]; exact Nat.mod_one _

theorem alignedAt_add (off al : Nat) : AlignedAt (off + alignOffset off al) al := by
  rcases Nat.eq_zero_or_pos al with h | h
  · exact .inl h
  · exact .inr (dvd_add_alignOffset off al h)

theorem gen_packed {tg : Target} (htg : tg.Valid) {sal : Nat} (fs : List (String × Impl))
    (hg : ∀ f ∈ fs, Good f.2) (i off : Nat) (ha : AlignedAt off (nextAl sal fs)) :
    packedFields off (genFields tg sal i off fs) = true ∧
      AlignedAt (off + natSizeFields (genFields tg sal i off fs)) sal := by
  induction fs generalizing i off with
  | nil => simpa [genFields, packedFields, natSizeFields, nextAl] using ha
  | cons f r ih =>
    obtain ⟨n, f⟩ := f
    have hf := hg (n, f) (by simp)
    simp only [nextAl] at ha
    have hs := size_eq_natSize htg hf.packed
    obtain ⟨h1, h2⟩ := ih (fun g hg' => hg g (List.mem_cons_of_mem _ hg')) (i + 1)
      (off + f.out.size tg + alignOffset (off + f.out.size tg) (nextAl sal r)) (alignedAt_add _ _)
    simp only [hs] at h1 h2
    simp only [genFields, packedFields, natSizeFields, RTy.packed, RTy.natAlign, RTy.natSize,
      Scalar.size, Nat.one_mul, hs, hf.packed, hf.off_mod ha, Nat.mod_one, Bool.and_true, Bool.or_true,
      decide_true, Bool.true_and]
    refine ⟨h1, ?_⟩
    rw [show off + (f.out.natSize + (alignOffset (off + f.out.natSize) (nextAl sal r) +
      natSizeFields (genFields tg sal (i + 1) (off + f.out.natSize +
        alignOffset (off + f.out.natSize) (nextAl sal r)) r))) =
      off + f.out.natSize + alignOffset (off + f.out.natSize) (nextAl sal r) +
      natSizeFields (genFields tg sal (i + 1) (off + f.out.natSize +
        alignOffset (off + f.out.natSize) (nextAl sal r)) r) by omega]
    exact h2

theorem gen_noBool {tg : Target} {sal : Nat} (fs : List (String × Impl))
    (hg : ∀ f ∈ fs, Good f.2) (i off : Nat) : noBoolFields (genFields tg sal i off fs) = true := by
  induction fs generalizing i off with
  | nil => rfl
  | cons f r ih =>
    obtain ⟨n, f⟩ := f
    have hf := hg (n, f) (by simp)
    simp [genFields, noBoolFields, RTy.noBool, hf.noBool,
      ih (fun g hg' => hg g (List.mem_cons_of_mem _ hg'))]

theorem gen_natAlign {tg : Target} {sal : Nat} (fs : List (String × Impl))
    (i off : Nat) : natAlignFields (genFields tg sal i off fs) =
      fs.foldr (fun f a => max f.2.out.natAlign a) 1 := by
  induction fs generalizing i off with
  | nil => rfl
  | cons f r ih =>
    obtain ⟨n, f⟩ := f
    simp only [genFields, natAlignFields, RTy.natAlign, Scalar.size, ih, List.foldr_cons]
    have : ∀ r : List (String × Impl), 1 ≤ r.foldr (fun f a => max f.2.out.natAlign a) 1 := by
      intro r
      induction r with
      | nil => simp
      | cons _ _ ih => simp only [List.foldr_cons]; omega
    have := this r
    omega

theorem foldr_max_le {fs : List (String × Impl)} {b : Nat} (h1 : 1 ≤ b)
    (h : ∀ f ∈ fs, f.2.out.natAlign ≤ b) :
    fs.foldr (fun f a => max f.2.out.natAlign a) 1 ≤ b := by
  induction fs with
  | nil => simpa
  | cons f r ih =>
    simp only [List.foldr_cons]
    have := h f (by simp)
    have := ih fun g hg => h g (List.mem_cons_of_mem _ hg)
    omega

theorem gen_size_zero {tg : Target} (fs : List (String × Impl))
    (hg : ∀ f ∈ fs, Good f.2) (h0 : ∀ f ∈ fs, f.2.alignment = 0) (i off : Nat) :
    natSizeFields (genFields tg 0 i off fs) = 0 := by
  induction fs generalizing i off with
  | nil => rfl
  | cons f r ih =>
    obtain ⟨n, f⟩ := f
    have hf := hg (n, f) (by simp)
    have ha := h0 (n, f) (by simp)
    simp only at ha
    have hsz : f.out.natSize = 0 := by
      rcases hf.al with ⟨h1, _⟩ | ⟨_, _, h3⟩
      · have := h1.pos; simp only at this; omega
      · exact h3
    have hnext : nextAl 0 r = 0 := by
      cases r with
      | nil => rfl
      | cons g s => exact h0 g (by simp)
    simp [genFields, natSizeFields, RTy.natSize, hsz, hnext, alignOffset_zero_right,
      ih (fun g hg' => hg g (List.mem_cons_of_mem _ hg'))
        (fun g hg' => h0 g (List.mem_cons_of_mem _ hg'))]

theorem isPow2_of_structAl {l : Layout} {fs : List (String × Impl)} (hg : ∀ f ∈ fs, Good f.2) :
    IsPow2 (structAl l fs) ∨ (structAl l fs = 0 ∧ l = .std430 ∧ ∀ f ∈ fs, f.2.alignment = 0) := by
  by_cases h0 : structAl l fs = 0
  · right
    refine ⟨h0, ?_, ?_⟩
    · have : l.minStructAlignment ≤ structAl l fs := le_maxArr (by simp)
      cases l
      · simp [Layout.minStructAlignment] at this; omega
      · rfl
    · intro f hf
      have : f.2.alignment ≤ structAl l fs :=
        le_maxArr (List.mem_cons_of_mem _ (List.mem_map.2 ⟨f, hf, rfl⟩))
      omega
  · left
    have := maxArr_mem (l := l.minStructAlignment :: fs.map fun f => f.2.alignment) (by simp)
    change structAl l fs ∈ _ at this
    rcases List.mem_cons.1 this with h | h
    · rw [h]
      cases l
      · exact isPow2_16
      · simp only [Layout.minStructAlignment] at h; omega
    · obtain ⟨f, hf, he⟩ := List.mem_map.1 h
      rcases (hg f hf).al with ⟨h1, _⟩ | ⟨h1, _⟩
      · rw [← he]; exact h1
      · omega

theorem le_structAl {l : Layout} {fs : List (String × Impl)} {f : String × Impl} (hf : f ∈ fs) :
    f.2.alignment ≤ structAl l fs :=
  le_maxArr (List.mem_cons_of_mem _ (List.mem_map.2 ⟨f, hf, rfl⟩))

/-- Alignment of the first field divides offset 0. -/
theorem alignedAt_zero (al : Nat) : AlignedAt 0 al := .inr (Nat.dvd_zero _)

theorem good_record {tg : Target} (htg : tg.Valid) {l : Layout} {fs : List (String × Impl)}
    (hg : ∀ f ∈ fs, Good f.2) :
    Good (recordImpl (genFields tg (structAl l fs) 0 0 fs) (structAl l fs) fs) := by
  obtain ⟨hp, hsz⟩ := gen_packed htg fs hg 0 0 (sal := structAl l fs) (alignedAt_zero _)
  rw [Nat.zero_add] at hsz
  have hna := gen_natAlign (tg := tg) (sal := structAl l fs) fs 0 0
  rcases isPow2_of_structAl (l := l) hg with hpow | ⟨h0, -, hall⟩
  · have hle : natAlignFields (genFields tg (structAl l fs) 0 0 fs) ≤ structAl l fs := by
      rw [hna]
      refine foldr_max_le hpow.pos ?_
      intro f hf
      rcases (hg f hf).al with ⟨h1, h2⟩ | ⟨_, h2, _⟩
      · exact Nat.le_trans (Nat.le_of_dvd h1.pos h2) (le_structAl hf)
      · rw [h2]; exact hpow.pos
    have hdvd := (isPow2_natAlignFields _).dvd_of_le hpow hle
    refine ⟨?_, gen_noBool fs hg 0 0, .inl ⟨hpow, hdvd⟩⟩
    simp only [recordImpl, RTy.packed, hp, Bool.true_and, decide_eq_true_eq]
    rcases hsz with h | h
    · have := hpow.pos; omega
    · exact Nat.mod_eq_zero_of_dvd (Nat.dvd_trans hdvd h)
  · have hna1 : natAlignFields (genFields tg (structAl l fs) 0 0 fs) = 1 := by
      rw [hna]
      apply Nat.le_antisymm
      · refine foldr_max_le (Nat.le_refl _) ?_
        intro f hf
        rcases (hg f hf).al with ⟨h1, _⟩ | ⟨_, h2, _⟩
        · have := h1.pos; have := hall f hf; omega
        · omega
      · rw [← hna]; exact (isPow2_natAlignFields _).pos
    have hs0 : natSizeFields (genFields tg (structAl l fs) 0 0 fs) = 0 := by
      rw [h0]; exact gen_size_zero fs hg hall 0 0
    refine ⟨?_, gen_noBool fs hg 0 0, .inr ⟨h0, hna1, hs0⟩⟩
    simp only [recordImpl, RTy.packed, hp, Bool.true_and, decide_eq_true_eq, hs0, Nat.zero_mod]

theorem good_deriveImpl {tg : Target} (htg : tg.Valid) {l : Layout} {name : String}
    {fs : List (String × Impl)} (hg : ∀ f ∈ fs, Good f.2) {i : Impl}
    (h : deriveImpl tg l name fs = some i) : Good i := by
  rw [deriveImpl_eq] at h
  split at h
  · cases h; exact good_record htg hg
  · cases h

/-! ### Scalars and math types -/

theorem good_mscalar {l : Layout} {s : MScalar} {c : Impl} (h : mscalarImpl l s = some c) :
    Good c := by
  obtain ⟨c', h1, h2, h3⟩ := mscalarImpl_some l s
  rw [h] at h1; cases h1
  refine ⟨by rw [h2, s.rty_packed], by rw [h2, s.rty_noBool], .inl ?_⟩
  rw [h2, h3, s.rty_natAlign]
  refine ⟨?_, Nat.dvd_refl _⟩
  cases s <;> simp [MScalar.glsl, Glsl.Scalar.size, isPow2_4, isPow2_8]

theorem natAlignFields_replicate {names : List String} {t : RTy} (h : names ≠ []) :
    natAlignFields (names.map fun n => (n, t)) = t.natAlign := by
  have h1 := (isPow2_natAlign t).pos
  have : ∀ names : List String, natAlignFields (names.map fun n => (n, t)) =
      if names = [] then 1 else t.natAlign := by
    intro names
    induction names with
    | nil => rfl
    | cons n r ih =>
      simp only [List.map_cons, natAlignFields, ih]
      split
      · simp; omega
      · simp
  rw [this, if_neg h]

theorem natSizeFields_replicate {names : List String} {t : RTy} :
    natSizeFields (names.map fun n => (n, t)) = names.length * t.natSize := by
  induction names with
  | nil => simp [natSizeFields]
  | cons n r ih =>
    simp only [List.map_cons, natSizeFields, ih, List.length_cons, Nat.add_mul]; omega

theorem packedFields_replicate {names : List String} {t : RTy} (hp : t.packed = true)
    (off : Nat) (h : off % t.natAlign = 0) :
    packedFields off (names.map fun n => (n, t)) = true := by
  induction names generalizing off with
  | nil => rfl
  | cons n r ih =>
    simp only [List.map_cons, packedFields, hp, h, Bool.true_and, decide_true]
    apply ih
    have := Nat.mod_eq_zero_of_dvd (natAlign_dvd_natSize hp)
    rw [Nat.add_mod, h, this]; simp

theorem noBoolFields_replicate {names : List String} {t : RTy} (hp : t.noBool = true) :
    noBoolFields (names.map fun n => (n, t)) = true := by
  induction names with
  | nil => rfl
  | cons n r ih => simp [noBoolFields, hp, ih]

theorem isPow2_vecAlign (s : Glsl.Scalar) (n : Nat) : IsPow2 (Glsl.vecAlign s n) := by
  unfold Glsl.vecAlign
  split <;> cases s <;>
    first
      | exact ⟨3, rfl⟩
      | exact ⟨4, rfl⟩
      | exact ⟨5, rfl⟩

theorem isPow2_roundUp16 {a : Nat} (h : IsPow2 a) : Glsl.roundUp a 16 = max a 16 := by
  rcases Nat.le_total a 16 with hle | hle
  · rw [Nat.max_eq_right hle]
    have h1 := le_of_dvd_ge (o := a) (a := 16) (m := 16) (by omega) (Nat.dvd_refl _) hle
    rw [← roundUp_eq _ _ (by omega)] at h1
    have h2 := le_roundUp a 16 (by omega)
    have h3 := dvd_roundUp a 16
    have h4 := h.pos
    exact Nat.le_antisymm h1 (Nat.le_of_dvd (by omega) h3)
  · rw [Nat.max_eq_left hle]
    exact roundUp_of_dvd (by omega) (isPow2_16.dvd_of_le h hle)

theorem isPow2_roundToVec4 {l : Layout} {a : Nat} (h : IsPow2 a) : IsPow2 (Glsl.roundToVec4 l a) := by
  cases l
  · simp only [Glsl.roundToVec4, isPow2_roundUp16 h]; exact h.max isPow2_16
  · exact h

theorem scalar_dvd_vecAlign (s : Glsl.Scalar) (n : Nat) : s.size ∣ Glsl.vecAlign s n := by
  unfold Glsl.vecAlign
  split
  · exact Nat.dvd_mul_left _ _
  · exact Nat.dvd_mul_left _ _

theorem good_vecImpl {l : Layout} {m : MathTy} {i : Impl} (hk : m.kind ≠ .matrix)
    (h : vecImpl l m = some i) : Good i := by
  obtain ⟨c, hc, h2, h4, rfl⟩ := vecImpl_shape hk h
  have hne : m.fieldNames ≠ [] := by
    intro h0
    have := fieldNames_length h4
    rw [h0] at this; simp at this; omega
  have hp := packedFields_replicate (names := m.fieldNames) m.scalar.rty_packed 0 (Nat.zero_mod _)
  refine ⟨?_, noBoolFields_replicate m.scalar.rty_noBool, .inl ⟨isPow2_vecAlign _ _, ?_⟩⟩
  · simp only [recordImpl, RTy.packed, hp, Bool.true_and, decide_eq_true_eq,
      natAlignFields_replicate hne, natSizeFields_replicate]
    exact Nat.mod_eq_zero_of_dvd (Nat.dvd_trans (natAlign_dvd_natSize m.scalar.rty_packed)
      (Nat.dvd_mul_left _ _))
  · simp only [recordImpl, RTy.natAlign, natAlignFields_replicate hne, MScalar.rty_natAlign]
    exact scalar_dvd_vecAlign _ _

theorem good_mathImpl {l : Layout} {m : MathTy} {i : Impl} (h : mathImpl l m = some i) : Good i := by
  by_cases hk : m.kind = .matrix
  · obtain ⟨col, gs, _, _, _, _, hok, rfl⟩ := matImpl_shape hk h
    exact ⟨hok.packed, hok.noBool,
      .inl ⟨isPow2_roundToVec4 (isPow2_vecAlign _ _), hok.natAlign⟩⟩
  · rw [mathImpl_vec hk] at h
    exact good_vecImpl hk h

theorem constMax_eq (a b : Nat) : constMax a b = max a b := by
  unfold constMax; split <;> omega

/-- Results of `resolveFields`, field by field. -/
theorem resolveFields_all2 {tg : Target} {env : ForeignEnv} {l : Layout} {fs : List (String × Ty)}
    {is : List (String × Impl)} (h : resolveFields tg env l fs = some is) :
    All2 (fun (f : String × Ty) (i : String × Impl) => f.1 = i.1 ∧ resolve tg env l f.2 = some i.2)
      fs is := by
  induction fs generalizing is with
  | nil => simp [resolveFields] at h; subst h; exact .nil
  | cons f r ih =>
    obtain ⟨n, t⟩ := f
    simp only [resolveFields] at h
    cases hr : resolve tg env l t with
    | none => simp [hr] at h
    | some i =>
      cases hrs : resolveFields tg env l r with
      | none => simp [hr, hrs] at h
      | some rs =>
        simp only [hr, hrs, Option.bind_some, Option.map_some, Option.some.injEq] at h
        subst h
        exact .cons ⟨rfl, hr⟩ (ih hrs)

theorem All2.forall_right {α β : Type} {R : α → β → Prop} {P : β → Prop} {l : List α} {m : List β}
    (h : All2 R l m) (hp : ∀ a ∈ l, ∀ b ∈ m, R a b → P b) : ∀ b ∈ m, P b := by
  induction h with
  | nil => intro b hb; simp at hb
  | @cons a b l m h1 _ ih =>
    intro c hc
    rcases List.mem_cons.1 hc with rfl | hc
    · exact hp a (by simp) _ (by simp) h1
    · exact ih (fun a ha b hb => hp a (List.mem_cons_of_mem _ ha) b (List.mem_cons_of_mem _ hb)) c hc

theorem good_resolve {tg : Target} (htg : tg.Valid) {env : ForeignEnv} {l : Layout} {t : Ty}
    {i : Impl} (h : resolve tg env l t = some i) : Good i := by
  induction t using Ty.ind generalizing i with
  | hs s =>
    cases s
    · exact good_mscalar (l := l) (s := .f32) h
    · exact good_mscalar (l := l) (s := .f64) h
    · exact good_mscalar (l := l) (s := .i32) h
    · exact good_mscalar (l := l) (s := .u32) h
    · cases l <;> simp [resolve, scalarImpl, Layout.scalarAlignment] at h
  | hb => exact good_mscalar (l := l) (s := .bool) h
  | hm m => exact good_mathImpl h
  | hf n =>
    simp only [resolve] at h
    cases hr : mintyRow n with
    | none => simp [hr] at h
    | some row =>
      simp only [hr, Option.bind_some] at h
      cases hm : mathImpl l row.mint with
      | none => simp [hm] at h
      | some j =>
        simp only [hm, Option.map_some, Option.some.injEq] at h
        subst h
        have := good_mathImpl hm
        exact ⟨this.packed, this.noBool, this.al⟩
  | hst n fs ih =>
    simp only [resolve] at h
    cases hr : resolveFields tg env l fs with
    | none => simp [hr] at h
    | some is =>
      simp only [hr, Option.bind_some] at h
      exact good_deriveImpl htg
        ((resolveFields_all2 hr).forall_right fun a ha b _ hab => ih a ha hab.2) h
  | hd t ih =>
    cases l with
    | std430 => simp [resolve] at h
    | std140 =>
      simp only [resolve] at h
      cases hr : resolve tg env .std140 t with
      | none => simp [hr] at h
      | some j =>
        simp only [hr, Option.map_some, Option.some.injEq] at h
        subst h
        have hj := ih hr
        refine ⟨hj.packed, hj.noBool, .inl ?_⟩
        simp only [dynamicImpl, constMax_eq, RTy.natAlign]
        rcases hj.al with ⟨h1, h2⟩ | ⟨h1, h2, _⟩
        · exact ⟨isPow2_256.max h1, Nat.dvd_trans h2 (isPow2_256.dvd_max_right h1)⟩
        · rw [h1, h2]; exact ⟨isPow2_256, Nat.one_dvd _⟩
  | hu n t ih =>
    simp only [resolve, Option.map_eq_some_iff] at h
    obtain ⟨j, hj, rfl⟩ := h
    have := ih hj
    exact ⟨this.packed, this.noBool, this.al⟩
  | ho l' t ih =>
    simp only [resolve] at h
    split at h
    · cases hr : resolve tg env l t with
      | none => simp [hr] at h
      | some j =>
        simp only [hr, Option.map_some, Option.some.injEq] at h
        subst h
        have hj := ih hr
        exact ⟨hj.packed, hj.noBool, hj.al⟩
    · cases h

end Crevice
