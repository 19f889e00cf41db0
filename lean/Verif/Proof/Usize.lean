import Verif.Model.Usize
import Verif.Proof.History
import Verif.Proof.Derive
/-
Machine words against `Nat`.
-/
namespace Crevice
variable {w : Nat}

theorem toNat_ofNat_lt {n : Nat} (h : n < 2 ^ w) : (BitVec.ofNat w n).toNat = n := by
  rw [BitVec.toNat_ofNat, Nat.mod_eq_of_lt h]

theorem eq_ofNat_of_toNat {x : BitVec w} {n : Nat} (h : x.toNat = n) : x = BitVec.ofNat w n := by
  rw [← h]; simp

theorem alignOffset_lt_of {o a b : Nat} (h : a < b) : alignOffset o a < b := by
  by_cases ha : a = 0
  · subst ha; simpa [alignOffset] using h
  · exact Nat.lt_trans (alignOffset_lt o a (Nat.pos_of_ne_zero ha)) h

theorem alignOffsetU_eq (m : Checks) (o a : BitVec w) :
    alignOffsetU m o a = some (BitVec.ofNat w (alignOffset o.toNat a.toNat)) := by
  by_cases ha : a = 0
  · subst ha; simp [alignOffsetU, alignOffset]
  · have ha' : a.toNat ≠ 0 := fun h => ha (BitVec.eq_of_toNat_eq (by simpa using h))
    have hpos : 0 < a.toNat := Nat.pos_of_ne_zero ha'
    have hlt := Nat.mod_lt o.toNat hpos
    have ha0 : ¬ a = 0#w := ha
    by_cases hr : o % a = 0#w
    · have : o.toNat % a.toNat = 0 := by
        have := congrArg BitVec.toNat hr
        simpa using this
      simp [alignOffsetU, urem, ha0, hr, alignOffset, this]
    · have hr' : o.toNat % a.toNat ≠ 0 := by
        intro h
        apply hr
        apply BitVec.eq_of_toNat_eq
        simpa using h
      have e : a - o % a = BitVec.ofNat w (a.toNat - o.toNat % a.toNat) := by
        apply BitVec.eq_of_toNat_eq
        have hal := a.isLt
        rw [toNat_ofNat_lt (by omega), BitVec.toNat_sub_of_le, BitVec.toNat_umod]
        rw [BitVec.le_def, BitVec.toNat_umod]; omega
      cases m <;>
        simp [alignOffsetU, urem, usub, ha0, hr, alignOffset, ha', hr', e, Nat.le_of_lt hlt]

theorem uadd_on {a b : BitVec w} (h : a.toNat + b.toNat < 2 ^ w) (m : Checks) :
    uadd m a b = some (BitVec.ofNat w (a.toNat + b.toNat)) := by
  have e : a + b = BitVec.ofNat w (a.toNat + b.toNat) := by
    apply BitVec.eq_of_toNat_eq; simp
  cases m
  · simp [uadd, h, e]
  · simp [uadd, e]

theorem uadd_panics {a b : BitVec w} (h : ¬ a.toNat + b.toNat < 2 ^ w) : uadd .on a b = none := by
  simp [uadd, h]

/-! ### `max_arr` -/

theorem maxArrLoopU_eq (m : Checks) (input : List (BitVec w)) (hlen : input.length < 2 ^ w) :
    ∀ (fuel : Nat) (mx i : BitVec w), i.toNat ≤ input.length → input.length - i.toNat < fuel →
      maxArrLoopU m input fuel mx i =
        some ((input.drop i.toNat).foldl (fun max x => if x > max then x else max) mx) := by
  intro fuel
  induction fuel with
  | zero => intro mx i _ h; omega
  | succ fuel ih =>
    intro mx i hi hf
    rw [maxArrLoopU]
    by_cases hlt : i < BitVec.ofNat w input.length
    · have hlt' : i.toNat < input.length := by
        rw [BitVec.lt_def, toNat_ofNat_lt hlen] at hlt; exact hlt
      have h1 : (1 : BitVec w).toNat = 1 := by
        have : 1 < 2 ^ w := by omega
        simpa using Nat.mod_eq_of_lt this
      have hadd := uadd_on (a := i) (b := 1) (by rw [h1]; omega) m
      rw [h1] at hadd
      have hi1 : (BitVec.ofNat w (i.toNat + 1)).toNat = i.toNat + 1 := toNat_ofNat_lt (by omega)
      rw [if_pos hlt, List.getElem?_eq_getElem hlt', hadd]
      simp only [Option.bind_some]
      rw [ih _ _ (by rw [hi1]; omega) (by rw [hi1]; omega), hi1,
        List.drop_eq_getElem_cons hlt', List.foldl_cons]
    · have : input.length ≤ i.toNat := by
        rw [BitVec.lt_def, toNat_ofNat_lt hlen] at hlt; omega
      rw [if_neg hlt, List.drop_eq_nil_of_le this]; rfl

theorem foldl_max_toNat (l : List (BitVec w)) (mx : BitVec w) :
    (l.foldl (fun max x => if x > max then x else max) mx).toNat =
      (l.map BitVec.toNat).foldl (fun max x => if x > max then x else max) mx.toNat := by
  induction l generalizing mx with
  | nil => rfl
  | cons x r ih =>
    rw [List.foldl_cons, ih, List.map_cons, List.foldl_cons]
    congr 1
    by_cases h : mx < x
    · have h' := BitVec.lt_def.1 h
      simp [h, h']
    · have h' : ¬ mx.toNat < x.toNat := fun h' => h (BitVec.lt_def.2 h')
      simp [h, h']

theorem maxArrU_eq (m : Checks) (input : List (BitVec w)) (hlen : input.length < 2 ^ w) :
    maxArrU m input = some (BitVec.ofNat w (maxArr (input.map BitVec.toNat))) := by
  rw [maxArrU, maxArrLoopU_eq m input hlen _ _ _ (by simp) (by simp)]
  congr 1
  apply eq_ofNat_of_toNat
  rw [foldl_max_toNat]
  simp [maxArr]

/-! ### Wrapping -/

theorem alignOffset_mod {o a b : Nat} (h : a ∣ b) : alignOffset (o % b) a = alignOffset o a := by
  unfold alignOffset
  rw [Nat.mod_mod_of_dvd o h]

/-! ### Writer -/

/-- The machine Writer `u` agrees with the mathematical Writer `x` up to overflow. -/
def AgreeMod (u : WriterU w σ) (x : Writer σ) : Prop :=
  u.sink = x.sink ∧ u.offset = BitVec.ofNat w x.offset

/-- The outcome `c` of a machine computation is the outcome `d` of the mathematical one. -/
def Same {α β : Type} (f : α → β) (c : Option (Except ε β) × WriterU w σ)
    (d : Except ε α × Writer σ) : Prop :=
  c.1 = some (d.1.map f) ∧ AgreeMod c.2 d.2

/-- With overflow checks: the same as the mathematical one if that stays below `2 ^ w`, else a panic
before which a prefix of the bytes was delivered. -/
def SameOrPanic {α β : Type} (k : Sink σ ε) (f : α → β) (c : Option (Except ε β) × WriterU w σ)
    (d : Except ε α × Writer σ) : Prop :=
  if d.2.offset < 2 ^ w then Same f c d
  else c.1 = none ∧ k.delivered c.2.sink <+: k.delivered d.2.sink

/-- What rustc guarantees of a type on a target with `w`-bit addresses. -/
def StdVal.Fits (w : Nat) (v : StdVal) : Prop := v.alignment < 2 ^ w ∧ v.size < 2 ^ w

theorem offset_mono_writeStd (k : Sink σ ε) (x : Writer σ) (v : StdVal) :
    x.offset ≤ (x.writeStd k v).2.offset := by
  unfold Writer.writeStd
  dsimp only
  rcases writeZeros k (alignOffset x.offset v.alignment) x.sink with ⟨e | ⟨⟩, s⟩
  · exact Nat.le_refl _
  · dsimp only
    rcases k.writeAll s v.bytes with ⟨e | ⟨⟩, s'⟩ <;> dsimp only <;> omega

theorem offset_mono_seq (k : Sink σ ε) (x : Writer σ) (vs : List StdVal) :
    x.offset ≤ (seqStd k x vs).2.offset := by
  induction vs generalizing x with
  | nil => exact Nat.le_refl _
  | cons v r ih =>
    have h := offset_mono_writeStd k x v
    rw [seqStd]
    rcases hw : x.writeStd k v with ⟨e | o, x'⟩
    · simpa [hw] using h
    · rw [hw] at h
      exact Nat.le_trans h (ih x')

theorem offset_mono_write (k : Sink σ ε) (x : Writer σ) (v : WVal) :
    x.offset ≤ (x.write k v).2.offset := by
  have := offset_mono_seq k x v.leaves
  rw [write_eq_seq]
  rcases h : seqStd k x v.leaves with ⟨e | _, x'⟩ <;> simpa [h] using this

theorem offset_mono_writeRest (k : Sink σ ε) (x : Writer σ) (vs : List WVal) :
    x.offset ≤ (x.writeRest k vs).2.offset := by
  rw [writeRest_eq_seq]
  exact offset_mono_seq k x _

/-! Without overflow checks. -/

theorem writeStd_off (k : Sink σ ε) {u : WriterU w σ} {x : Writer σ} (h : AgreeMod u x) {v : StdVal}
    (hf : v.Fits w) (hp : v.alignment ∣ 2 ^ w ∨ v.alignment = 0) :
    Same (BitVec.ofNat w) (u.writeStd .off k v) (x.writeStd k v) := by
  obtain ⟨hs, ho⟩ := h
  have hpad : alignOffset u.offset.toNat v.alignment = alignOffset x.offset v.alignment := by
    rw [ho, BitVec.toNat_ofNat]
    rcases hp with hp | hp
    · exact alignOffset_mod hp
    · rw [hp]; simp [alignOffset]
  have hplt : alignOffset x.offset v.alignment < 2 ^ w := alignOffset_lt_of hf.1
  unfold WriterU.writeStd Writer.writeStd
  rw [alignOffsetU_eq, toNat_ofNat_lt hf.1, hpad]
  dsimp only
  rw [toNat_ofNat_lt hplt, hs]
  rcases writeZeros k (alignOffset x.offset v.alignment) x.sink with ⟨e | ⟨⟩, s⟩
  · exact ⟨rfl, rfl, ho⟩
  · simp only [uadd]
    have e1 : u.offset + BitVec.ofNat w (alignOffset x.offset v.alignment) =
        BitVec.ofNat w (x.offset + alignOffset x.offset v.alignment) := by
      rw [ho, BitVec.ofNat_add]
    rcases k.writeAll s v.bytes with ⟨e | ⟨⟩, s'⟩
    · exact ⟨rfl, rfl, e1⟩
    · refine ⟨?_, rfl, ?_⟩
      · simp [e1, Except.map]
      · show _ + BitVec.ofNat w v.size = _
        rw [e1]
        exact (BitVec.ofNat_add _ _).symm

theorem write_off (k : Sink σ ε) (v : WVal)
    (hf : ∀ l ∈ v.leaves, l.Fits w ∧ (l.alignment ∣ 2 ^ w ∨ l.alignment = 0)) :
    ∀ {u : WriterU w σ} {x : Writer σ}, AgreeMod u x →
      Same (BitVec.ofNat w) (u.write .off k v) (x.write k v) := by
  induction v using WVal.ind with
  | h1 l =>
    intro u x h
    rw [WriterU.write, Writer.write]
    have := hf l (by simp [WVal.leaves])
    exact writeStd_off k h this.1 this.2
  | h2 xs ih =>
    have hrest : ∀ (ys : List WVal), (∀ y ∈ ys, y ∈ xs) → ∀ {u : WriterU w σ} {x : Writer σ},
        AgreeMod u x → Same id (u.writeRest .off k ys) (x.writeRest k ys) := by
      intro ys
      induction ys with
      | nil => intro _ u x h; rw [WriterU.writeRest, Writer.writeRest]; exact ⟨rfl, h⟩
      | cons y r ihr =>
        intro hm u x h
        rw [WriterU.writeRest, Writer.writeRest]
        obtain ⟨h1, h2⟩ := ih y (hm y (by simp))
          (fun l hl => hf l (leaves_mem_slice (hm y (by simp)) hl)) h
        rcases hx : x.write k y with ⟨e | o, x'⟩ <;> rcases hu : u.write .off k y with ⟨c, u'⟩ <;>
          rw [hx, hu] at h1 h2 <;> dsimp only [Except.map] at h1 h2 <;> subst h1
        · exact ⟨rfl, h2⟩
        · exact ihr (fun z hz => hm z (by simp [hz])) h2
    intro u x h
    cases xs with
    | nil =>
      rw [WriterU.write, Writer.write]
      exact ⟨by simp [Except.map, Writer.len, h.2], h⟩
    | cons y r =>
      rw [WriterU.write, Writer.write]
      obtain ⟨h1, h2⟩ := ih y (by simp)
        (fun l hl => hf l (leaves_mem_slice (by simp) hl)) h
      rcases hx : x.write k y with ⟨e | o, x'⟩ <;> rcases hu : u.write .off k y with ⟨c, u'⟩ <;>
        rw [hx, hu] at h1 h2 <;> dsimp only [Except.map] at h1 h2 <;> subst h1
      · exact ⟨rfl, h2⟩
      · dsimp only
        obtain ⟨h3, h4⟩ := hrest r (fun z hz => by simp [hz]) h2
        rcases hx' : x'.writeRest k r with ⟨e | o', x''⟩ <;>
          rcases hu' : u'.writeRest .off k r with ⟨c', u''⟩ <;>
          rw [hx', hu'] at h3 h4 <;> dsimp only [Except.map] at h3 h4 <;> subst h3
        · exact ⟨rfl, h4⟩
        · exact ⟨rfl, h4⟩

theorem history_off (k : Sink σ ε) (vs : List WVal)
    (hf : ∀ v ∈ vs, ∀ l ∈ v.leaves, l.Fits w ∧ (l.alignment ∣ 2 ^ w ∨ l.alignment = 0)) :
    ∀ {u : WriterU w σ} {x : Writer σ}, AgreeMod u x →
      (u.history .off k vs).1 = some ((x.history k vs).1.map (Except.map (BitVec.ofNat w))) ∧
        AgreeMod (u.history .off k vs).2 (x.history k vs).2 := by
  induction vs with
  | nil => intro u x h; exact ⟨rfl, h⟩
  | cons v r ih =>
    intro u x h
    obtain ⟨h1, h2⟩ := write_off k v (hf v (by simp)) h
    rw [history_cons, WriterU.history]
    rcases hu : u.write .off k v with ⟨c, u'⟩
    rw [hu] at h1 h2
    dsimp only at h1 h2
    subst h1
    dsimp only
    obtain ⟨h3, h4⟩ := ih (fun y hy => hf y (by simp [hy])) h2
    rcases hu' : u'.history .off k r with ⟨c', u''⟩
    rw [hu'] at h3 h4
    dsimp only at h3 h4
    subst h3
    exact ⟨rfl, h4⟩

/-! With overflow checks. -/

theorem delivered_mono_zeros {k : Sink σ ε} (hk : k.Lawful) (n : Nat) (s : σ) :
    k.delivered s <+: k.delivered (writeZeros k n s).2 := by
  induction n generalizing s with
  | zero => exact List.prefix_refl _
  | succ n ih =>
    rw [writeZeros]
    rcases hw : k.writeAll s [0] with ⟨e | ⟨⟩, s'⟩
    · obtain ⟨p, -, hp⟩ := hk.err _ _ _ _ hw
      simp [hp]
    · dsimp only
      have := hk.ok _ _ _ hw
      exact (this ▸ List.prefix_append _ _ : k.delivered s <+: k.delivered s').trans (ih s')

theorem delivered_mono_all {k : Sink σ ε} (hk : k.Lawful) (s : σ) (bs : List Byte) :
    k.delivered s <+: k.delivered (k.writeAll s bs).2 := by
  rcases hw : k.writeAll s bs with ⟨e | ⟨⟩, s'⟩
  · obtain ⟨p, -, hp⟩ := hk.err _ _ _ _ hw
    simp [hp]
  · simp [hk.ok _ _ _ hw]

theorem delivered_mono_std {k : Sink σ ε} (hk : k.Lawful) (x : Writer σ) (v : StdVal) :
    k.delivered x.sink <+: k.delivered (x.writeStd k v).2.sink := by
  have h := delivered_mono_zeros hk (alignOffset x.offset v.alignment) x.sink
  unfold Writer.writeStd
  dsimp only
  rcases hz : writeZeros k (alignOffset x.offset v.alignment) x.sink with ⟨e | ⟨⟩, s⟩
  · simpa [hz] using h
  · rw [hz] at h
    have h2 := delivered_mono_all hk s v.bytes
    dsimp only
    rcases hw : k.writeAll s v.bytes with ⟨e | ⟨⟩, s'⟩ <;> rw [hw] at h2 <;> exact h.trans h2

theorem delivered_mono_seq {k : Sink σ ε} (hk : k.Lawful) (x : Writer σ) (vs : List StdVal) :
    k.delivered x.sink <+: k.delivered (seqStd k x vs).2.sink := by
  induction vs generalizing x with
  | nil => exact List.prefix_refl _
  | cons v r ih =>
    have h := delivered_mono_std hk x v
    rw [seqStd]
    rcases hw : x.writeStd k v with ⟨e | o, x'⟩
    · simpa [hw] using h
    · rw [hw] at h
      exact h.trans (ih x')

theorem delivered_mono_write {k : Sink σ ε} (hk : k.Lawful) (x : Writer σ) (v : WVal) :
    k.delivered x.sink <+: k.delivered (x.write k v).2.sink := by
  have := delivered_mono_seq hk x v.leaves
  rw [write_eq_seq]
  rcases h : seqStd k x v.leaves with ⟨e | _, x'⟩ <;> simpa [h] using this

theorem delivered_mono_rest {k : Sink σ ε} (hk : k.Lawful) (x : Writer σ) (vs : List WVal) :
    k.delivered x.sink <+: k.delivered (x.writeRest k vs).2.sink := by
  rw [writeRest_eq_seq]
  exact delivered_mono_seq hk x _

theorem delivered_mono_history {k : Sink σ ε} (hk : k.Lawful) (x : Writer σ) (vs : List WVal) :
    k.delivered x.sink <+: k.delivered (x.history k vs).2.sink := by
  induction vs generalizing x with
  | nil => exact List.prefix_refl _
  | cons v r ih =>
    rw [history_cons]
    exact (delivered_mono_write hk x v).trans (ih _)

theorem offset_mono_history (k : Sink σ ε) (x : Writer σ) (vs : List WVal) :
    x.offset ≤ (x.history k vs).2.offset := by
  induction vs generalizing x with
  | nil => exact Nat.le_refl _
  | cons v r ih =>
    rw [history_cons]
    exact Nat.le_trans (offset_mono_write k x v) (ih _)

theorem writeStd_on {k : Sink σ ε} (hk : k.Lawful) {u : WriterU w σ} {x : Writer σ}
    (h : AgreeMod u x) (hx : x.offset < 2 ^ w) {v : StdVal} (hf : v.Fits w) :
    SameOrPanic k (BitVec.ofNat w) (u.writeStd .on k v) (x.writeStd k v) := by
  obtain ⟨hs, ho⟩ := h
  have hon : u.offset.toNat = x.offset := by rw [ho, toNat_ofNat_lt hx]
  have hplt : alignOffset x.offset v.alignment < 2 ^ w := alignOffset_lt_of hf.1
  unfold WriterU.writeStd Writer.writeStd
  rw [alignOffsetU_eq, toNat_ofNat_lt hf.1, hon]
  dsimp only
  rw [toNat_ofNat_lt hplt, hs]
  rcases writeZeros k (alignOffset x.offset v.alignment) x.sink with ⟨e | ⟨⟩, s⟩
  · rw [SameOrPanic, if_pos hx]
    exact ⟨rfl, rfl, ho⟩
  · have hda := delivered_mono_all hk s v.bytes
    by_cases hlt : x.offset + alignOffset x.offset v.alignment < 2 ^ w
    · have hadd := uadd_on (a := u.offset) (b := BitVec.ofNat w (alignOffset x.offset v.alignment))
        (by rw [hon, toNat_ofNat_lt hplt]; exact hlt) .on
      rw [hon, toNat_ofNat_lt hplt] at hadd
      simp only [hadd]
      rcases k.writeAll s v.bytes with ⟨e | ⟨⟩, s'⟩
      · rw [SameOrPanic, if_pos hlt]
        exact ⟨rfl, rfl, rfl⟩
      · dsimp only
        by_cases hlt2 : x.offset + alignOffset x.offset v.alignment + v.size < 2 ^ w
        · have hadd2 := uadd_on
            (a := BitVec.ofNat w (x.offset + alignOffset x.offset v.alignment))
            (b := BitVec.ofNat w v.size)
            (by rw [toNat_ofNat_lt hlt, toNat_ofNat_lt hf.2]; exact hlt2) .on
          rw [toNat_ofNat_lt hlt, toNat_ofNat_lt hf.2] at hadd2
          rw [hadd2, SameOrPanic, if_pos hlt2]
          exact ⟨rfl, rfl, rfl⟩
        · rw [uadd_panics (by rw [toNat_ofNat_lt hlt, toNat_ofNat_lt hf.2]; exact hlt2),
            SameOrPanic, if_neg hlt2]
          exact ⟨rfl, List.prefix_refl _⟩
    · rw [uadd_panics (by rw [hon, toNat_ofNat_lt hplt]; exact hlt)]
      dsimp only
      rcases hw : k.writeAll s v.bytes with ⟨e | ⟨⟩, s'⟩ <;> rw [hw] at hda
      · rw [SameOrPanic, if_neg hlt]
        exact ⟨rfl, hda⟩
      · rw [SameOrPanic, if_neg (by dsimp only; omega)]
        exact ⟨rfl, hda⟩

theorem write_on {k : Sink σ ε} (hk : k.Lawful) (v : WVal) (hf : ∀ l ∈ v.leaves, l.Fits w) :
    ∀ {u : WriterU w σ} {x : Writer σ}, AgreeMod u x → x.offset < 2 ^ w →
      SameOrPanic k (BitVec.ofNat w) (u.write .on k v) (x.write k v) := by
  induction v using WVal.ind with
  | h1 l =>
    intro u x h hx
    rw [WriterU.write, Writer.write]
    exact writeStd_on hk h hx (hf l (by simp [WVal.leaves]))
  | h2 xs ih =>
    have hrest : ∀ (ys : List WVal), (∀ y ∈ ys, y ∈ xs) → ∀ {u : WriterU w σ} {x : Writer σ},
        AgreeMod u x → x.offset < 2 ^ w →
          SameOrPanic k id (u.writeRest .on k ys) (x.writeRest k ys) := by
      intro ys
      induction ys with
      | nil =>
        intro _ u x h hx
        rw [WriterU.writeRest, Writer.writeRest, SameOrPanic, if_pos hx]
        exact ⟨rfl, h⟩
      | cons y r ihr =>
        intro hm u x h hx
        have h1 := ih y (hm y (by simp))
          (fun l hl => hf l (leaves_mem_slice (hm y (by simp)) hl)) h hx
        have hdm := delivered_mono_rest hk (x.write k y).2 r
        have hom := offset_mono_writeRest k (x.write k y).2 r
        rw [WriterU.writeRest, Writer.writeRest]
        rw [SameOrPanic] at h1
        split at h1
        · rename_i hlt
          obtain ⟨h1, h2⟩ := h1
          rcases hx : x.write k y with ⟨e | o, x'⟩ <;> rcases hu : u.write .on k y with ⟨c, u'⟩ <;>
            rw [hx, hu] at h1 h2 <;> rw [hx] at hlt <;> dsimp only [Except.map] at h1 h2 hlt <;>
            subst h1
          · rw [SameOrPanic, if_pos hlt]; exact ⟨rfl, h2⟩
          · exact ihr (fun z hz => hm z (by simp [hz])) h2 hlt
        · rename_i hnlt
          obtain ⟨h1, h2⟩ := h1
          rcases hx : x.write k y with ⟨e | o, x'⟩ <;> rcases hu : u.write .on k y with ⟨c, u'⟩ <;>
            rw [hx, hu] at h2 <;> rw [hu] at h1 <;> rw [hx] at hnlt hom hdm <;>
            dsimp only at h1 h2 hnlt hom hdm <;> subst h1
          · rw [SameOrPanic, if_neg hnlt]; exact ⟨rfl, h2⟩
          · dsimp only
            rw [SameOrPanic, if_neg (by omega)]
            exact ⟨rfl, h2.trans hdm⟩
    intro u x h hx
    cases xs with
    | nil =>
      rw [WriterU.write, Writer.write, SameOrPanic, if_pos hx]
      exact ⟨by simp [Except.map, Writer.len, h.2], h⟩
    | cons y r =>
      have h1 := ih y (by simp) (fun l hl => hf l (leaves_mem_slice (by simp) hl)) h hx
      have hdm := delivered_mono_rest hk (x.write k y).2 r
      have hom := offset_mono_writeRest k (x.write k y).2 r
      rw [WriterU.write, Writer.write]
      rw [SameOrPanic] at h1
      split at h1
      · rename_i hlt
        obtain ⟨h1, h2⟩ := h1
        rcases hx : x.write k y with ⟨e | o, x'⟩ <;> rcases hu : u.write .on k y with ⟨c, u'⟩ <;>
          rw [hx, hu] at h1 h2 <;> rw [hx] at hlt <;> dsimp only [Except.map] at h1 h2 hlt <;>
          subst h1
        · rw [SameOrPanic, if_pos hlt]; exact ⟨rfl, h2⟩
        · dsimp only
          have h3 := hrest r (fun z hz => by simp [hz]) h2 hlt
          rw [SameOrPanic] at h3
          split at h3
          · rename_i hlt'
            obtain ⟨h3, h4⟩ := h3
            rcases hx' : x'.writeRest k r with ⟨e | o', x''⟩ <;>
              rcases hu' : u'.writeRest .on k r with ⟨c', u''⟩ <;>
              rw [hx', hu'] at h3 h4 <;> rw [hx'] at hlt' <;>
              dsimp only [Except.map] at h3 h4 hlt' <;> subst h3
            · rw [SameOrPanic, if_pos hlt']; exact ⟨rfl, h4⟩
            · rw [SameOrPanic, if_pos hlt']; exact ⟨rfl, h4⟩
          · rename_i hnlt
            obtain ⟨h3, h4⟩ := h3
            rcases hx' : x'.writeRest k r with ⟨e | o', x''⟩ <;>
              rcases hu' : u'.writeRest .on k r with ⟨c', u''⟩ <;>
              rw [hu'] at h3 <;> rw [hx', hu'] at h4 <;> rw [hx'] at hnlt <;>
              dsimp only at h3 h4 hnlt <;> subst h3
            · rw [SameOrPanic, if_neg hnlt]; exact ⟨rfl, h4⟩
            · rw [SameOrPanic, if_neg hnlt]; exact ⟨rfl, h4⟩
      · rename_i hnlt
        obtain ⟨h1, h2⟩ := h1
        rcases hx : x.write k y with ⟨e | o, x'⟩ <;> rcases hu : u.write .on k y with ⟨c, u'⟩ <;>
          rw [hx, hu] at h2 <;> rw [hu] at h1 <;> rw [hx] at hnlt hom hdm <;>
          dsimp only at h1 h2 hnlt hom hdm <;> subst h1
        · rw [SameOrPanic, if_neg hnlt]; exact ⟨rfl, h2⟩
        · dsimp only
          rcases hx' : x'.writeRest k r with ⟨e | o', x''⟩ <;> rw [hx'] at hom hdm <;>
            dsimp only at hom hdm ⊢ <;> rw [SameOrPanic, if_neg (by dsimp only; omega)] <;>
            exact ⟨rfl, h2.trans hdm⟩

theorem history_on {k : Sink σ ε} (hk : k.Lawful) (vs : List WVal)
    (hf : ∀ v ∈ vs, ∀ l ∈ v.leaves, l.Fits w) :
    ∀ {u : WriterU w σ} {x : Writer σ}, AgreeMod u x → x.offset < 2 ^ w →
      if (x.history k vs).2.offset < 2 ^ w then
        (u.history .on k vs).1 = some ((x.history k vs).1.map (Except.map (BitVec.ofNat w))) ∧
          AgreeMod (u.history .on k vs).2 (x.history k vs).2
      else (u.history .on k vs).1 = none ∧
        k.delivered (u.history .on k vs).2.sink <+: k.delivered (x.history k vs).2.sink := by
  induction vs with
  | nil =>
    intro u x h hx
    simp only [Writer.history, WriterU.history, if_pos hx, List.map_nil, true_and]
    exact h
  | cons v r ih =>
    intro u x h hx
    have h1 := write_on hk v (hf v (by simp)) h hx
    have hom := offset_mono_history k (x.write k v).2 r
    have hdm := delivered_mono_history hk (x.write k v).2 r
    rw [history_cons, WriterU.history]
    rw [SameOrPanic] at h1
    split at h1
    · rename_i hlt
      obtain ⟨h1, h2⟩ := h1
      rcases hu : u.write .on k v with ⟨c, u'⟩
      rw [hu] at h1 h2
      dsimp only at h1 h2
      subst h1
      dsimp only
      have h3 := ih (fun y hy => hf y (by simp [hy])) h2 hlt
      split at h3
      · rename_i hlt'
        rw [if_pos hlt']
        obtain ⟨h3, h4⟩ := h3
        rcases hu' : u'.history .on k r with ⟨c', u''⟩
        rw [hu'] at h3 h4
        dsimp only at h3 h4
        subst h3
        exact ⟨rfl, h4⟩
      · rename_i hnlt'
        rw [if_neg hnlt']
        obtain ⟨h3, h4⟩ := h3
        rcases hu' : u'.history .on k r with ⟨c', u''⟩
        rw [hu'] at h3 h4
        dsimp only at h3 h4
        subst h3
        exact ⟨rfl, h4⟩
    · rename_i hnlt
      obtain ⟨h1, h2⟩ := h1
      rcases hu : u.write .on k v with ⟨c, u'⟩
      rw [hu] at h1 h2
      dsimp only at h1 h2
      subst h1
      dsimp only
      rw [if_neg (by omega)]
      exact ⟨rfl, h2.trans hdm⟩

/-! ### Sizer -/

theorem sizer_add_mono (tg : Target) (x : Sizer) (i : Impl) :
    x.offset ≤ (x.add tg i).2.offset := by
  simp only [Sizer.add]; omega

theorem sizer_addAll_mono (tg : Target) (x : Sizer) (is : List Impl) :
    x.offset ≤ (x.addAll tg is).2.offset := by
  induction is generalizing x with
  | nil => exact Nat.le_refl _
  | cons i r ih => exact Nat.le_trans (sizer_add_mono tg x i) (ih _)

/-- What rustc guarantees of a type on a target with `w`-bit addresses. -/
def Impl.Fits (w : Nat) (tg : Target) (i : Impl) : Prop :=
  i.alignment < 2 ^ w ∧ i.out.size tg < 2 ^ w

theorem sizerAdd_on (tg : Target) {u : SizerU w} {x : Sizer} (h : u.offset = BitVec.ofNat w x.offset)
    (hx : x.offset < 2 ^ w) {i : Impl} (hf : i.Fits w tg) :
    u.add .on tg i =
      if (x.add tg i).2.offset < 2 ^ w then
        some (BitVec.ofNat w (x.add tg i).1, { offset := BitVec.ofNat w (x.add tg i).2.offset })
      else none := by
  have hon : u.offset.toNat = x.offset := by rw [h, toNat_ofNat_lt hx]
  have hplt : alignOffset x.offset i.alignment < 2 ^ w := alignOffset_lt_of hf.1
  unfold SizerU.add Sizer.add
  dsimp only
  rw [alignOffsetU_eq, toNat_ofNat_lt hf.1, hon, Option.bind_some]
  by_cases hlt : x.offset + alignOffset x.offset i.alignment < 2 ^ w
  · have hadd := uadd_on (a := u.offset) (b := BitVec.ofNat w (alignOffset x.offset i.alignment))
      (by rw [hon, toNat_ofNat_lt hplt]; exact hlt) .on
    rw [hon, toNat_ofNat_lt hplt] at hadd
    rw [hadd, Option.bind_some]
    by_cases hlt2 : x.offset + alignOffset x.offset i.alignment + i.out.size tg < 2 ^ w
    · have hadd2 := uadd_on
        (a := BitVec.ofNat w (x.offset + alignOffset x.offset i.alignment))
        (b := BitVec.ofNat w (i.out.size tg))
        (by rw [toNat_ofNat_lt hlt, toNat_ofNat_lt hf.2]; exact hlt2) .on
      rw [toNat_ofNat_lt hlt, toNat_ofNat_lt hf.2] at hadd2
      rw [hadd2, if_pos hlt2, Option.map_some]
    · rw [uadd_panics (by rw [toNat_ofNat_lt hlt, toNat_ofNat_lt hf.2]; exact hlt2), if_neg hlt2,
        Option.map_none]
  · rw [uadd_panics (by rw [hon, toNat_ofNat_lt hplt]; exact hlt), if_neg (by omega),
      Option.bind_none]

theorem sizerAddAll_on (tg : Target) (is : List Impl) (hf : ∀ i ∈ is, i.Fits w tg) :
    ∀ {u : SizerU w} {x : Sizer}, u.offset = BitVec.ofNat w x.offset → x.offset < 2 ^ w →
      u.addAll .on tg is =
        if (x.addAll tg is).2.offset < 2 ^ w then
          some ((x.addAll tg is).1.map (BitVec.ofNat w),
            { offset := BitVec.ofNat w (x.addAll tg is).2.offset })
        else none := by
  induction is with
  | nil =>
    intro u x h hx
    simp only [SizerU.addAll, Sizer.addAll, if_pos hx, List.map_nil]
    cases u; simp_all
  | cons i r ih =>
    intro u x h hx
    rw [SizerU.addAll, sizerAdd_on tg h hx (hf i (by simp))]
    have hm := sizer_addAll_mono tg (x.add tg i).2 r
    have e : x.addAll tg (i :: r) =
      ((x.add tg i).1 :: ((x.add tg i).2.addAll tg r).1, ((x.add tg i).2.addAll tg r).2) := rfl
    rw [e]
    by_cases hlt : (x.add tg i).2.offset < 2 ^ w
    · rw [if_pos hlt, Option.bind_some]
      dsimp only
      rw [ih (fun j hj => hf j (by simp [hj]))
        (u := { offset := BitVec.ofNat w (x.add tg i).2.offset }) (x := (x.add tg i).2) rfl hlt]
      split <;> simp
    · rw [if_neg hlt, if_neg (by dsimp only; omega), Option.bind_none]

theorem sizerAdd_off (tg : Target) {u : SizerU w} {x : Sizer}
    (h : u.offset = BitVec.ofNat w x.offset) {i : Impl} (hf : i.Fits w tg)
    (hp : i.alignment ∣ 2 ^ w ∨ i.alignment = 0) :
    u.add .off tg i =
      some (BitVec.ofNat w (x.add tg i).1, { offset := BitVec.ofNat w (x.add tg i).2.offset }) := by
  have hpad : alignOffset u.offset.toNat i.alignment = alignOffset x.offset i.alignment := by
    rw [h, BitVec.toNat_ofNat]
    rcases hp with hp | hp
    · exact alignOffset_mod hp
    · rw [hp]; simp [alignOffset]
  unfold SizerU.add Sizer.add
  dsimp only
  rw [alignOffsetU_eq, toNat_ofNat_lt hf.1, hpad, h]
  simp [uadd, BitVec.ofNat_add]

theorem sizerAddAll_off (tg : Target) (is : List Impl)
    (hf : ∀ i ∈ is, i.Fits w tg ∧ (i.alignment ∣ 2 ^ w ∨ i.alignment = 0)) :
    ∀ {u : SizerU w} {x : Sizer}, u.offset = BitVec.ofNat w x.offset →
      u.addAll .off tg is =
        some ((x.addAll tg is).1.map (BitVec.ofNat w),
          { offset := BitVec.ofNat w (x.addAll tg is).2.offset }) := by
  induction is with
  | nil =>
    intro u x h
    simp only [SizerU.addAll, Sizer.addAll, List.map_nil]
    cases u; simp_all
  | cons i r ih =>
    intro u x h
    have hi := hf i (by simp)
    rw [SizerU.addAll, sizerAdd_off tg h hi.1 hi.2, Option.bind_some]
    dsimp only
    rw [ih (fun j hj => hf j (by simp [hj]))
      (u := { offset := BitVec.ofNat w (x.add tg i).2.offset }) (x := (x.add tg i).2) rfl]
    rfl

/-! ### Overflow checks do not change a computation that does not overflow -/

theorem uadd_off {a b c : BitVec w} (h : uadd .on a b = some c) : uadd .off a b = some c := by
  simp only [uadd] at h ⊢
  split at h
  · exact h
  · simp at h

theorem alignOffsetU_mode (m m' : Checks) (o a : BitVec w) :
    alignOffsetU m o a = alignOffsetU m' o a := by
  rw [alignOffsetU_eq, alignOffsetU_eq]

theorem writeStd_mode (k : Sink σ ε) (u : WriterU w σ) (v : StdVal)
    (h : (u.writeStd .on k v).1 ≠ none) : u.writeStd .off k v = u.writeStd .on k v := by
  unfold WriterU.writeStd at h ⊢
  rw [alignOffsetU_mode .off .on]
  split
  · rfl
  · rename_i p hp
    rw [hp] at h
    dsimp only at h
    split
    · rfl
    · rename_i s hs
      rw [hs] at h
      dsimp only at h
      split at h
      · simp at h
      · rename_i o ho
        rw [uadd_off ho]
        dsimp only
        split
        · rfl
        · rename_i s' hs'
          rw [hs'] at h
          dsimp only at h
          split at h
          · simp at h
          · rename_i o' ho'
            rw [uadd_off ho']

theorem write_mode (k : Sink σ ε) (v : WVal) :
    ∀ u : WriterU w σ, (u.write .on k v).1 ≠ none → u.write .off k v = u.write .on k v := by
  induction v using WVal.ind with
  | h1 l =>
    intro u h
    rw [WriterU.write] at h ⊢
    rw [WriterU.write]
    exact writeStd_mode k u l h
  | h2 xs ih =>
    have hrest : ∀ (ys : List WVal), (∀ y ∈ ys, y ∈ xs) → ∀ u : WriterU w σ,
        (u.writeRest .on k ys).1 ≠ none → u.writeRest .off k ys = u.writeRest .on k ys := by
      intro ys
      induction ys with
      | nil => intro _ u h; rw [WriterU.writeRest, WriterU.writeRest]
      | cons y r ihr =>
        intro hm u h
        rw [WriterU.writeRest] at h ⊢
        rw [WriterU.writeRest]
        rcases hu : u.write .on k y with ⟨_ | e | o, u'⟩
        · simp [hu] at h
        · rw [ih y (hm y (by simp)) u (by simp [hu]), hu]
        · rw [ih y (hm y (by simp)) u (by simp [hu]), hu]
          rw [hu] at h
          exact ihr (fun z hz => hm z (by simp [hz])) u' h
    intro u h
    cases xs with
    | nil => rw [WriterU.write, WriterU.write]
    | cons y r =>
      rw [WriterU.write] at h ⊢
      rw [WriterU.write]
      rcases hu : u.write .on k y with ⟨_ | e | o, u'⟩
      · simp [hu] at h
      · rw [ih y (by simp) u (by simp [hu]), hu]
      · rw [ih y (by simp) u (by simp [hu]), hu]
        rw [hu] at h
        dsimp only at h ⊢
        rw [hrest r (fun z hz => by simp [hz]) u']
        intro hn
        rcases hu' : u'.writeRest .on k r with ⟨c, u''⟩
        rw [hu'] at hn
        dsimp only at hn
        subst hn
        simp [hu'] at h

theorem history_mode (k : Sink σ ε) (vs : List WVal) :
    ∀ u : WriterU w σ, (u.history .on k vs).1 ≠ none → u.history .off k vs = u.history .on k vs := by
  induction vs with
  | nil => intro u _; rfl
  | cons v r ih =>
    intro u h
    rw [WriterU.history] at h ⊢
    rw [WriterU.history]
    rcases hu : u.write .on k v with ⟨_ | c, u'⟩
    · simp [hu] at h
    · rw [write_mode k v u (by simp [hu]), hu]
      rw [hu] at h
      dsimp only at h ⊢
      rw [ih u']
      intro hn
      rcases hu' : u'.history .on k r with ⟨c, u''⟩
      rw [hu'] at hn
      dsimp only at hn
      subst hn
      simp [hu'] at h

theorem sizerAddAll_mode (tg : Target) (is : List Impl) :
    ∀ (u : SizerU w) {r}, u.addAll .on tg is = some r → u.addAll .off tg is = some r := by
  have hadd : ∀ (u : SizerU w) (i : Impl) {r}, u.add .on tg i = some r → u.add .off tg i = some r := by
    intro u i r h
    simp only [SizerU.add, alignOffsetU_eq, Option.bind_some, Option.bind_eq_some_iff,
      Option.map_eq_some_iff] at h ⊢
    obtain ⟨o, h1, o', h2, rfl⟩ := h
    exact ⟨o, uadd_off h1, o', uadd_off h2, rfl⟩
  induction is with
  | nil => intro u r h; exact h
  | cons i rest ih =>
    intro u r h
    rw [SizerU.addAll] at h ⊢
    simp only [Option.bind_eq_some_iff, Option.map_eq_some_iff] at h ⊢
    obtain ⟨⟨o, u'⟩, h1, ⟨os, u''⟩, h2, rfl⟩ := h
    exact ⟨⟨o, u'⟩, hadd u i h1, ⟨os, u''⟩, ih u' h2, rfl⟩

/-! ### Constants -/

/-- The fields' types exist on a target with `w`-bit addresses. -/
def FieldsFit (w : Nat) (tg : Target) (fs : List (String × Impl)) : Prop :=
  fs.length + 1 < 2 ^ w ∧ ∀ f ∈ fs, f.2.Fits w tg

theorem evalArgsU_alignments (m : Checks) (tg : Target) (call : String → Option (BitVec w))
    (fs : List (String × Impl)) :
    CExpr.evalArgsU m tg call (fs.map fun f => .alignmentOf f.2) =
      some (fs.map fun f => BitVec.ofNat w f.2.alignment) := by
  induction fs with
  | nil => rfl
  | cons f r ih => simp [CExpr.evalArgsU, CExpr.evalWithU, ih]

theorem structAl_lt {l : Layout} {tg : Target} {fs : List (String × Impl)} (h16 : 16 < 2 ^ w)
    (hf : FieldsFit w tg fs) : structAl l fs < 2 ^ w := by
  have hm : structAl l fs ∈ l.minStructAlignment :: fs.map fun f => f.2.alignment :=
    maxArr_mem (by simp)
  rcases List.mem_cons.1 hm with h | h
  · rw [h]; cases l <;> simp [Layout.minStructAlignment] <;> omega
  · obtain ⟨f, hfm, he⟩ := List.mem_map.1 h
    rw [← he]; exact (hf.2 f hfm).1

theorem evalU_structAlignment (m : Checks) (tg : Target) (call : String → Option (BitVec w))
    (l : Layout) (fs : List (String × Impl)) (h16 : 16 < 2 ^ w) (hf : FieldsFit w tg fs) :
    (structAlignment l fs).evalWithU m tg call = some (BitVec.ofNat w (structAl l fs)) := by
  simp only [structAlignment, CExpr.evalWithU, CExpr.evalArgsU, evalArgsU_alignments,
    Option.map_some, Option.bind_some]
  rw [maxArrU_eq _ _ (by simpa using hf.1)]
  congr 3
  rw [List.map_cons, List.map_map]
  congr 1
  · rw [toNat_ofNat_lt]
    cases l <;> simp [Layout.minStructAlignment] <;> omega
  · apply List.map_congr_left
    intro f hfm
    exact toNat_ofNat_lt (hf.2 f hfm).1

theorem offs_mono {tg : Target} {sal : Nat} {fs : List (String × Impl)} {j k : Nat} (hjk : j ≤ k)
    (hk : k ≤ fs.length) : offs tg sal fs j ≤ offs tg sal fs k := by
  induction hjk with
  | refl => exact Nat.le_refl _
  | step h ih =>
    rename_i k
    have := ih (by omega)
    rw [offs_succ (by omega)]
    omega

theorem evalU_offExpr {m : Checks} {tg : Target} {call : String → Option (BitVec w)} {l : Layout}
    {name : String} {fs : List (String × Impl)} {sal : Nat} {k : Nat} (hk : k ≤ fs.length)
    (hf : FieldsFit w tg fs) (hsz : offs tg sal fs fs.length < 2 ^ w)
    (hc : ∀ j, j < k → call (padFnName l name j) = some (BitVec.ofNat w (padAt tg sal fs j))) :
    (offExpr fs (padFnNames l name fs.length) k).evalWithU m tg call =
      some (BitVec.ofNat w (offs tg sal fs k)) := by
  induction k with
  | zero => rfl
  | succ k ih =>
    have h1 : k < fs.length := by omega
    have h2 := ih (by omega) fun j hj => hc j (by omega)
    have hle := offs_mono (tg := tg) (sal := sal) (fs := fs) (j := k + 1) (k := fs.length)
      (by omega) (Nat.le_refl _)
    rw [offs_succ h1] at hle ⊢
    have hfit := (hf.2 fs[k] (List.getElem_mem h1)).2
    have e1 : (BitVec.ofNat w (offs tg sal fs k)).toNat = offs tg sal fs k :=
      toNat_ofNat_lt (by omega)
    have e2 : (BitVec.ofNat w (fs[k].2.out.size tg)).toNat = fs[k].2.out.size tg :=
      toNat_ofNat_lt hfit
    have e3 : (BitVec.ofNat w (padAt tg sal fs k)).toNat = padAt tg sal fs k :=
      toNat_ofNat_lt (by omega)
    have a1 := uadd_on (a := BitVec.ofNat w (offs tg sal fs k))
      (b := BitVec.ofNat w (fs[k].2.out.size tg)) (by rw [e1, e2]; omega) m
    rw [e1, e2] at a1
    have e4 : (BitVec.ofNat w (offs tg sal fs k + fs[k].2.out.size tg)).toNat =
        offs tg sal fs k + fs[k].2.out.size tg := toNat_ofNat_lt (by omega)
    have a2 := uadd_on (a := BitVec.ofNat w (offs tg sal fs k + fs[k].2.out.size tg))
      (b := BitVec.ofNat w (padAt tg sal fs k)) (by rw [e4, e3]; omega) m
    rw [e4, e3] at a2
    have h3 := hc k (by omega)
    have hp : (padFnNames l name fs.length)[k]? = some (padFnName l name k) := by
      simp [padFnNames, h1]
    simp only [offExpr, List.getElem?_eq_getElem h1, hp, CExpr.evalWithU, h2, h3, Option.bind_some,
      a1, a2]

theorem evalFnU_pad {m : Checks} {tg : Target} {l : Layout} {name : String}
    {fs : List (String × Impl)} {fns : List (String × CExpr Impl)} (h16 : 16 < 2 ^ w)
    (hf : FieldsFit w tg fs) (hsz : offs tg (structAl l fs) fs fs.length < 2 ^ w)
    (hl : ∀ i (h : i < fs.length), fns.lookup (padFnName l name i) =
      some (padBody l fs (padFnNames l name fs.length) i h))
    {i d : Nat} (hi : i < fs.length) (hd : i < d) :
    evalFnU m tg fns d (padFnName l name i) =
      some (BitVec.ofNat w (padAt tg (structAl l fs) fs i)) := by
  induction i using Nat.strongRecOn generalizing d with
  | _ i ih =>
    cases d with
    | zero => omega
    | succ d =>
      rw [evalFnU, hl i hi]
      have hle := offs_mono (tg := tg) (sal := structAl l fs) (fs := fs) (j := i + 1)
        (k := fs.length) (by omega) (Nat.le_refl _)
      rw [offs_succ hi] at hle
      have hfit := (hf.2 fs[i] (List.getElem_mem hi)).2
      have e1 : (BitVec.ofNat w (offs tg (structAl l fs) fs i)).toNat =
        offs tg (structAl l fs) fs i := toNat_ofNat_lt (by omega)
      have e2 : (BitVec.ofNat w (fs[i].2.out.size tg)).toNat = fs[i].2.out.size tg :=
        toNat_ofNat_lt hfit
      have a1 := uadd_on (a := BitVec.ofNat w (offs tg (structAl l fs) fs i))
        (b := BitVec.ofNat w (fs[i].2.out.size tg)) (by rw [e1, e2]; omega) m
      rw [e1, e2] at a1
      have e4 : (BitVec.ofNat w (offs tg (structAl l fs) fs i + fs[i].2.out.size tg)).toNat =
        offs tg (structAl l fs) fs i + fs[i].2.out.size tg := toNat_ofNat_lt (by omega)
      simp only [Option.bind_some, padBody, CExpr.evalWithU]
      rw [evalU_offExpr (sal := structAl l fs) (by omega) hf hsz
        (fun j hj => ih j hj (by omega) (by omega))]
      simp only [Option.bind_some, padAt, List.getElem?_eq_getElem hi, nextAl_drop, a1]
      cases h : fs[i + 1]? with
      | none =>
        simp only [evalU_structAlignment m tg _ l fs h16 hf, Option.bind_some, alignOffsetU_eq, e4,
          toNat_ofNat_lt (structAl_lt (l := l) h16 hf)]
      | some g =>
        have hg := (hf.2 g (List.mem_of_getElem? h)).1
        simp only [CExpr.evalWithU, Option.bind_some, alignOffsetU_eq, e4, toNat_ofNat_lt hg]

end Crevice
