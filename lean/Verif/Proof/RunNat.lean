import Verif.Proof.RunLink
/-
The machine-word Writer against the one with natural numbers when nothing overflows, for arbitrary sinks.
-/
namespace Crevice
variable {w : Nat} {σ ε : Type}

theorem writeStd_fits (m : Checks) (k : Sink σ ε) {u : WriterU w σ} {x : Writer σ} (h : AgreeMod u x) {v : StdVal}
    (hf : v.Fits w) (hfin : (x.writeStd k v).2.offset < 2 ^ w) :
    Same (BitVec.ofNat w) (u.writeStd m k v) (x.writeStd k v) := by
  obtain ⟨hs, ho⟩ := h
  have hx : x.offset < 2 ^ w := Nat.lt_of_le_of_lt (offset_mono_writeStd k x v) hfin
  have hon : u.offset.toNat = x.offset := by rw [ho, toNat_ofNat_lt hx]
  have hplt : alignOffset x.offset v.alignment < 2 ^ w := alignOffset_lt_of hf.1
  unfold WriterU.writeStd
  unfold Writer.writeStd at hfin ⊢
  rw [alignOffsetU_eq, toNat_ofNat_lt hf.1, hon]
  dsimp only at hfin ⊢
  rw [toNat_ofNat_lt hplt, hs]
  rcases hz : writeZeros k (alignOffset x.offset v.alignment) x.sink with ⟨e | ⟨⟩, s⟩
  · exact ⟨rfl, rfl, ho⟩
  · rw [hz] at hfin
    dsimp only at hfin ⊢
    have hlt : x.offset + alignOffset x.offset v.alignment < 2 ^ w := by
      rcases hw : k.writeAll s v.bytes with ⟨e | ⟨⟩, s'⟩ <;> rw [hw] at hfin <;> dsimp only at hfin <;> omega
    have hadd := uadd_on (a := u.offset) (b := BitVec.ofNat w (alignOffset x.offset v.alignment))
      (by rw [hon, toNat_ofNat_lt hplt]; exact hlt) m
    rw [hon, toNat_ofNat_lt hplt] at hadd
    simp only [hadd]
    rcases hw : k.writeAll s v.bytes with ⟨e | ⟨⟩, s'⟩
    · exact ⟨rfl, rfl, rfl⟩
    · rw [hw] at hfin
      dsimp only at hfin ⊢
      have hadd2 := uadd_on
        (a := BitVec.ofNat w (x.offset + alignOffset x.offset v.alignment))
        (b := BitVec.ofNat w v.size)
        (by rw [toNat_ofNat_lt hlt, toNat_ofNat_lt hf.2]; exact hfin) m
      rw [toNat_ofNat_lt hlt, toNat_ofNat_lt hf.2] at hadd2
      rw [hadd2]
      exact ⟨rfl, rfl, rfl⟩

theorem write_fits (m : Checks) (k : Sink σ ε) (v : WVal) (hf : ∀ l ∈ v.leaves, l.Fits w) :
    ∀ {u : WriterU w σ} {x : Writer σ}, AgreeMod u x → (x.write k v).2.offset < 2 ^ w →
      Same (BitVec.ofNat w) (u.write m k v) (x.write k v) := by
  induction v using WVal.ind with
  | h1 l =>
    intro u x h hfin
    rw [WriterU.write]
    rw [Writer.write] at hfin ⊢
    exact writeStd_fits m k h (hf l (by simp [WVal.leaves])) hfin
  | h2 xs ih =>
    have hrest : ∀ (ys : List WVal), (∀ y ∈ ys, y ∈ xs) → ∀ {u : WriterU w σ} {x : Writer σ},
        AgreeMod u x → (x.writeRest k ys).2.offset < 2 ^ w →
          Same id (u.writeRest m k ys) (x.writeRest k ys) := by
      intro ys
      induction ys with
      | nil => intro _ u x h _; rw [WriterU.writeRest, Writer.writeRest]; exact ⟨rfl, h⟩
      | cons y r ihr =>
        intro hm u x h hfin
        rw [WriterU.writeRest]
        rw [Writer.writeRest] at hfin ⊢
        have hlt : (x.write k y).2.offset < 2 ^ w := by
          rcases hx : x.write k y with ⟨e | o, x'⟩ <;> rw [hx] at hfin
          · exact hfin
          · exact Nat.lt_of_le_of_lt (offset_mono_writeRest k x' r) hfin
        obtain ⟨h1, h2⟩ := ih y (hm y (by simp))
          (fun l hl => hf l (leaves_mem_slice (hm y (by simp)) hl)) h hlt
        rcases hx : x.write k y with ⟨e | o, x'⟩ <;> rcases hu : u.write m k y with ⟨c, u'⟩ <;>
          rw [hx, hu] at h1 h2 <;> dsimp only [Except.map] at h1 h2 <;> subst h1
        · exact ⟨rfl, h2⟩
        · rw [hx] at hfin
          exact ihr (fun z hz => hm z (by simp [hz])) h2 hfin
    intro u x h hfin
    cases xs with
    | nil =>
      rw [WriterU.write, Writer.write]
      exact ⟨by simp [Except.map, Writer.len, h.2], h⟩
    | cons y r =>
      rw [WriterU.write]
      rw [Writer.write] at hfin ⊢
      have hlt : (x.write k y).2.offset < 2 ^ w := by
        rcases hx : x.write k y with ⟨e | o, x'⟩ <;> rw [hx] at hfin
        · exact hfin
        · refine Nat.lt_of_le_of_lt (offset_mono_writeRest k x' r) ?_
          dsimp only at hfin ⊢
          rcases hr : x'.writeRest k r with ⟨e | o, x''⟩ <;> rw [hr] at hfin <;> exact hfin
      obtain ⟨h1, h2⟩ := ih y (by simp)
        (fun l hl => hf l (leaves_mem_slice (by simp) hl)) h hlt
      rcases hx : x.write k y with ⟨e | o, x'⟩ <;> rcases hu : u.write m k y with ⟨c, u'⟩ <;>
        rw [hx, hu] at h1 h2 <;> dsimp only [Except.map] at h1 h2 <;> subst h1
      · exact ⟨rfl, h2⟩
      · rw [hx] at hfin
        dsimp only at hfin ⊢
        have hlt2 : (x'.writeRest k r).2.offset < 2 ^ w := by
          rcases hr : x'.writeRest k r with ⟨e | o, x''⟩ <;> rw [hr] at hfin <;> exact hfin
        obtain ⟨h3, h4⟩ := hrest r (fun z hz => by simp [hz]) h2 hlt2
        rcases hx' : x'.writeRest k r with ⟨e | o', x''⟩ <;>
          rcases hu' : u'.writeRest m k r with ⟨c', u''⟩ <;>
          rw [hx', hu'] at h3 h4 <;> dsimp only [Except.map] at h3 h4 <;> subst h3
        · exact ⟨rfl, h4⟩
        · exact ⟨rfl, h4⟩

/-- The sink `io::sink()` does the same whatever the type of errors. -/
theorem writeU_null (m : Checks) (ε ε' : Type) (v : WVal) : ∀ u : WriterU w (List Byte),
    (∃ u', u.write m (nullSink ε) v = (none, u') ∧ u.write m (nullSink ε') v = (none, u')) ∨
      ∃ o u', u.write m (nullSink ε) v = (some (.ok o), u') ∧ u.write m (nullSink ε') v = (some (.ok o), u') := by
  have hz : ∀ (ε : Type) (n : Nat) (s : List Byte), writeZeros (nullSink ε) n s =
      (.ok (), s ++ List.replicate n 0) := by
    intro ε n
    induction n with
    | zero => intro s; simp [writeZeros]
    | succ n ih =>
      intro s
      simp only [writeZeros, nullSink]
      have := ih (s ++ [0])
      simp only [nullSink] at this
      rw [this]
      simp [List.replicate_succ]
  induction v using WVal.ind with
  | h1 x =>
    intro u
    simp only [WriterU.write, WriterU.writeStd]
    cases alignOffsetU m u.offset (BitVec.ofNat w x.alignment) with
    | none => exact .inl ⟨_, rfl, rfl⟩
    | some p =>
      simp only [hz]
      cases uadd m u.offset p with
      | none => exact .inl ⟨_, rfl, rfl⟩
      | some o =>
        simp only [nullSink]
        cases uadd m o (BitVec.ofNat w x.size) with
        | none => exact .inl ⟨_, rfl, rfl⟩
        | some o' => exact .inr ⟨_, _, rfl, rfl⟩
  | h2 xs ih =>
    have hrest : ∀ (ys : List WVal), (∀ y ∈ ys, y ∈ xs) → ∀ u : WriterU w (List Byte),
        (∃ u', u.writeRest m (nullSink ε) ys = (none, u') ∧ u.writeRest m (nullSink ε') ys = (none, u')) ∨
        ∃ u', u.writeRest m (nullSink ε) ys = (some (.ok ()), u') ∧ u.writeRest m (nullSink ε') ys = (some (.ok ()), u') := by
      intro ys
      induction ys with
      | nil => intro _ u; exact .inr ⟨u, by simp [WriterU.writeRest], by simp [WriterU.writeRest]⟩
      | cons y ys ihy =>
        intro hys u
        rw [WriterU.writeRest, WriterU.writeRest]
        rcases ih y (hys y List.mem_cons_self) u with ⟨u', h1, h2⟩ | ⟨o, u', h1, h2⟩
        · rw [h1, h2]; exact .inl ⟨_, rfl, rfl⟩
        · rw [h1, h2]; exact ihy (fun z hz => hys z (List.mem_cons_of_mem _ hz)) u'
    intro u
    cases xs with
    | nil => exact .inr ⟨_, u, by rw [WriterU.write], by rw [WriterU.write]⟩
    | cons y ys =>
      rw [WriterU.write, WriterU.write]
      rcases ih y List.mem_cons_self u with ⟨u', h1, h2⟩ | ⟨o, u', h1, h2⟩
      · rw [h1, h2]; exact .inl ⟨_, rfl, rfl⟩
      · rw [h1, h2]
        rcases hrest ys (fun z hz => List.mem_cons_of_mem _ hz) u' with ⟨u'', h3, h4⟩ | ⟨u'', h3, h4⟩
        · simp only [h3, h4]; exact .inl ⟨_, rfl, rfl⟩
        · simp only [h3, h4]; exact .inr ⟨_, _, rfl, rfl⟩

end Crevice

namespace RustCode
open Crevice

/-- `stdN_size` in terms of the models: values are not converted; a slice is written to `io::sink()`, so it panics if a
conversion does. -/
theorem sizeArg_eq {S : Setting} (x : Arg S.Conv S.Std) :
    sizeArg x =
      match viewArg x with
      | .panics n => some (BitVec.ofNat _ n)
      | v => if v.panicking then none else v.plain.stdSizeU S.bits (mode S) := by
  match x with
  | .conv c =>
    rw [sizeArg, viewArg]
    cases h : S.convert c with
    | panics => rfl
    | returns d =>
      simp [UVal.panicking, UVal.parts, UVal.plain, WVal.stdSizeU, viewStd, S.convert_ty c d h]
  | .std d => simp [sizeArg, viewArg, UVal.panicking, UVal.parts, UVal.plain, WVal.stdSizeU, viewStd]
  | .slice xs =>
    have hv : viewArg (S := S) (.slice xs) = .slice (viewArgs xs) := by rw [viewArg]
    rw [sizeArg, writeArg_written, hv]
    by_cases hp : (UVal.slice (viewArgs xs)).panicking = true
    · simp only [hp, if_true]
      rcases (WriterU.new S.bits []).write (mode S) (nullSink (Option S.Err)) (UVal.slice (viewArgs xs)).written with
        ⟨_ | e | o, u⟩ <;> rfl
    · have hp' := Bool.eq_false_iff.2 hp
      simp only [hp', UVal.written]
      simp only [Bool.false_eq_true, if_false, UVal.plain, WVal.stdSizeU]
      rcases writeU_null (w := S.bits) (mode S) (Option S.Err) Unit (.slice (UVal.plainList (viewArgs xs)))
        (WriterU.new S.bits []) with ⟨u, h1, h2⟩ | ⟨o, u, h1, h2⟩ <;> simp only [h1, h2]

/-- The Sizer in terms of the model. -/
theorem sizerAdd_eq {w : Nat} (m : Checks) (tg : Target) (o : BitVec w) (i : Impl) :
    (SizerU.mk o).add m tg i =
      (sizerAdd m o (i.out.size tg) i.alignment).1.map fun r =>
        (r, ⟨(sizerAdd m o (i.out.size tg) i.alignment).2⟩) := by
  unfold SizerU.add sizerAdd
  cases h1 : alignOffsetU m o (BitVec.ofNat w i.alignment) with
  | none => simp only [h1]; rfl
  | some p =>
    cases h2 : uadd m o p with
    | none => simp only [h1, h2, Option.bind_some]; rfl
    | some o' =>
      cases h3 : uadd m o' (BitVec.ofNat w (i.out.size tg)) <;> simp only [h1, h2, h3, Option.bind_some] <;> rfl

theorem callerSink_eq (S : Setting) (delivered : S.Sink → List Byte) :
    callerSink S delivered = (callerPSink S delivered).asSink := by
  unfold callerSink callerPSink PSink.asSink
  congr 1
  funext s bs
  dsimp only
  rcases S.writeAll s bs with ⟨(e | ⟨⟩) | _, s'⟩ <;> rfl

mutual
theorem fits_parts {S : Setting} (hS : Sane S) : ∀ x : Arg S.Conv S.Std, ∀ p ∈ (viewArg x).parts, ∀ v, p = some v → v.Fits S.bits
  | .conv c, p, hp, v, hv => by
    rw [viewArg] at hp
    cases h : S.convert c with
    | returns d =>
      simp only [h, UVal.parts, List.mem_singleton] at hp
      subst hp; cases hv
      exact hS _
    | panics =>
      simp only [h, UVal.parts, List.mem_singleton] at hp
      subst hp; cases hv
  | .std d, p, hp, v, hv => by
    simp only [viewArg, UVal.parts, List.mem_singleton] at hp
    subst hp; cases hv
    exact hS _
  | .slice xs, p, hp, v, hv => by
    rw [viewArg, UVal.parts] at hp
    exact fits_partsList hS xs p hp v hv
theorem fits_partsList {S : Setting} (hS : Sane S) : ∀ xs : List (Arg S.Conv S.Std), ∀ p ∈ UVal.partsList (viewArgs xs), ∀ v, p = some v →
    v.Fits S.bits
  | [], p, hp, v, hv => by simp [viewArgs, UVal.partsList] at hp
  | x :: xs, p, hp, v, hv => by
    rw [viewArgs, UVal.partsList, List.mem_append] at hp
    rcases hp with hp | hp
    · exact fits_parts hS x p hp v hv
    · exact fits_partsList hS xs p hp v hv
end

theorem fits_written {S : Setting} (hS : Sane S) (x : Arg S.Conv S.Std) : ∀ v ∈ (viewArg x).written.leaves, v.Fits S.bits := by
  intro v hv
  rw [written_leaves, UVal.before, List.mem_filterMap] at hv
  obtain ⟨p, hp, hpv⟩ := hv
  exact fits_parts hS x p ((List.takeWhile_sublist _).subset hp) v hpv

/-- A call when nothing overflows. -/
theorem writeArg_nat {S : Setting} (hS : Sane S) (delivered : S.Sink → List Byte) (x : Arg S.Conv S.Std)
    {u : WriterU S.bits S.Sink} {w : Writer S.Sink} (h : AgreeMod u w)
    (hfin : (w.writeU (callerPSink S delivered) (viewArg x)).2.offset < 2 ^ S.bits) :
    writeRes (writeArg (callerSink S delivered) u x).1 =
        outcomeRes (w.writeU (callerPSink S delivered) (viewArg x)).1 ∧
      AgreeMod (writeArg (callerSink S delivered) u x).2 (w.writeU (callerPSink S delivered) (viewArg x)).2 := by
  rw [C59_unwind] at hfin ⊢
  rw [writeArg_written, callerSink_eq]
  obtain ⟨h1, h2⟩ := write_fits (mode S) (callerPSink S delivered).asSink (viewArg x).written (fits_written hS x) h hfin
  rcases hu : u.write (mode S) (callerPSink S delivered).asSink (viewArg x).written with ⟨c, u'⟩
  rcases hw : w.write (callerPSink S delivered).asSink (viewArg x).written with ⟨(_ | e) | o, w'⟩ <;>
    rw [hu, hw] at h1 h2 <;> dsimp only [Except.map] at h1 h2 <;> subst h1
  · by_cases hp : (viewArg x).panicking = true
    · simp only [hp, if_true, cut]; exact ⟨rfl, h2⟩
    · simp only [Bool.eq_false_iff.2 hp, Bool.false_eq_true, if_false]; exact ⟨rfl, h2⟩
  · by_cases hp : (viewArg x).panicking = true
    · simp only [hp, if_true, cut]; exact ⟨rfl, h2⟩
    · simp only [Bool.eq_false_iff.2 hp, Bool.false_eq_true, if_false]; exact ⟨rfl, h2⟩
  · by_cases hp : (viewArg x).panicking = true
    · simp only [hp, if_true, cut, UVal.ends]; exact ⟨rfl, h2⟩
    · simp only [Bool.eq_false_iff.2 hp, Bool.false_eq_true, if_false, UVal.ends]; exact ⟨rfl, h2⟩

end RustCode
