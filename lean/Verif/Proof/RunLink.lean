import Verif.Proof.RunSink
import Verif.Props.C59
import Verif.Proof.Usize
import Verif.Model.Iter
/-
The functions that `Proof/Run140.lean` finds in the program text, in terms of the models.
-/
namespace RustCode
open Crevice

section
variable {w : Nat} {σ ε : Type}

/-- How a call ends that also panics after everything was written. -/
def cut {α β : Type} : Option (Except ε α) × WriterU w σ → Option (Except ε β) × WriterU w σ
  | (none, u) => (none, u)
  | (some (.error e), u) => (some (.error e), u)
  | (some (.ok _), u) => (none, u)

/-- The same without the offset. -/
def forget {α : Type} : Option (Except ε α) × WriterU w σ → Option (Except ε Unit) × WriterU w σ
  | (none, u) => (none, u)
  | (some (.error e), u) => (some (.error e), u)
  | (some (.ok _), u) => (some (.ok ()), u)

theorem writeRestU_append (m : Checks) (k : Crevice.Sink σ ε) (u : WriterU w σ) (xs ys : List WVal) :
    u.writeRest m k (xs ++ ys) =
      match u.writeRest m k xs with
      | (some (.ok ()), u) => u.writeRest m k ys
      | r => r := by
  induction xs generalizing u with
  | nil => simp [WriterU.writeRest]
  | cons x xs ih =>
    rw [List.cons_append, WriterU.writeRest, WriterU.writeRest]
    rcases u.write m k x with ⟨_ | e | o, u'⟩
    · rfl
    · rfl
    · exact ih u'

theorem writeU_slice_forget (m : Checks) (k : Crevice.Sink σ ε) (u : WriterU w σ) (xs : List WVal) :
    forget (u.write m k (.slice xs)) = u.writeRest m k xs := by
  cases xs with
  | nil => simp [WriterU.write, WriterU.writeRest, forget]
  | cons x xs =>
    rw [WriterU.write, WriterU.writeRest]
    rcases u.write m k x with ⟨_ | e | o, u'⟩
    · rfl
    · rfl
    · dsimp only
      rcases u'.writeRest m k xs with ⟨_ | e | o, u''⟩ <;> rfl

/-- A value is written as its leaves are. -/
theorem writeRestU_leaves (m : Checks) (k : Crevice.Sink σ ε) (v : WVal) : ∀ u : WriterU w σ,
    u.writeRest m k (v.leaves.map .std) = forget (u.write m k v) := by
  induction v using WVal.ind with
  | h1 x =>
    intro u
    simp only [WVal.leaves, List.map_cons, List.map_nil, WriterU.writeRest]
    rcases u.write m k (.std x) with ⟨_ | e | o, u'⟩ <;> rfl
  | h2 xs ih =>
    intro u
    rw [writeU_slice_forget, WVal.leaves]
    have : ∀ (ys : List WVal), (∀ y ∈ ys, y ∈ xs) → ∀ u : WriterU w σ,
        u.writeRest m k ((leavesList ys).map .std) = u.writeRest m k ys := by
      intro ys
      induction ys with
      | nil => intro _ u; simp [leavesList]
      | cons y ys ihy =>
        intro hys u
        rw [leavesList_cons, List.map_append, writeRestU_append, ih y (hys y List.mem_cons_self),
          WriterU.writeRest]
        rcases u.write m k y with ⟨_ | e | o, u'⟩
        · rfl
        · rfl
        · exact ihy (fun z hz => hys z (List.mem_cons_of_mem _ hz)) u'
    exact this xs (fun _ h => h) u

theorem cut_forget {α β : Type} (r : Option (Except ε α) × WriterU w σ) : cut (β := β) (forget r) = cut r := by
  rcases r with ⟨_ | e | o, u'⟩ <;> rfl

end

theorem UVal.before_slice_cons (x : UVal) (xs : List UVal) : (UVal.slice (x :: xs)).before =
    if x.panicking then x.before else x.plain.leaves ++ (UVal.slice xs).before := by
  by_cases hx : x.panicking = true
  · rw [if_pos hx]
    simp only [UVal.before, UVal.parts, UVal.partsList]
    rw [UVal.panicking, List.any_eq_true] at hx
    obtain ⟨p, hp, hn⟩ := hx
    congr 1
    have : ∀ (a b : List (Option StdVal)), (∃ p ∈ a, p.isNone = true) →
        (a ++ b).takeWhile Option.isSome = a.takeWhile Option.isSome := by
      intro a b
      induction a with
      | nil => rintro ⟨p, h, -⟩; cases h
      | cons q a ih =>
        rintro ⟨p, h, hp⟩
        rw [List.cons_append, List.takeWhile_cons, List.takeWhile_cons]
        cases q with
        | none => rfl
        | some q =>
          rcases List.mem_cons.1 h with rfl | h
          · cases hp
          · simp [ih ⟨p, h, hp⟩]
    exact this _ _ ⟨p, hp, hn⟩
  · have hx' : x.parts.any Option.isNone = false := Bool.eq_false_iff.2 hx
    rw [if_neg hx, plain_leaves x hx']
    simp only [UVal.before, UVal.parts, UVal.partsList]
    have : ∀ (a b : List (Option StdVal)), a.any Option.isNone = false →
        ((a ++ b).takeWhile Option.isSome).filterMap id =
          (a.takeWhile Option.isSome).filterMap id ++ (b.takeWhile Option.isSome).filterMap id := by
      intro a b
      induction a with
      | nil => intro _; rfl
      | cons q a ih =>
        intro h
        cases q with
        | none => simp at h
        | some q =>
          rw [List.any_cons, Bool.or_eq_false_iff] at h
          simp [ih h.2]
    exact this _ _ hx'

theorem UVal.panicking_cons (x : UVal) (xs : List UVal) : (UVal.slice (x :: xs)).panicking =
    (x.panicking || (UVal.slice xs).panicking) := by
  simp [UVal.panicking, UVal.parts, UVal.partsList]

section
variable {S : Setting} {σ : Type} (k : Crevice.Sink σ (Option S.Err))

mutual
/-- Writing without panics in conversions. -/
theorem writeArg_plain : ∀ (x : Arg S.Conv S.Std) (u : WriterU S.bits σ), (viewArg x).panicking = false →
    writeArg k u x = u.write (mode S) k (viewArg x).plain
  | .conv c, u, h => by
    rw [viewArg] at h ⊢
    rw [writeArg]
    cases hc : S.convert c with
    | returns d => simp only [UVal.plain, WriterU.write]
    | panics => rw [hc] at h; simp [UVal.panicking, UVal.parts] at h
  | .std d, u, h => by rw [viewArg, writeArg, UVal.plain, WriterU.write]
  | .slice [], u, h => by rw [viewArg, viewArgs, writeArg, UVal.plain, UVal.plainList, WriterU.write]
  | .slice (x :: xs), u, h => by
    rw [viewArg, viewArgs] at h ⊢
    rw [UVal.panicking_cons, Bool.or_eq_false_iff] at h
    rw [writeArg, UVal.plain, UVal.plainList, WriterU.write, writeArg_plain x u h.1]
    rcases u.write (mode S) k (viewArg x).plain with ⟨_ | e | o, u'⟩
    · rfl
    · rfl
    · simp only [writeArgs_plain xs u' h.2]
      rcases u'.writeRest (mode S) k (UVal.plainList (viewArgs xs)) with ⟨_ | e | o, u''⟩ <;> rfl
theorem writeArgs_plain : ∀ (xs : List (Arg S.Conv S.Std)) (u : WriterU S.bits σ), (UVal.slice (viewArgs xs)).panicking = false →
    writeArgs k u xs = u.writeRest (mode S) k (UVal.plainList (viewArgs xs))
  | [], u, h => by rw [viewArgs, writeArgs, UVal.plainList, WriterU.writeRest]
  | x :: xs, u, h => by
    rw [viewArgs] at h ⊢
    rw [UVal.panicking_cons, Bool.or_eq_false_iff] at h
    rw [writeArgs, UVal.plainList, WriterU.writeRest, writeArg_plain x u h.1]
    rcases u.write (mode S) k (viewArg x).plain with ⟨_ | e | o, u'⟩
    · rfl
    · rfl
    · exact writeArgs_plain xs u' h.2
end

mutual
/-- Writing when a conversion panics. -/
theorem writeArg_cut : ∀ (x : Arg S.Conv S.Std) (u : WriterU S.bits σ), (viewArg x).panicking = true →
    writeArg k u x = cut (u.writeRest (mode S) k ((viewArg x).before.map .std))
  | .conv c, u, h => by
    rw [viewArg] at h ⊢
    rw [writeArg]
    cases hc : S.convert c with
    | returns d => rw [hc] at h; simp [UVal.panicking, UVal.parts] at h
    | panics => simp [UVal.before, UVal.parts, WriterU.writeRest, cut]
  | .std d, u, h => by simp [viewArg, UVal.panicking, UVal.parts] at h
  | .slice [], u, h => by simp [viewArg, viewArgs, UVal.panicking, UVal.parts, UVal.partsList] at h
  | .slice (x :: xs), u, h => by
    rw [viewArg, viewArgs] at h ⊢
    rw [UVal.panicking_cons, Bool.or_eq_true] at h
    rw [writeArg, UVal.before_slice_cons]
    by_cases hx : (viewArg x).panicking = true
    · rw [if_pos hx, writeArg_cut x u hx]
      rcases u.writeRest (mode S) k ((viewArg x).before.map .std) with ⟨_ | e | o, u'⟩ <;> rfl
    · have hx' := Bool.eq_false_iff.2 hx
      have hxs := h.resolve_left hx
      rw [if_neg hx, List.map_append, writeRestU_append, writeRestU_leaves, writeArg_plain k x u hx']
      rcases u.write (mode S) k (viewArg x).plain with ⟨_ | e | o, u'⟩
      · rfl
      · rfl
      · simp only [forget, writeArgs_cut xs u' hxs]
        rcases u'.writeRest (mode S) k ((UVal.slice (viewArgs xs)).before.map .std) with ⟨_ | e | o, u''⟩ <;> rfl
theorem writeArgs_cut : ∀ (xs : List (Arg S.Conv S.Std)) (u : WriterU S.bits σ), (UVal.slice (viewArgs xs)).panicking = true →
    writeArgs k u xs = cut (u.writeRest (mode S) k ((UVal.slice (viewArgs xs)).before.map .std))
  | [], u, h => by simp [viewArgs, UVal.panicking, UVal.parts, UVal.partsList] at h
  | x :: xs, u, h => by
    rw [viewArgs] at h ⊢
    rw [UVal.panicking_cons, Bool.or_eq_true] at h
    rw [writeArgs, UVal.before_slice_cons]
    by_cases hx : (viewArg x).panicking = true
    · rw [if_pos hx, writeArg_cut x u hx]
      rcases u.writeRest (mode S) k ((viewArg x).before.map .std) with ⟨_ | e | o, u'⟩ <;> rfl
    · have hx' := Bool.eq_false_iff.2 hx
      have hxs := h.resolve_left hx
      rw [if_neg hx, List.map_append, writeRestU_append, writeRestU_leaves, writeArg_plain k x u hx']
      rcases u.write (mode S) k (viewArg x).plain with ⟨_ | e | o, u'⟩
      · rfl
      · rfl
      · simp only [forget, writeArgs_cut xs u' hxs]
end

/-- The result of a call for `x`, given the result of writing `written`. -/
theorem writeArg_written (x : Arg S.Conv S.Std) (u : WriterU S.bits σ) :
    writeArg k u x =
      if (viewArg x).panicking then cut (u.write (mode S) k (viewArg x).written)
      else u.write (mode S) k (viewArg x).written := by
  by_cases h : (viewArg x).panicking = true
  · rw [if_pos h, writeArg_cut k x u h, UVal.written, if_pos h, ← writeU_slice_forget, cut_forget]
  · rw [if_neg h, writeArg_plain k x u (Bool.eq_false_iff.2 h), UVal.written, if_neg h]

end

end RustCode
