import Verif.Model.Buffered
import Verif.Props.C24_C39
import Verif.Props.C17_C20
import Verif.Proof.Sessions
/-
C56: writing through a `BufWriter`.
-/
namespace Crevice

variable {σ ε : Type}

theorem flush_ok {k : Sink σ ε} (hk : k.Lawful) {s s' : Buffered σ}
    (h : s.flush k = (.ok (), s')) :
    k.delivered s'.inner = k.delivered s.inner ++ s.held ∧ s'.held = [] := by
  unfold Buffered.flush at h
  rcases hw : k.writeAll s.inner s.held with ⟨e | u, t⟩
  · simp [hw] at h
  · simp only [hw, Prod.mk.injEq, true_and] at h
    subst h
    exact ⟨hk.ok _ _ _ hw, rfl⟩

theorem flush_error {k : Sink σ ε} (hk : k.Lawful) {s s' : Buffered σ} {e : ε}
    (h : s.flush k = (.error e, s')) :
    k.delivered s'.inner ++ s'.held = k.delivered s.inner ++ s.held := by
  unfold Buffered.flush at h
  rcases hw : k.writeAll s.inner s.held with ⟨e' | u, t⟩
  · simp only [hw, Prod.mk.injEq] at h
    obtain ⟨-, rfl⟩ := h
    obtain ⟨p, ⟨q, hq⟩, hd⟩ := hk.err _ _ _ _ hw
    simp only [hd, List.length_append, Nat.add_sub_cancel_left, List.append_assoc]
    rw [← hq]
    simp
  · simp [hw] at h

/-- C56: a `BufWriter` around a sink that honours the contract of `write_all` honours it as well, if
"received" means received by the inner sink or held back. So everything proved about Writers holds
for it. -/
theorem C56_buffered_lawful {k : Sink σ ε} (hk : k.Lawful) (capacity : Nat) :
    (k.buffered capacity).Lawful := by
  have key : ∀ (s : Buffered σ) (bs : List Byte) (r : Except ε Unit) (s' : Buffered σ),
      (k.buffered capacity).writeAll s bs = (r, s') →
      (r = .ok () → k.delivered s'.inner ++ s'.held = k.delivered s.inner ++ s.held ++ bs) ∧
      (∀ e, r = .error e → ∃ p, p <+: bs ∧
        k.delivered s'.inner ++ s'.held = k.delivered s.inner ++ s.held ++ p) := by
    intro s bs r s' h
    simp only [Sink.buffered] at h
    split at h
    · simp only [Prod.mk.injEq] at h
      obtain ⟨rfl, rfl⟩ := h
      exact ⟨fun _ => by simp, fun e he => by cases he⟩
    · rename_i hlt
      -- the state after the optional flush
      have hmid : ∀ (r₀ : Except ε Unit) (s₀ : Buffered σ),
          (if capacity - s.held.length < bs.length then s.flush k else (.ok (), s)) = (r₀, s₀) →
          k.delivered s₀.inner ++ s₀.held = k.delivered s.inner ++ s.held ∧
          (r₀ = .ok () → capacity ≤ bs.length → s₀.held = [] ∨ bs = []) := by
        intro r₀ s₀ h₀
        split at h₀
        · cases r₀ with
          | error e => exact ⟨flush_error hk h₀, fun h => by cases h⟩
          | ok u =>
            obtain ⟨f1, f2⟩ := flush_ok hk h₀
            exact ⟨by rw [f1, f2, List.append_nil], fun _ _ => .inl f2⟩
        · rename_i hnot
          simp only [Prod.mk.injEq] at h₀
          obtain ⟨rfl, rfl⟩ := h₀
          refine ⟨rfl, fun _ hc => ?_⟩
          by_cases hb : bs = []
          · exact .inr hb
          · left
            have : 0 < bs.length := List.length_pos_iff.2 hb
            have : s.held.length = 0 := by omega
            exact List.length_eq_zero_iff.1 this
      rcases hf : (if capacity - s.held.length < bs.length then s.flush k else (.ok (), s)) with
        ⟨e | u, s₀⟩
      · obtain ⟨m1, -⟩ := hmid _ _ hf
        simp only [hf, Prod.mk.injEq] at h
        obtain ⟨rfl, rfl⟩ := h
        exact ⟨(fun h => by cases h), fun _ _ => ⟨[], List.nil_prefix, by rw [m1, List.append_nil]⟩⟩
      · obtain ⟨m1, m2⟩ := hmid _ _ hf
        simp only [hf] at h
        split at h
        · rename_i hcap
          simp only [Prod.mk.injEq] at h
          obtain ⟨h1, rfl⟩ := h
          have hd : ∀ p : List Byte, p <+: bs →
              k.delivered (k.writeAll s₀.inner bs).2 = k.delivered s₀.inner ++ p →
              k.delivered (k.writeAll s₀.inner bs).2 ++ s₀.held =
                k.delivered s.inner ++ s.held ++ p := by
            intro p hp he
            rw [he, ← m1]
            rcases m2 rfl hcap with h0 | h0
            · rw [h0]; simp
            · rw [h0, List.prefix_nil] at hp
              rw [hp]; simp
          refine ⟨?_, ?_⟩
          · rintro rfl
            exact hd bs (List.prefix_refl _) (hk.ok _ _ _ (Prod.ext h1 rfl))
          · rintro e rfl
            obtain ⟨p, hp, he⟩ := hk.err _ _ e _ (Prod.ext h1 rfl)
            exact ⟨p, hp, hd p hp he⟩
        · simp only [Prod.mk.injEq] at h
          obtain ⟨rfl, rfl⟩ := h
          refine ⟨fun _ => ?_, fun e he => by cases he⟩
          simp only
          rw [← List.append_assoc, m1]
  exact ⟨fun s bs s' h => (key s bs _ s' h).1 rfl, fun s bs e s' h => (key s bs _ s' h).2 e rfl⟩

/-- C56: write a sequence of values through a new `BufWriter` of any capacity; if all writes and the
final flush succeed, the inner sink has received the same bytes, and the writes have returned the same
offsets, as writing directly to any other sink. -/
theorem C56_flushed {k : Sink σ ε} (hk : k.Lawful) (capacity : Nat) {s : σ} {vs : List WVal}
    (hwf : ∀ v ∈ vs, v.Wf) {os : List Nat} {w : Writer (Buffered σ)} {b : Buffered σ}
    (h : (Writer.new (Buffered.new s)).history (k.buffered capacity) vs = (os.map .ok, w))
    (hf : w.sink.flush k = (.ok (), b))
    {σ' ε' : Type} {k' : Sink σ' ε'} (hk' : k'.Lawful) {s' : σ'} {os' : List Nat} {w' : Writer σ'}
    (h' : (Writer.new s').history k' vs = (os'.map .ok, w')) :
    os = os' ∧ w.len = w'.len ∧ ∃ img, k'.delivered w'.sink = k'.delivered s' ++ img ∧
      k.delivered b.inner = k.delivered s ++ img := by
  obtain ⟨h1, h2, img, h3, h4⟩ := C39_sink_independent (C56_buffered_lawful hk capacity) hk' rfl hwf h h'
  obtain ⟨f1, -⟩ := flush_ok hk hf
  refine ⟨h1, h2, img, h4, ?_⟩
  rw [f1]
  simpa [Sink.buffered, Buffered.new, Writer.new] using h3

theorem held_le {k : Sink σ ε} (capacity : Nat) {s : Buffered σ}
    (hs : s.held.length ≤ capacity) (bs : List Byte) :
    (((k.buffered capacity).writeAll s bs).2.held.length ≤ capacity) := by
  simp only [Sink.buffered]
  split
  · simp only [List.length_append]; omega
  · rcases hf : (if capacity - s.held.length < bs.length then s.flush k else (.ok (), s)) with
      ⟨e | u, s₀⟩
    · simp only
      split at hf
      · unfold Buffered.flush at hf
        rcases hw : k.writeAll s.inner s.held with ⟨e' | u, t⟩
        · simp only [hw, Prod.mk.injEq] at hf
          rw [← hf.2]
          simp only [List.length_drop]; omega
        · simp [hw] at hf
      · simp at hf
    · have h0 : s₀.held.length ≤ capacity - bs.length ∨ capacity ≤ bs.length ∧ s₀.held.length ≤ capacity := by
        split at hf
        · unfold Buffered.flush at hf
          rcases hw : k.writeAll s.inner s.held with ⟨e' | u, t⟩
          · simp [hw] at hf
          · simp only [hw, Prod.mk.injEq] at hf
            rw [← hf.2]; simp
        · simp only [Prod.mk.injEq] at hf
          rw [← hf.2]
          omega
      simp only
      split
      · change s₀.held.length ≤ capacity
        omega
      · simp only [List.length_append]; omega

theorem history_prefix {k : Sink σ ε} (hk : k.Lawful) (w : Writer σ) {vs : List WVal}
    (hwf : ∀ v ∈ vs, v.Wf) {rs : List (Except ε Nat)} {w' : Writer σ}
    (h : w.history k vs = (rs, w')) :
    ∃ got, k.delivered w'.sink = k.delivered w.sink ++ got := by
  induction vs generalizing w rs with
  | nil =>
    simp only [Writer.history, Prod.mk.injEq] at h
    exact ⟨[], by rw [← h.2, List.append_nil]⟩
  | cons v r ih =>
    rw [history_cons, Prod.mk.injEq] at h
    obtain ⟨got, hg⟩ := ih (w.write k v).2 (fun x hx => hwf x (by simp [hx])) (Prod.ext rfl h.2)
    rcases hw : w.write k v with ⟨e | o, w₁⟩
    · obtain ⟨p, -, h2, -⟩ := write_error hk (hwf v (by simp)) hw
      exact ⟨p ++ got, by rw [hg, hw, h2, List.append_assoc]⟩
    · obtain ⟨-, -, h3⟩ := write_ok hk (hwf v (by simp)) hw
      exact ⟨_, by rw [hg, hw, h3, List.append_assoc]⟩

/-- C56: at every moment, also after errors, the inner sink has received what direct writing would have
delivered up to then, except for at most `capacity` bytes at the end, which the `BufWriter` holds. -/
theorem C56_held_back {k : Sink σ ε} (hk : k.Lawful) (capacity : Nat) (s : σ) {vs : List WVal}
    (hwf : ∀ v ∈ vs, v.Wf) {rs : List (Except ε Nat)} {w : Writer (Buffered σ)}
    (h : (Writer.new (Buffered.new s)).history (k.buffered capacity) vs = (rs, w)) :
    w.sink.held.length ≤ capacity ∧ ∃ got, k.delivered w.sink.inner ++ w.sink.held =
        k.delivered s ++ got ∧ w.len ≤ got.length ∧
      ((∀ r ∈ rs, ∃ o, r = .ok o) → w.len = got.length) := by
  have hsim : Sim (k.buffered capacity) (k.buffered capacity)
      fun a b => a = b ∧ a.held.length ≤ capacity := by
    rintro a b ⟨rfl, ha⟩ bs
    exact ⟨rfl, rfl, held_le capacity ha bs⟩
  obtain ⟨-, -, -, hh⟩ := sim_history hsim vs (s := Buffered.new s) (t := Buffered.new s) 0
    ⟨rfl, Nat.zero_le _⟩
  have h' : Writer.history (k.buffered capacity) ⟨Buffered.new s, 0⟩ vs = (rs, w) := h
  rw [h'] at hh
  refine ⟨hh, ?_⟩
  have hl := C24_len_fresh (C56_buffered_lawful hk capacity) (Buffered.new s) hwf h
  obtain ⟨got, hg⟩ : ∃ got, (k.buffered capacity).delivered w.sink =
      (k.buffered capacity).delivered (Buffered.new s) ++ got :=
    history_prefix (C56_buffered_lawful hk capacity) _ hwf h
  have hd : (k.buffered capacity).delivered w.sink = k.delivered w.sink.inner ++ w.sink.held := rfl
  have hn : (k.buffered capacity).delivered (Buffered.new s) = k.delivered s := by
    simp [Sink.buffered, Buffered.new]
  rw [hg, hn] at hl
  rw [hn, hd] at hg
  simp only [List.length_append] at hl
  exact ⟨got, hg, by omega, fun hr => by have := hl.2 hr; omega⟩

/-- Why the flush matters: writes through a `BufWriter` may all succeed although the inner sink, a slice
with no room, has received nothing; the error comes with the flush. -/
theorem C56_late_error :
    ∃ (x : StdVal) (w : Writer (Buffered SliceState)) (b : Buffered SliceState),
      (Writer.new (Buffered.new ⟨[], []⟩)).history (sliceSink.buffered 16) [.std x] = ([.ok 0], w) ∧
      x.bytes ≠ [] ∧ x.bytes.length = x.size ∧ w.sink.inner.filled = [] ∧
      w.sink.flush sliceSink = (.error (), b) :=
  ⟨⟨4, 4, [1, 2, 3, 4]⟩, _, _, rfl, by decide, rfl, rfl, rfl⟩

/-- Values larger and smaller than the buffer: a buffer of 8 bytes, values of 4 and 12 bytes. -/
example : ∃ (w : Writer (Buffered (List Byte))) (b : Buffered (List Byte)),
    (Writer.new (Buffered.new [])).history ((vecSink Unit).buffered 8)
      [.std ⟨4, 4, [1, 2, 3, 4]⟩, .std ⟨16, 12, [5, 5, 5, 5, 5, 5, 5, 5, 5, 5, 5, 5]⟩, .std ⟨4, 4, [6, 6, 6, 6]⟩] =
        ([0, 16, 28].map .ok, w) ∧
    w.sink.inner.length = 28 ∧ w.sink.held = [6, 6, 6, 6] ∧
    w.sink.flush (vecSink Unit) = (.ok (), b) ∧ b.inner.length = 32 :=
  ⟨_, _, rfl, rfl, rfl, rfl, rfl⟩

end Crevice
