import Verif.Spec.Custom
import Verif.Props.C17_C20
/-
C47 user-written implementations of WriteStdN.
-/
namespace Crevice

variable {σ ε : Type}

theorem writeStd_ok' {k : Sink σ ε} (hk : k.Lawful) {w w' : Writer σ} {x : StdVal}
    (hx : x.bytes.length = x.size) {o : Nat} (h : w.writeStd k x = (.ok o, w')) :
    IsNext x.alignment w.len o ∧ w'.len = o + x.size ∧
      k.delivered w'.sink = k.delivered w.sink ++ image w.len [x] := by
  have h' : w.write k (.std x) = (.ok o, w') := by simpa [Writer.write] using h
  obtain ⟨h1, h2⟩ := writeStd_ok_offset h
  obtain ⟨-, -, h3⟩ := write_ok hk (v := .std x) (by simpa [WVal.Wf, WVal.leaves] using hx) h'
  exact ⟨h1 ▸ isNext_nextOffset _ _, h2, by simpa [WVal.leaves, Writer.len] using h3⟩

theorem writeStd_infallible {k : Sink σ ε} (hk : k.Infallible) (w : Writer σ) {x : StdVal}
    (hx : x.bytes.length = x.size) :
    ∃ w', w.writeStd k x = (.ok (nextOffset w.len x.alignment), w') := by
  obtain ⟨w', h, -⟩ := write_infallible hk w (v := .std x) (by simpa [WVal.Wf, WVal.leaves] using hx)
  exact ⟨w', by simpa [Writer.write, WVal.firstOffset, Writer.len] using h⟩

/-! ### Performs -/

theorem Performs.total (p : Prog ε) (off : Nat) : ∃ xs fin r, Performs p off xs fin r := by
  induction p generalizing off with
  | ret r => exact ⟨[], off, r, .ret⟩
  | len k ih =>
    obtain ⟨xs, fin, r, h⟩ := ih off off
    exact ⟨xs, fin, r, .len h⟩
  | writeStd x k ih =>
    obtain ⟨xs, fin, r, h⟩ := ih (.ok (nextOffset off x.alignment)) (nextOffset off x.alignment + x.size)
    exact ⟨_, fin, r, .writeStd (isNext_nextOffset _ _) h⟩

theorem Performs.unique {p : Prog ε} {off : Nat} {xs ys : List StdVal} {e f : Nat}
    {r s : Except ε Nat} (h : Performs p off xs e r) (h' : Performs p off ys f s) :
    xs = ys ∧ e = f ∧ r = s := by
  induction h generalizing ys f s with
  | ret => cases h'; exact ⟨rfl, rfl, rfl⟩
  | len _ ih => cases h' with | len h1 => exact ih h1
  | writeStd hn _ ih =>
    cases h' with
    | writeStd hn' h1 =>
      obtain rfl := hn.unique hn'
      obtain ⟨rfl, rfl, rfl⟩ := ih h1
      exact ⟨rfl, rfl, rfl⟩

/-- The values end up where laying them out one after the other puts them. -/
theorem Performs.placed {p : Prog ε} {off : Nat} {xs : List StdVal} {fin : Nat} {r : Except ε Nat}
    (h : Performs p off xs fin r) :
    ∃ offs, Placed off (xs.map fun x => (x.alignment, x.size)) offs fin := by
  induction h with
  | ret => exact ⟨[], .nil⟩
  | len _ ih => exact ih
  | writeStd hn _ ih => obtain ⟨offs, h⟩ := ih; exact ⟨_, .cons hn h⟩

theorem Performs.end_eq {p : Prog ε} {off : Nat} {xs : List StdVal} {fin : Nat} {r : Except ε Nat}
    (h : Performs p off xs fin r) (hwf : ∀ x ∈ xs, x.bytes.length = x.size) :
    fin = endOf off xs := by
  induction h with
  | ret => rfl
  | len _ ih => exact ih hwf
  | @writeStd off x k o xs fin r hn _ ih =>
    rw [ih fun y hy => hwf y (List.mem_cons_of_mem _ hy), endOf, hn.unique (isNext_nextOffset _ _),
      hwf x (by simp)]

theorem holds_image (off : Nat) (xs : List StdVal) (hwf : ∀ x ∈ xs, x.bytes.length = x.size) :
    Holds off xs (image off xs) (endOf off xs) := by
  refine ⟨image_length off xs, places off xs, ?_, ?_, ?_⟩
  · have := placed_places off xs
    have he : (xs.map fun x => (x.alignment, x.bytes.length)) = xs.map fun x => (x.alignment, x.size) :=
      List.map_congr_left fun x hx => by rw [hwf x hx]
    rwa [he] at this
  · intro m hm hm'
    exact image_slice off xs m hm
  · intro p hp hout
    refine image_zero off xs p hp fun m hm => ?_
    have := hout m hm (by rw [places_length]; exact hm)
    rwa [← hwf _ (List.getElem_mem hm)] at this

/-! ### Running -/

/-- Every program, on a sink that does not fail. -/
theorem run_infallible {k : Sink σ ε} (hk : k.Lawful) (hi : k.Infallible) {p : Prog ε} {w : Writer σ}
    {xs : List StdVal} {fin : Nat} {r : Except ε Nat} (h : Performs p w.len xs fin r)
    (hwf : ∀ x ∈ xs, x.bytes.length = x.size) :
    ∃ w', p.run k w = (r, w') ∧ w'.len = fin ∧
      k.delivered w'.sink = k.delivered w.sink ++ image w.len xs := by
  induction p generalizing w xs fin r with
  | ret r0 => cases h; exact ⟨w, rfl, rfl, by simp [image]⟩
  | len f ih =>
    cases h with
    | len h => exact ih _ h hwf
  | writeStd x f ih =>
    cases h with
    | @writeStd _ _ _ o xs fin r hn h =>
      obtain ⟨w1, h1⟩ := writeStd_infallible hi w (x := x) (hwf x (by simp))
      obtain ⟨h2, h3, h4⟩ := writeStd_ok' hk (hwf x (by simp)) h1
      obtain rfl := hn.unique h2
      rw [← h3] at h
      obtain ⟨w', g1, g2, g3⟩ := ih _ h fun y hy => hwf y (List.mem_cons_of_mem _ hy)
      refine ⟨w', ?_, g2, ?_⟩
      · simp only [Prog.run, h1, g1]
      · have : image w.len (x :: xs) = image w.len [x] ++ image w1.len xs := by
          rw [h3, ← hwf x (by simp)]
          simp [image]
        rw [g3, h4, List.append_assoc, this]

/-- A program that passes errors on, on any sink. -/
theorem run_propagates {k : Sink σ ε} (hk : k.Lawful) {p : Prog ε} (hp : p.Propagates) {w : Writer σ}
    {xs : List StdVal} {fin : Nat} {r : Except ε Nat} (h : Performs p w.len xs fin r)
    (hwf : ∀ x ∈ xs, x.bytes.length = x.size) {r' : Except ε Nat} {w' : Writer σ}
    (hr : p.run k w = (r', w')) :
    (r' = r ∧ w'.len = fin ∧ k.delivered w'.sink = k.delivered w.sink ++ image w.len xs) ∨
    (∃ e, r' = .error e) ∧ ∃ q, q <+: image w.len xs ∧
      k.delivered w'.sink = k.delivered w.sink ++ q ∧ w.len ≤ w'.len ∧ w'.len ≤ w.len + q.length := by
  induction p generalizing w xs fin r with
  | ret r0 =>
    cases h
    simp only [Prog.run, Prod.mk.injEq] at hr
    obtain ⟨rfl, rfl⟩ := hr
    exact .inl ⟨rfl, rfl, by simp [image]⟩
  | len f ih =>
    cases h with
    | len h =>
      cases hp with
      | len hp => exact ih _ (hp _) h hwf hr
  | writeStd x f ih =>
    cases hp with
    | writeStd hpe hpo =>
      cases h with
      | @writeStd _ _ _ o xs fin r hn h =>
        have hx := hwf x (by simp)
        rcases hw : w.writeStd k x with ⟨e | o', w1⟩
        · simp only [Prog.run, hw, hpe, Prod.mk.injEq] at hr
          obtain ⟨rfl, rfl⟩ := hr
          have h' : w.write k (.std x) = (.error e, w1) := by simpa [Writer.write] using hw
          obtain ⟨q, q1, q2, q3, q4⟩ :=
            write_error hk (v := .std x) (by simpa [WVal.Wf, WVal.leaves] using hx) h'
          refine .inr ⟨⟨e, rfl⟩, q, ?_, q2, q3, q4⟩
          refine q1.trans ?_
          simp only [WVal.leaves, image, List.append_nil]
          exact List.prefix_append _ _
        · obtain ⟨h2, h3, h4⟩ := writeStd_ok' hk hx hw
          obtain rfl := hn.unique h2
          have hi : image w.len (x :: xs) = image w.len [x] ++ image w1.len xs := by
            rw [h3, ← hx]; simp [image, hn.unique (isNext_nextOffset _ _)]
          have hl : w.len + (image w.len [x]).length = w1.len := by
            rw [image_length]
            simp only [endOf, h3, hx, hn.unique (isNext_nextOffset _ _)]
          rw [← h3] at h
          simp only [Prog.run, hw] at hr
          rcases ih _ (hpo _) h (fun y hy => hwf y (List.mem_cons_of_mem _ hy)) hr with
            ⟨g1, g2, g3⟩ | ⟨g1, q, g2, g3, g4, g5⟩
          · exact .inl ⟨g1, g2, by rw [g3, h4, List.append_assoc, hi]⟩
          · refine .inr ⟨g1, image w.len [x] ++ q, ?_, ?_, by omega, ?_⟩
            · rw [hi]
              obtain ⟨t, ht⟩ := g2
              exact ⟨t, by rw [← ht, List.append_assoc]⟩
            · rw [g3, h4, List.append_assoc]
            · rw [List.length_append]; omega

/-! ### Combinators -/

theorem run_bind (k : Sink σ ε) (p : Prog ε) (f : Except ε Nat → Prog ε) (w : Writer σ) :
    (p.bind f).run k w = (f (p.run k w).1).run k (p.run k w).2 := by
  induction p generalizing w with
  | ret r => rfl
  | len g ih => simp only [Prog.bind, Prog.run, ih]
  | writeStd x g ih => simp only [Prog.bind, Prog.run, ih]

theorem run_andThen (k : Sink σ ε) (p : Prog ε) (f : Nat → Prog ε) (w : Writer σ) :
    (p.andThen f).run k w =
      match p.run k w with
      | (.ok o, w') => (f o).run k w'
      | (.error e, w') => (.error e, w') := by
  rw [Prog.andThen, run_bind]
  rcases p.run k w with ⟨e | o, w'⟩ <;> rfl

theorem progs_eq (xs : List WVal) : WVal.progs ε xs = xs.map (WVal.prog ε) := by
  induction xs with
  | nil => rfl
  | cons x r ih => simp only [WVal.progs, List.map_cons, ih]

/-- The bodies that crevice itself provides, run as programs, do what `Writer::write` does in the
model of the Writer. -/
theorem run_prog (k : Sink σ ε) (v : WVal) (w : Writer σ) : (v.prog ε).run k w = w.write k v := by
  have rest : ∀ (xs : List WVal) (_ : ∀ x ∈ xs, ∀ w : Writer σ, (x.prog ε).run k w = w.write k x)
      (o : Nat) (w : Writer σ), (Prog.sliceRest o (WVal.progs ε xs)).run k w =
        match w.writeRest k xs with
        | (.ok (), w') => (.ok o, w')
        | (.error e, w') => (.error e, w') := by
    intro xs
    induction xs with
    | nil => intro _ o w; rfl
    | cons x r ih =>
      intro hx o w
      simp only [WVal.progs, Prog.sliceRest, run_andThen, hx x (by simp), Writer.writeRest]
      rcases w.write k x with ⟨e | o', w1⟩
      · rfl
      · exact ih (fun y hy => hx y (List.mem_cons_of_mem _ hy)) o w1
  induction v using WVal.ind generalizing w with
  | h1 x => simp only [WVal.prog, Prog.run, Writer.write]
  | h2 xs ih =>
    cases xs with
    | nil => simp only [WVal.prog, WVal.progs, Prog.slice, Prog.run, Writer.write]
    | cons x r =>
      simp only [WVal.prog, WVal.progs, Prog.slice, Prog.run, run_andThen, ih x (by simp),
        Writer.write]
      rcases w.write k x with ⟨e | o, w1⟩
      · rfl
      · simp only
        rw [rest r (fun y hy => ih y (List.mem_cons_of_mem _ hy)) o w1]
        rcases w1.writeRest k r with ⟨e | u, w2⟩ <;> rfl

/-! ## C47 -/

/-- C47: any implementation of `write_stdN`, whatever it writes, reads and returns, has on a sink that
does not fail exactly the effect that its calls specify: the values it passes to the Writer are laid
out one after the other from `len()` on with zeros in between, and the result is the one the
implementation computes. Which values, offsets, result and `len()` does not depend on the sink. -/
theorem C47_any_implementation (p : Prog ε) (off : Nat) :
    ∃ xs fin r, Performs p off xs fin r ∧ ((∀ x ∈ xs, x.bytes.length = x.size) →
      ∃ img, Holds off xs img fin ∧
        ∀ {σ : Type} (k : Sink σ ε), k.Lawful → k.Infallible → ∀ w : Writer σ, w.len = off →
          ∃ w', p.run k w = (r, w') ∧ w'.len = fin ∧
            k.delivered w'.sink = k.delivered w.sink ++ img) := by
  obtain ⟨xs, fin, r, h⟩ := Performs.total p off
  refine ⟨xs, fin, r, h, fun hwf => ⟨image off xs, ?_, ?_⟩⟩
  · rw [h.end_eq hwf]; exact holds_image off xs hwf
  · intro σ k hk hi w hw
    subst hw
    exact run_infallible hk hi h hwf

/-- C47: an implementation that passes errors on, run on any sink: if it succeeds, its values have all
been written as above; if it fails, either it is the implementation's own error after all its values
have been written, or the sink has received a prefix of what it would have received. -/
theorem C47_propagating {k : Sink σ ε} (hk : k.Lawful) {p : Prog ε} (hp : p.Propagates) {w w' : Writer σ}
    {r' : Except ε Nat} (hr : p.run k w = (r', w')) {xs : List StdVal} {fin : Nat} {r : Except ε Nat}
    (h : Performs p w.len xs fin r) (hwf : ∀ x ∈ xs, x.bytes.length = x.size) :
    ∃ img got, Holds w.len xs img fin ∧ k.delivered w'.sink = k.delivered w.sink ++ got ∧
      ((r' = r ∧ got = img ∧ w'.len = fin) ∨
        (∃ e, r' = .error e) ∧ got <+: img ∧ w.len ≤ w'.len ∧ w'.len ≤ w.len + got.length) := by
  have hh := holds_image w.len xs hwf
  rw [← h.end_eq hwf] at hh
  rcases run_propagates hk hp h hwf hr with ⟨g1, g2, g3⟩ | ⟨g1, q, g2, g3, g4, g5⟩
  · exact ⟨_, _, hh, g3, .inl ⟨g1, rfl, g2⟩⟩
  · exact ⟨_, q, hh, g3, .inr ⟨g1, g2, g4, g5⟩⟩

/-- C47: the provided `stdN_size` is the number of bytes the implementation writes into an empty
buffer; it panics exactly when the implementation returns an error although no write fails. -/
theorem C47_std_size {p : Prog ε} {xs : List StdVal} {fin : Nat} {r : Except ε Nat}
    (h : Performs p 0 xs fin r) (hwf : ∀ x ∈ xs, x.bytes.length = x.size) :
    (∀ o, r = .ok o → p.stdSize = some fin) ∧ ((∃ e, r = .error e) ↔ p.stdSize = none) := by
  obtain ⟨w', h1, h2, -⟩ := run_infallible (nullSink_lawful ε) (nullSink_infallible ε)
    (w := Writer.new []) h hwf
  rw [Prog.stdSize, h1]
  cases r with
  | ok o => simp [h2]
  | error e => simp

/-- C47: what crevice implements itself are instances: `AsStdN` values, slices, and slices of
user-written implementations, with the `stdN_size` of slices the provided one. -/
theorem C47_instances (k : Sink σ ε) (w : Writer σ) (v : WVal) (xs : List WVal) :
    (v.prog ε).run k w = w.write k v ∧
    (Prog.slice (xs.map (WVal.prog ε))).run k w = w.write k (.slice xs) ∧
    (Prog.slice (xs.map (WVal.prog Unit))).stdSize = (WVal.slice xs).stdSize := by
  refine ⟨run_prog k v w, ?_, ?_⟩
  · rw [← progs_eq, ← run_prog]; rfl
  · rw [← progs_eq]
    have := run_prog (nullSink Unit) (.slice xs) (Writer.new [])
    simp only [WVal.prog] at this
    simp only [Prog.stdSize, this, WVal.stdSize]
    rcases (Writer.new []).write (nullSink Unit) (.slice xs) with ⟨e | o, w'⟩ <;> rfl

theorem Moved.performs {d : Nat} {p q : Prog ε} (hm : Moved d p q) {off : Nat} {xs : List StdVal}
    {fin : Nat} {r : Except ε Nat} (h : Performs p off xs fin r) (hd : ∀ x ∈ xs, x.alignment ∣ d) :
    Performs q (off + d) xs (fin + d) (shiftResult d r) := by
  induction hm generalizing off xs fin r with
  | ok => cases h; exact .ret
  | error => cases h; exact .ret
  | len _ ih => cases h with | len h => exact .len (ih _ h hd)
  | @writeStd x f f' _ _ ih _ =>
    cases h with
    | @writeStd _ _ _ o xs fin r hn h =>
      refine .writeStd (o := o + d) ?_ ?_
      · have hxd := hd x (by simp)
        refine ⟨by have := hn.1; omega, fun h0 => by rw [hn.2.1 h0], fun hpos => ⟨?_, ?_⟩⟩
        · exact Nat.dvd_add (hn.2.2 hpos).1 hxd
        · intro m hm hle
          have : x.alignment ∣ m - d := Nat.dvd_sub hm hxd
          have := (hn.2.2 hpos).2 _ this (by omega)
          omega
      · have := ih o h fun y hy => hd y (List.mem_cons_of_mem _ hy)
        rwa [show o + d + x.size = o + x.size + d by omega]

/-- C47: an implementation that treats offsets only relative to its start takes up, written at any
offset that all its alignments divide, exactly `stdN_size` bytes; it writes the same bytes there and
returns the result shifted by the offset. -/
theorem C47_relocatable {k : Sink σ ε} (hk : k.Lawful) (hi : k.Infallible) {p : Prog ε} {w : Writer σ}
    (hm : Moved w.len p p) {xs : List StdVal} {fin : Nat} {r : Except ε Nat}
    (h : Performs p 0 xs fin r) (hwf : ∀ x ∈ xs, x.bytes.length = x.size)
    (hd : ∀ x ∈ xs, x.alignment ∣ w.len) :
    ∃ w' img, p.run k w = (shiftResult w.len r, w') ∧ w'.len = w.len + fin ∧
      k.delivered w'.sink = k.delivered w.sink ++ img ∧ Holds 0 xs img fin := by
  have h' := hm.performs h hd
  rw [Nat.zero_add] at h'
  obtain ⟨w', g1, g2, g3⟩ := run_infallible hk hi h' hwf
  refine ⟨w', image w.len xs, g1, by omega, g3, ?_⟩
  have hh := holds_image 0 xs hwf
  rw [← h.end_eq hwf] at hh
  suffices he : ∀ (ys : List StdVal) (off d : Nat), (∀ x ∈ ys, x.alignment ∣ d) →
      image (off + d) ys = image off ys by
    have := he xs 0 w.len hd
    rw [Nat.zero_add] at this
    rw [this]; exact hh
  intro ys
  induction ys with
  | nil => intro _ _ _; rfl
  | cons y r ih =>
    intro off d hd
    have hn : nextOffset (off + d) y.alignment = nextOffset off y.alignment + d := by
      have hxd := hd y (by simp)
      have hn := isNext_nextOffset off y.alignment
      refine ((isNext_iff _ _ _).1 ⟨by have := hn.1; omega, fun h0 => by rw [hn.2.1 h0],
        fun hpos => ⟨Nat.dvd_add (hn.2.2 hpos).1 hxd, ?_⟩⟩).symm
      intro m hm hle
      have : y.alignment ∣ m - d := Nat.dvd_sub hm hxd
      have := (hn.2.2 hpos).2 _ this (by omega)
      omega
    simp only [image, hn]
    rw [show nextOffset off y.alignment + d + y.bytes.length =
      nextOffset off y.alignment + y.bytes.length + d by omega,
      ih _ d fun x hx => hd x (List.mem_cons_of_mem _ hx)]
    congr 2
    congr 1
    omega

theorem Prog.Propagates.bind {p : Prog ε} (hp : p.Propagates) {f : Except ε Nat → Prog ε}
    (he : ∀ e, f (.error e) = .ret (.error e)) (hf : ∀ o, (f (.ok o)).Propagates) :
    (p.bind f).Propagates := by
  induction hp with
  | @ret r =>
    cases r with
    | ok o => exact hf o
    | error e => simp only [Prog.bind, he]; exact .ret
  | len _ ih => exact .len ih
  | writeStd h1 _ ih => exact .writeStd (fun e => by rw [h1]; exact he e) ih

theorem Prog.Propagates.andThen {p : Prog ε} (hp : p.Propagates) {f : Nat → Prog ε}
    (hf : ∀ o, (f o).Propagates) : (p.andThen f).Propagates := hp.bind (fun _ => rfl) hf

theorem Prog.Propagates.sliceRest {ps : List (Prog ε)} (h : ∀ p ∈ ps, p.Propagates) (o : Nat) :
    (Prog.sliceRest o ps).Propagates := by
  induction ps with
  | nil => exact .ret
  | cons p r ih =>
    exact (h p (by simp)).andThen fun _ => ih fun q hq => h q (List.mem_cons_of_mem _ hq)

theorem Prog.Propagates.slice {ps : List (Prog ε)} (h : ∀ p ∈ ps, p.Propagates) :
    (Prog.slice ps).Propagates := by
  refine .len fun n => ?_
  cases ps with
  | nil => exact .ret
  | cons p r =>
    exact (h p (by simp)).andThen fun o =>
      Prog.Propagates.sliceRest (fun q hq => h q (List.mem_cons_of_mem _ hq)) o

theorem Moved.andThen {d : Nat} {p q : Prog ε} (h : Moved d p q) {f g : Nat → Prog ε}
    (hf : ∀ o, Moved d (f o) (g (o + d))) : Moved d (p.andThen f) (q.andThen g) := by
  unfold Prog.andThen
  induction h with
  | ok => exact hf _
  | error => exact .error
  | len _ ih => exact .len ih
  | writeStd _ _ ih1 ih2 => exact .writeStd ih1 ih2

theorem Moved.sliceRest {d : Nat} {ps : List (Prog ε)} (h : ∀ p ∈ ps, Moved d p p) (o : Nat) :
    Moved d (Prog.sliceRest o ps) (Prog.sliceRest (o + d) ps) := by
  induction ps with
  | nil => exact .ok
  | cons p r ih =>
    exact (h p (by simp)).andThen fun _ => ih fun q hq => h q (List.mem_cons_of_mem _ hq)

theorem Moved.slice {d : Nat} {ps : List (Prog ε)} (h : ∀ p ∈ ps, Moved d p p) :
    Moved d (Prog.slice ps) (Prog.slice ps) := by
  refine .len fun n => ?_
  cases ps with
  | nil => exact .ok
  | cons p r =>
    exact (h p (by simp)).andThen fun o =>
      Moved.sliceRest (fun q hq => h q (List.mem_cons_of_mem _ hq)) o

/-- C47: the hypotheses of the two theorems above hold for everything crevice implements itself, and
are kept by writing one thing after the other with `?` and by slices. -/
theorem C47_closed :
    (∀ v : WVal, (v.prog ε).Propagates ∧ ∀ d, Moved d (v.prog ε) (v.prog ε)) ∧
    (∀ ps : List (Prog ε), (∀ p ∈ ps, p.Propagates) → (Prog.slice ps).Propagates) ∧
    (∀ (d : Nat) (ps : List (Prog ε)), (∀ p ∈ ps, Moved d p p) →
      Moved d (Prog.slice ps) (Prog.slice ps)) ∧
    (∀ (p : Prog ε) (f : Nat → Prog ε), p.Propagates → (∀ o, (f o).Propagates) →
      (p.andThen f).Propagates) ∧
    (∀ (d : Nat) (p : Prog ε) (f : Nat → Prog ε), Moved d p p → (∀ o, Moved d (f o) (f (o + d))) →
      Moved d (p.andThen f) (p.andThen f)) := by
  refine ⟨fun v => ?_, fun _ => .slice, fun _ _ => .slice, fun _ _ h => h.andThen,
    fun _ _ _ h => h.andThen⟩
  induction v using WVal.ind with
  | h1 x => exact ⟨.writeStd (fun _ => rfl) fun _ => .ret, fun d => .writeStd (fun _ => .ok) fun _ => .error⟩
  | h2 xs ih =>
    simp only [WVal.prog, progs_eq]
    refine ⟨.slice fun p hp => ?_, fun d => .slice fun p hp => ?_⟩ <;>
      obtain ⟨v, hv, rfl⟩ := List.mem_map.1 hp
    · exact (ih v hv).1
    · exact (ih v hv).2 d

/-- The implementation of the documentation's example kind: a header followed by a slice,
`let o = writer.write(&self.count)?; writer.write(self.items.as_slice())?; Ok(o)`. -/
def Ex.headerSlice (ε : Type) (count : StdVal) (items : List StdVal) : Prog ε :=
  (WVal.prog ε (.std count)).andThen fun o =>
    (WVal.prog ε (.slice (items.map .std))).andThen fun _ => .ret (.ok o)

theorem Ex.headerSlice_ok (c : StdVal) (items : List StdVal) :
    (Ex.headerSlice ε c items).Propagates ∧
      ∀ d, Moved d (Ex.headerSlice ε c items) (Ex.headerSlice ε c items) :=
  ⟨(C47_closed.1 _).1.andThen fun _ => (C47_closed.1 _).1.andThen fun _ => .ret,
    fun d => ((C47_closed.1 _).2 d).andThen fun _ => ((C47_closed.1 _).2 d).andThen fun _ => .ok⟩

/-- It performs a write of the header and of both items. -/
example : let c : StdVal := ⟨4, 4, [2, 0, 0, 0]⟩
    let a : StdVal := ⟨16, 12, List.replicate 12 7⟩
    Performs (Ex.headerSlice Unit c [a, a]) 4 [c, a, a] 44 (.ok 4) ∧
    (Ex.headerSlice Unit c [a, a]).stdSize = some 44 := by
  refine ⟨?_, by decide⟩
  have e : ∀ o off a : Nat, nextOffset off a = o → IsNext a off o :=
    fun o off a h => (isNext_iff off a o).2 h.symm
  exact .writeStd (e 4 4 4 (by decide)) (.len (.writeStd (e 16 8 16 (by decide))
    (.writeStd (e 32 28 16 (by decide)) .ret)))

end Crevice
