import Verif.Spec.Lookup
import Verif.Props.C58
/-
C60: which conversion derived code calls.
-/
namespace Crevice

theorem filter_receiver_nodup {ms : List Method} (h : (ms.map Method.origin).Nodup) {m : Method}
    (hm : m ∈ ms) {p : Method → Bool} (hp : p m = true)
    (ho : ∀ x ∈ ms, p x = true → x.origin = m.origin) : ms.filter p = [m] := by
  induction ms with
  | nil => simp at hm
  | cons a r ih =>
    simp only [List.map_cons, List.nodup_cons] at h
    rcases List.mem_cons.1 hm with rfl | hm
    · rw [List.filter_cons_of_pos hp]
      congr 1
      rw [List.filter_eq_nil_iff]
      intro x hx hpx
      exact h.1 (List.mem_map.2 ⟨x, hx, ho x (by simp [hx]) hpx⟩)
    · have hpa : ¬ p a = true := by
        intro hpa
        exact h.1 (List.mem_map.2 ⟨m, hm, (ho a (by simp) hpa).symm⟩)
      rw [List.filter_cons_of_neg hpa]
      exact ih h.2 hm fun x hx => ho x (by simp [hx])

/-- What a step finds. -/
theorem step_mem {t : Level} {r : Receiver} {m : Method} (h : t.step r = some (.ok m)) :
    m ∈ t.methods ∧ m.receiver = r ∧
      (m.origin = .inherent ∨ t.methods.filter (fun m => m.receiver = r) = [m]) := by
  unfold Level.step at h
  simp only at h
  split at h
  · rename_i x hx
    simp only [Option.some.injEq, Except.ok.injEq] at h
    subst h
    have : x ∈ (t.methods.filter fun m => m.receiver = r).filter fun m => m.origin = .inherent := by
      rw [hx]; simp
    simp only [List.mem_filter, decide_eq_true_eq] at this
    exact ⟨this.1.1, this.1.2, .inl this.2⟩
  · simp at h
  · split at h
    · rename_i x hx
      simp only [Option.some.injEq, Except.ok.injEq] at h
      subst h
      have : x ∈ t.methods.filter fun m => m.receiver = r := by rw [hx]; simp
      simp only [List.mem_filter, decide_eq_true_eq] at this
      exact ⟨this.1, this.2, .inr hx⟩
    · simp at h
    · simp at h

theorem step_none {t : Level} {r : Receiver} : t.step r = none ↔ ∀ m ∈ t.methods, m.receiver ≠ r := by
  constructor
  · intro h m hm hr
    have hf : m ∈ t.methods.filter fun m => m.receiver = r := by simp [hm, hr]
    unfold Level.step at h
    simp only at h
    split at h
    · simp at h
    · simp at h
    · split at h
      · simp at h
      · simp at h
      · rename_i hx
        rw [hx] at hf
        simp at hf
  · intro h
    have hf : (t.methods.filter fun m => m.receiver = r) = [] := by
      rw [List.filter_eq_nil_iff]
      intro m hm
      simpa using h m hm
    unfold Level.step
    simp [hf]

theorem findMethod_cons (t : Level) (r : List Level) : findMethod (t :: r) =
    match t.step .value with
    | some x => x.map fun m => (t, m)
    | none =>
      match t.step .ref with
      | some x => x.map fun m => (t, m)
      | none =>
        match t.step .mutRef with
        | some x => x.map fun m => (t, m)
        | none => findMethod r := rfl

/-- C60: the method call in derived code is resolved to crevice's trait exactly if the trait is in
scope at the derive and the field's type has no other visible method of that name taking `self` or
`&self`. -/
theorem C60_which {f : ScopedField} (hwf : f.Wf) :
    (∃ t m, findMethod f.types = .ok (t, m) ∧ m.origin = .crevice) ↔ f.InScope ∧ f.NoOther := by
  obtain ⟨t, r, ht⟩ := hwf.first
  constructor
  · rintro ⟨u, m, h, ho⟩
    have hin : f.InScope := by
      have hmem : ∀ ts : List Level, findMethod ts = .ok (u, m) → u ∈ ts ∧ m ∈ u.methods := by
        intro ts
        induction ts with
        | nil => intro h; simp [findMethod] at h
        | cons a s ih =>
          intro h
          rw [findMethod_cons] at h
          have hst : ∀ (k : Receiver) (y : Except LookupError Method), a.step k = some y →
              y.map (fun m => (a, m)) = .ok (u, m) → u ∈ a :: s ∧ m ∈ u.methods := by
            intro k y hy h
            rcases y with e | x
            · simp [Except.map] at h
            · simp only [Except.map, Except.ok.injEq, Prod.mk.injEq] at h
              obtain ⟨rfl, rfl⟩ := h
              exact ⟨by simp, (step_mem hy).1⟩
          cases hv : a.step .value with
          | some y => rw [hv] at h; exact hst _ y hv h
          | none =>
            simp only [hv] at h
            cases hr : a.step .ref with
            | some y => rw [hr] at h; exact hst _ y hr h
            | none =>
              simp only [hr] at h
              cases hm : a.step .mutRef with
              | some y => rw [hm] at h; exact hst _ y hm h
              | none =>
                simp only [hm] at h
                obtain ⟨h1, h2⟩ := ih h
                exact ⟨List.mem_cons_of_mem _ h1, h2⟩
      obtain ⟨h1, h2⟩ := hmem _ h
      exact hwf.scope u h1 m h2 ho
    refine ⟨hin, ?_⟩
    obtain ⟨t', r', c, ht', hc, hco⟩ := hin
    rw [ht, List.cons.injEq] at ht'
    obtain ⟨rfl, rfl⟩ := ht'
    obtain ⟨hcr, -, -⟩ := hwf.crevice t r c ht hc hco
    rw [ht, findMethod_cons] at h
    -- nothing by value
    have hv : t.step .value = none := by
      cases hv : t.step .value with
      | none => rfl
      | some y =>
        rw [hv] at h
        rcases y with e | x
        · simp [Except.map] at h
        · simp only [Except.map, Except.ok.injEq, Prod.mk.injEq] at h
          obtain ⟨rfl, rfl⟩ := h
          obtain ⟨h1, h2, -⟩ := step_mem hv
          rw [(hwf.crevice t r x ht h1 ho).1] at h2
          cases h2
    -- crevice's alone by reference
    have hr : t.step .ref = some (.ok m) := by
      simp only [hv] at h
      cases hr : t.step .ref with
      | none => exact absurd hcr (step_none.1 hr c hc)
      | some y =>
        rw [hr] at h
        rcases y with e | x
        · simp [Except.map] at h
        · simp only [Except.map, Except.ok.injEq, Prod.mk.injEq] at h
          rw [h.2]
    obtain ⟨h1, h2, h3⟩ := step_mem hr
    have h3 : t.methods.filter (fun m => m.receiver = .ref) = [m] := by
      rcases h3 with h3 | h3
      · rw [ho] at h3; cases h3
      · exact h3
    intro t' r' x ht' hx hxo
    rw [ht, List.cons.injEq] at ht'
    obtain ⟨rfl, rfl⟩ := ht'
    cases hxr : x.receiver with
    | value => exact absurd hxr (step_none.1 hv x hx)
    | ref =>
      have : x ∈ t.methods.filter fun m => m.receiver = .ref := by simp [hx, hxr]
      rw [h3, List.mem_singleton] at this
      subst this
      exact absurd ho hxo
    | mutRef => rfl
  · rintro ⟨⟨t', r', c, ht', hc, hco⟩, hno⟩
    rw [ht, List.cons.injEq] at ht'
    obtain ⟨rfl, rfl⟩ := ht'
    obtain ⟨hcr, -, -⟩ := hwf.crevice t r c ht hc hco
    refine ⟨t, c, ?_, hco⟩
    have hv : t.step .value = none := by
      rw [step_none]
      intro m hm hmr
      by_cases ho : m.origin = .crevice
      · rw [(hwf.crevice t r m ht hm ho).1] at hmr; cases hmr
      · rw [hno t r m ht hm ho] at hmr; cases hmr
    have hone : t.methods.filter (fun m => m.receiver = .ref) = [c] := by
      refine filter_receiver_nodup (hwf.distinct t (by simp [ht])) hc (by simp [hcr]) ?_
      intro x hx hxr
      by_cases ho : x.origin = .crevice
      · rw [ho, hco]
      · rw [hno t r x ht hx ho] at hxr; simp at hxr
    have hr : t.step .ref = some (.ok c) := by
      unfold Level.step
      simp only [hone]
      rw [List.filter_cons_of_neg (by simp [hco])]
      rfl
    rw [ht, findMethod_cons, hv]
    simp only [hr, Except.map]

/-- In that case the call compiles and is the field's conversion. -/
theorem methodCall_clean {f : ScopedField} (hwf : f.Wf) (hs : f.InScope) (hn : f.NoOther) :
    methodCall f.types = .ok f.impl.asStd := by
  obtain ⟨t, m, h, ho⟩ := (C60_which hwf).2 ⟨hs, hn⟩
  obtain ⟨t₀, r₀, c, ht, hc, hco⟩ := hs
  have hm : m ∈ t₀.methods := by
    -- the method found is the first type's
    rw [ht, findMethod_cons] at h
    have hcr := (hwf.crevice t₀ r₀ c ht hc hco).1
    cases hv : t₀.step .value with
    | some y =>
      rw [hv] at h
      rcases y with e | x
      · simp [Except.map] at h
      · simp only [Except.map, Except.ok.injEq, Prod.mk.injEq] at h
        exact h.2 ▸ (step_mem hv).1
    | none =>
      simp only [hv] at h
      cases hr : t₀.step .ref with
      | none => exact absurd hcr (step_none.1 hr c hc)
      | some y =>
        rw [hr] at h
        rcases y with e | x
        · simp [Except.map] at h
        · simp only [Except.map, Except.ok.injEq, Prod.mk.injEq] at h
          exact h.2 ▸ (step_mem hr).1
  obtain ⟨h1, h2, h3⟩ := hwf.crevice t₀ r₀ m ht hm ho
  simp only [methodCall, h, h1, h2, h3]
  rfl

/-- C60: if this is so for every field, the derive means what `C03`, `C06`, `C10`, .. say of it. -/
theorem C60_derive {tg : Target} {l : Layout} {name : String} {fields : List ScopedField}
    (hwf : ∀ f ∈ fields, f.Wf) (hs : ∀ f ∈ fields, f.InScope) (hn : ∀ f ∈ fields, f.NoOther) :
    deriveScoped tg l name fields = deriveImpl tg l name (fields.map fun f => (f.name, f.impl)) := by
  have hc : ∀ f ∈ fields, f.called = some (f.name, f.impl) := by
    intro f hf
    rw [ScopedField.called, methodCall_clean (hwf f hf) (hs f hf) (hn f hf)]
  have : fields.mapM ScopedField.called = some (fields.map fun f => (f.name, f.impl)) := by
    rw [mapM_eq_some_iff]
    refine ⟨by simp, fun i h h' => ?_⟩
    rw [hc _ (List.getElem_mem h), List.getElem_map]
  rw [deriveScoped, this]
  rfl

/-- C60: without the trait in scope, and with no other method of that name, the derive does not compile
unless the struct has no fields; the struct's own `AsStdN` and the derive macro's import do not help. -/
theorem C60_missing {tg : Target} {l : Layout} {name : String} {fields : List ScopedField}
    {f : ScopedField} (hf : f ∈ fields) (h : ∀ t ∈ f.types, t.methods = []) :
    deriveScoped tg l name fields = none := by
  have hfind : ∀ ts : List Level, (∀ t ∈ ts, t.methods = []) → findMethod ts = .error .notFound := by
    intro ts
    induction ts with
    | nil => intro _; rfl
    | cons t r ih =>
      intro h
      have h0 : ∀ k, t.step k = none := fun k => step_none.2 (by rw [h t (by simp)]; simp)
      rw [findMethod_cons, h0]
      simp only [h0]
      exact ih fun x hx => h x (by simp [hx])
  have hc : f.called = none := by
    rw [ScopedField.called, methodCall, hfind _ h]
  have : fields.mapM ScopedField.called = none := by
    cases hm : fields.mapM ScopedField.called with
    | none => rfl
    | some r =>
      obtain ⟨h1, h2⟩ := (mapM_eq_some_iff _ _ _).1 hm
      obtain ⟨i, hi, rfl⟩ := List.getElem_of_mem hf
      have := h2 i hi (by omega)
      rw [hc] at this
      cases this
  rw [deriveScoped, this]
  rfl

/-- C60: if the derive compiles, what it calls on each field is a visible method of the field's type
or of one it dereferences to, with the right signature, which can be called on a place behind
`&self`: it takes `&self`, or `self` and the type is `Copy`. -/
theorem C60_accepted {tg : Target} {l : Layout} {name : String} {fields : List ScopedField}
    {i : Impl} (h : deriveScoped tg l name fields = some i) {f : ScopedField} (hf : f ∈ fields) :
    ∃ t ∈ f.types, ∃ m ∈ t.methods,
      (m.receiver = .ref ∨ (m.receiver = .value ∧ t.copy = true)) ∧ m.typed = true ∧
      methodCall f.types = .ok m.body := by
  have hfind : ∀ ts : List Level, ∀ t m, findMethod ts = .ok (t, m) → t ∈ ts ∧ m ∈ t.methods := by
    intro ts
    induction ts with
    | nil => intro t m h; simp [findMethod] at h
    | cons a r ih =>
      intro t m h
      rw [findMethod_cons] at h
      have hst : ∀ (k : Receiver) (y : Except LookupError Method), a.step k = some y →
          y.map (fun m => (a, m)) = .ok (t, m) → t ∈ a :: r ∧ m ∈ t.methods := by
        intro k y hy h
        rcases y with e | x
        · simp [Except.map] at h
        · simp only [Except.map, Except.ok.injEq, Prod.mk.injEq] at h
          obtain ⟨rfl, rfl⟩ := h
          exact ⟨by simp, (step_mem hy).1⟩
      cases hv : a.step .value with
      | some y => rw [hv] at h; exact hst _ y hv h
      | none =>
        simp only [hv] at h
        cases hr : a.step .ref with
        | some y => rw [hr] at h; exact hst _ y hr h
        | none =>
          simp only [hr] at h
          cases hm : a.step .mutRef with
          | some y => rw [hm] at h; exact hst _ y hm h
          | none =>
            simp only [hm] at h
            obtain ⟨h1, h2⟩ := ih t m h
            exact ⟨List.mem_cons_of_mem _ h1, h2⟩
  simp only [deriveScoped, Option.bind_eq_some_iff] at h
  obtain ⟨fs, hfs, -⟩ := h
  obtain ⟨h1, h2⟩ := (mapM_eq_some_iff _ _ _).1 hfs
  obtain ⟨k, hk, rfl⟩ := List.getElem_of_mem hf
  have hc := h2 k hk (by omega)
  unfold ScopedField.called at hc
  split at hc
  · rename_i body hb
    have hb' := hb
    unfold methodCall at hb
    split at hb
    · simp at hb
    · rename_i t m ht
      obtain ⟨g1, g2⟩ := hfind _ t m ht
      refine ⟨t, g1, m, g2, ?_⟩
      split at hb
      · simp at hb
      · rename_i hn
        split at hb
        · rename_i hty
          simp only [Except.ok.injEq] at hb
          subst hb
          refine ⟨?_, hty, hb'⟩
          simp only [not_or, not_and, Bool.not_eq_false] at hn
          cases hr : m.receiver with
          | value => exact .inr ⟨rfl, hn.2 hr⟩
          | ref => exact .inl rfl
          | mutRef => exact absurd hr hn.1
        · simp at hb
  · cases hc

/-- C60: a struct without fields needs nothing in scope. -/
theorem C60_no_fields (tg : Target) (l : Layout) (name : String) :
    deriveScoped tg l name [] = deriveImpl tg l name [] := rfl

/-- C60, the exception: an inherent method `as_stdN(&self) -> Output` of the field's type silently takes
the place of the trait's, even if the trait is in scope. -/
theorem C60_shadowed_exception {f : ScopedField} (hwf : f.Wf) {t : Level} {r : List Level}
    (ht : f.types = t :: r) {m : Method} (hm : m ∈ t.methods) (ho : m.origin = .inherent)
    (hr : m.receiver = .ref) (hty : m.typed = true)
    (hv : ∀ x ∈ t.methods, x.receiver ≠ .value) : methodCall f.types = .ok m.body := by
  have h1 : t.step .value = none := step_none.2 hv
  have h2 : t.step .ref = some (.ok m) := by
    have : (t.methods.filter fun m => m.receiver = .ref).filter (fun m => m.origin = .inherent) =
        [m] := by
      rw [List.filter_filter]
      refine filter_receiver_nodup (hwf.distinct t (by simp [ht])) hm (by simp [ho, hr]) ?_
      intro x _ hx
      simp only [Bool.and_eq_true, decide_eq_true_eq] at hx
      rw [hx.1, ho]
    unfold Level.step
    simp only [this]
  rw [methodCall, ht, findMethod_cons, h1]
  simp only [h2, Except.map, hr, hty]
  rfl

theorem genFields_congr {tg : Target} {sal : Nat} {fs gs : List (String × Impl)}
    (h : All2 (fun (f g : String × Impl) => f.1 = g.1 ∧ f.2.out = g.2.out ∧
      f.2.alignment = g.2.alignment ∧ f.2.fromStd = g.2.fromStd ∧ f.2.outDebug = g.2.outDebug) fs gs)
    (i off : Nat) : genFields tg sal i off fs = genFields tg sal i off gs := by
  induction h generalizing i off with
  | nil => rfl
  | @cons f g fr gr hfg hr ih =>
    obtain ⟨n, f⟩ := f
    obtain ⟨n', g⟩ := g
    obtain ⟨h1, h2, h3, -, -⟩ := hfg
    simp only at h1 h2 h3
    subst h1
    have hn : nextAl sal fr = nextAl sal gr := by
      cases hr with
      | nil => rfl
      | cons hfg _ => exact hfg.2.2.1
    simp only [genFields, h2, hn, ih]

/-- C60: whatever the lookup finds, it has no influence on the memory layout of the Output, on
ALIGNMENT and on `from_stdN`, nor on whether the rest compiles. -/
theorem C60_rest {tg : Target} {l : Layout} {name : String} {fields : List ScopedField} {i : Impl}
    (h : deriveScoped tg l name fields = some i) :
    ∃ j, deriveImpl tg l name (fields.map fun f => (f.name, f.impl)) = some j ∧
      i.out = j.out ∧ i.alignment = j.alignment ∧ i.fromStd = j.fromStd := by
  simp only [deriveScoped, Option.bind_eq_some_iff] at h
  obtain ⟨fs, hfs, h⟩ := h
  have hrel : All2 (fun (f g : String × Impl) => f.1 = g.1 ∧ f.2.out = g.2.out ∧
      f.2.alignment = g.2.alignment ∧ f.2.fromStd = g.2.fromStd ∧ f.2.outDebug = g.2.outDebug) fs
      (fields.map fun f => (f.name, f.impl)) := by
    clear h
    induction fields generalizing fs with
    | nil =>
      simp only [List.mapM_nil, Option.pure_def, Option.some.injEq] at hfs
      subst hfs
      exact .nil
    | cons f r ih =>
      rw [mapM_option_cons] at hfs
      cases hc : f.called with
      | none => simp [hc] at hfs
      | some y =>
        cases hr : r.mapM ScopedField.called with
        | none => simp [hc, hr] at hfs
        | some ys =>
          simp only [hc, hr, Option.bind_some, Option.some.injEq, Option.map_some] at hfs
          subst hfs
          refine .cons ?_ (ih ys hr)
          unfold ScopedField.called at hc
          split at hc
          · simp only [Option.some.injEq] at hc
            subst hc
            exact ⟨rfl, rfl, rfl, rfl, rfl⟩
          · cases hc
  clear hfs
  generalize (fields.map fun f => (f.name, f.impl)) = gs at hrel ⊢
  have hal : structAl l fs = structAl l gs := by
    clear h
    unfold structAl
    congr 2
    induction hrel with
    | nil => rfl
    | cons hfg _ ih => rw [List.map_cons, List.map_cons, hfg.2.2.1, ih]
  have hall : (fs.all fun f => f.2.outDebug) =
      gs.all fun f => f.2.outDebug := by
    clear h hal
    induction hrel with
    | nil => rfl
    | cons hfg _ ih => rw [List.all_cons, List.all_cons, hfg.2.2.2.2, ih]
  have hconv : ∀ v, convFields Impl.fromStd fs v =
      convFields Impl.fromStd gs v := by
    intro v
    clear h hal hall
    induction hrel with
    | nil => rfl
    | cons hfg _ ih =>
      unfold convFields at ih ⊢
      rw [mapM_option_cons, mapM_option_cons, ih, hfg.1, hfg.2.2.2.1]
  have hnames : fs.map Prod.fst = gs.map Prod.fst := by
    clear h hal hall hconv
    induction hrel with
    | nil => rfl
    | cons hfg _ ih => rw [List.map_cons, List.map_cons, hfg.1, ih]
  have hg := genFields_congr (tg := tg) (sal := structAl l fs) hrel 0 0
  rw [deriveImpl_eq] at h
  split at h
  · rename_i hc
    rw [hg, hal, hall] at hc
    refine ⟨_, by rw [deriveImpl_eq]; exact if_pos hc, ?_⟩
    simp only [Option.some.injEq] at h
    subst h
    rw [hg, hal]
    refine ⟨rfl, rfl, ?_⟩
    funext v
    simp only [recordImpl, hconv, hnames]
  · cases h

/-- A field of type `bool` at a derive with `AsStd430` in scope. (For the next theorem: what would
happen if `bool` had an inherent method of the name; inherent methods need a type of one's own,
say a newtype with the same `AsStd430`.) -/
def Ex.plainBool : ScopedField :=
  { name := "on", impl := boolImpl .std430
    types := [{ copy := true, methods := [⟨.ref, .crevice, true, (boolImpl .std430).asStd⟩] }] }

/-- The same with an inherent `as_std430(&self)` that negates. -/
def Ex.negated : ScopedField :=
  { name := "on", impl := boolImpl .std430
    types := [{ copy := true, methods :=
      [⟨.ref, .crevice, true, (boolImpl .std430).asStd⟩,
       ⟨.ref, .inherent, true, fun v =>
          match v with
          | .bool b => some (boolToBool !b)
          | _ => none⟩] }] }

theorem Ex.plainBool_wf : Ex.plainBool.Wf := by
  refine ⟨⟨_, _, rfl⟩, ?_, ?_, ?_⟩
  · rintro t r m ht hm -
    simp only [Ex.plainBool, List.cons.injEq] at ht
    obtain ⟨rfl, -⟩ := ht
    simp only [List.mem_singleton] at hm
    subst hm
    exact ⟨rfl, rfl, rfl⟩
  · intro t ht
    simp only [Ex.plainBool, List.mem_singleton] at ht
    subst ht
    decide
  · intro _ _ _ _ _
    exact ⟨_, _, _, rfl, List.mem_cons_self, rfl⟩

theorem Ex.negated_wf : Ex.negated.Wf := by
  refine ⟨⟨_, _, rfl⟩, ?_, ?_, ?_⟩
  · rintro t r m ht hm ho
    simp only [Ex.negated, List.cons.injEq] at ht
    obtain ⟨rfl, -⟩ := ht
    simp only [List.mem_cons, List.not_mem_nil, or_false] at hm
    rcases hm with rfl | rfl
    · exact ⟨rfl, rfl, rfl⟩
    · cases ho
  · intro t ht
    simp only [Ex.negated, List.mem_singleton] at ht
    subst ht
    decide
  · intro _ _ _ _ _
    exact ⟨_, _, _, rfl, List.mem_cons_self, rfl⟩

/-- C60: the shadowing method is then used for `as_stdN` only, so conversions need not round-trip. -/
theorem C60_no_round_trip : ∃ i, deriveScoped x86_64 .std430 "S" [Ex.negated] = some i ∧
    (i.asStd (.struct [("on", .bool true)])).bind i.fromStd = some (.struct [("on", .bool false)]) := by
  have hm := C60_shadowed_exception Ex.negated_wf rfl
    (m := ⟨.ref, .inherent, true, fun v =>
          match v with
          | .bool b => some (boolToBool !b)
          | _ => none⟩) (by simp) rfl rfl rfl (by simp)
  have hc : Ex.negated.called = some ("on", { boolImpl .std430 with asStd := fun v =>
          match v with
          | .bool b => some (boolToBool !b)
          | _ => none }) := by
    rw [ScopedField.called, hm]
    rfl
  have : [Ex.negated].mapM ScopedField.called = some [("on", { boolImpl .std430 with asStd := fun v =>
          match v with
          | .bool b => some (boolToBool !b)
          | _ => none })] := by
    rw [mapM_option_cons, hc]
    rfl
  rw [deriveScoped, this, Option.bind_some, deriveImpl_eq, if_pos]
  · exact ⟨_, rfl, by with_unfolding_all rfl⟩
  · exact ⟨by decide +kernel, rfl⟩

/-- The hypotheses of the other theorems are met as well. -/
example : ∃ i, deriveScoped x86_64 .std430 "S" [Ex.plainBool] = some i ∧
    deriveImpl x86_64 .std430 "S" [("on", boolImpl .std430)] = some i := by
  have h := C60_derive (tg := x86_64) (l := .std430) (name := "S") (fields := [Ex.plainBool])
    (by simpa using Ex.plainBool_wf) (by simpa using ⟨_, _, _, rfl, List.mem_cons_self, rfl⟩) (by
      intro f hf t r m ht hm ho
      simp only [List.mem_singleton] at hf
      subst hf
      simp only [Ex.plainBool, List.cons.injEq] at ht
      obtain ⟨rfl, -⟩ := ht
      simp only [List.mem_singleton] at hm
      subst hm
      exact absurd rfl ho)
  rw [h]
  simp only [List.map_cons, List.map_nil]
  obtain ⟨i, hi⟩ := (C58_compiles x86_64 .std430 "S" [("on", boolImpl .std430)]).2 ⟨by simp [boolImpl],
    by decide +kernel, by
      intro f hf k hk
      simp only [List.mem_singleton] at hf
      subst hf
      simp only [List.length_singleton, Nat.lt_one_iff] at hk
      subst hk
      decide +kernel⟩
  exact ⟨i, hi, hi⟩

end Crevice
