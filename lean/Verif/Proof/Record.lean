import Verif.Proof.Decode
import Verif.Model.Types
/-
Conversions between records that work field by field and by name: what `easy_impl!` and the code
generated by the derive have in common.
-/
namespace Crevice

/-- Element-wise relation of two lists. -/
inductive All2 {α β : Type} (R : α → β → Prop) : List α → List β → Prop
  | nil : All2 R [] []
  | cons {a b l m} : R a b → All2 R l m → All2 R (a :: l) (b :: m)

theorem lookup_cons_if {β} (n m : String) (c : β) (r : List (String × β)) :
    ((m, c) :: r).lookup n = if n = m then some c else r.lookup n := by
  rw [List.lookup_cons]
  by_cases h : n = m
  · simp [h]
  · have : (n == m) = false := by simpa using h
    simp [h, this]

theorem lookup_eq_some_of_mem {β} {l : List (String × β)} (hn : (l.map Prod.fst).Nodup) {n : String}
    {b : β} (h : (n, b) ∈ l) : l.lookup n = some b := by
  induction l with
  | nil => simp at h
  | cons p r ih =>
    obtain ⟨m, c⟩ := p
    simp only [List.map_cons, List.nodup_cons] at hn
    rcases List.mem_cons.1 h with h | h'
    · cases h; simp [List.lookup]
    · have : n ≠ m := by
        rintro rfl
        exact hn.1 (List.mem_map.2 ⟨(n, b), h', rfl⟩)
      rw [lookup_cons_if]
      simp [this, ih hn.2 h']

theorem mem_of_lookup_eq_some {β} {l : List (String × β)} {n : String} {b : β}
    (h : l.lookup n = some b) : (n, b) ∈ l := by
  induction l with
  | nil => simp at h
  | cons p r ih =>
    obtain ⟨m, c⟩ := p
    rw [lookup_cons_if] at h
    by_cases hm : n = m
    · subst hm; simp at h; simp [h]
    · simp [hm] at h; exact List.mem_cons_of_mem _ (ih h)

theorem lookup_eq_none_of_not_mem {β} {l : List (String × β)} {n : String}
    (h : n ∉ l.map Prod.fst) : l.lookup n = none := by
  induction l with
  | nil => simp
  | cons p r ih =>
    obtain ⟨m, c⟩ := p
    simp only [List.map_cons, List.mem_cons, not_or] at h
    rw [lookup_cons_if]
    simp [h.1, ih h.2]

theorem lookup_isSome_of_mem {β} {l : List (String × β)} {n : String}
    (h : n ∈ l.map Prod.fst) : ∃ b, l.lookup n = some b := by
  cases hl : l.lookup n with
  | some b => exact ⟨b, rfl⟩
  | none =>
    exfalso
    induction l with
    | nil => simp at h
    | cons p r ih =>
      obtain ⟨m, c⟩ := p
      rw [lookup_cons_if] at hl
      by_cases hm : n = m
      · subst hm; simp at hl
      · rw [if_neg hm] at hl
        rw [List.map_cons, List.mem_cons] at h
        rcases h with h | h
        · exact hm h
        · exact ih h hl

theorem zeroedFields_eq (fs : List (String × RTy)) :
    zeroedFields fs = fs.map fun f => (f.1, zeroed f.2) := by
  induction fs with
  | nil => rfl
  | cons f r ih => obtain ⟨n, t⟩ := f; simp [zeroedFields, ih]

theorem HasTys_iff (fs : List (String × RTy)) (vs : List (String × RVal)) :
    HasTys fs vs ↔ All2 (fun f v => f.1 = v.1 ∧ RVal.HasTy f.2 v.2) fs vs := by
  induction fs generalizing vs with
  | nil =>
    constructor
    · intro h; rw [HasTys_nil h]; exact .nil
    · intro h; cases h; simp [HasTys]
  | cons f r ih =>
    obtain ⟨n, t⟩ := f
    constructor
    · intro h
      obtain ⟨v, s, rfl, h1, h2⟩ := HasTys_cons h
      exact .cons ⟨rfl, h1⟩ ((ih s).1 h2)
    · intro h
      cases h with
      | cons h1 h2 =>
        rename_i v s
        obtain ⟨m, v⟩ := v
        obtain ⟨h1, h3⟩ := h1
        simp only at h1 h3
        subst h1
        simp [HasTys, h3, (ih s).2 h2]

theorem HasTys_names {fs : List (String × RTy)} {vs : List (String × RVal)} (h : HasTys fs vs) :
    vs.map Prod.fst = fs.map Prod.fst := by
  rw [HasTys_iff] at h
  induction h with
  | nil => rfl
  | cons h1 _ ih => simp [h1.1, ih]

theorem HasTys_lookup {fs : List (String × RTy)} {vs : List (String × RVal)} (h : HasTys fs vs)
    {n : String} {t : RTy} (ht : fs.lookup n = some t) :
    ∃ v, vs.lookup n = some v ∧ RVal.HasTy t v := by
  rw [HasTys_iff] at h
  induction h with
  | nil => simp at ht
  | @cons f v r s h1 _ ih =>
    obtain ⟨m, t'⟩ := f
    obtain ⟨m', v⟩ := v
    obtain ⟨h1, h3⟩ := h1
    simp only at h1 h3
    subst h1
    rw [lookup_cons_if] at ht ⊢
    by_cases hm : n = m
    · subst hm
      simp at ht ⊢
      subst ht; exact h3
    · simp [hm] at ht ⊢
      exact ih ht

/-- Result of `S { inits.., ..zeroed() }`. -/
def fill (gs : List (String × RTy)) (inits : List (String × RVal)) : List (String × RVal) :=
  gs.map fun g => (g.1, (inits.lookup g.1).getD (zeroed g.2))

theorem fill_lookup {gs : List (String × RTy)} {inits : List (String × RVal)} {n : String} {t : RTy}
    (hg : gs.lookup n = some t) :
    (fill gs inits).lookup n = some ((inits.lookup n).getD (zeroed t)) := by
  induction gs with
  | nil => simp at hg
  | cons g r ih =>
    obtain ⟨m, u⟩ := g
    simp only [fill, List.map_cons]
    rw [lookup_cons_if] at hg ⊢
    by_cases hm : n = m
    · subst hm; simp at hg; simp [hg]
    · simp [hm] at hg ⊢; exact ih hg

theorem structUpdate_zeroed {gs : List (String × RTy)} (hg : (gs.map Prod.fst).Nodup)
    {inits : List (String × RVal)} (hi : (inits.map Prod.fst).Nodup)
    (hsub : ∀ x ∈ inits.map Prod.fst, x ∈ gs.map Prod.fst) :
    structUpdate (gs.map Prod.fst) inits (zeroed (.struct gs)) = some (.struct (fill gs inits)) := by
  rw [structUpdate, if_pos ⟨hi, hsub⟩]
  rw [mapM_map]
  have : ∀ (gs' : List (String × RTy)), (∀ g ∈ gs', g ∈ gs) →
      (gs'.mapM fun (g : String × RTy) =>
        match inits.lookup g.1 with
        | some v => some (g.1, v)
        | none => ((zeroed (.struct gs)).field g.1).map fun v => (g.1, v)) = some (fill gs' inits) := by
    intro gs'
    induction gs' with
    | nil => intro _; simp [fill]
    | cons g r ih =>
      intro hm
      rw [mapM_option_cons, ih fun g hg => hm g (List.mem_cons_of_mem _ hg)]
      have hz : (zeroed (.struct gs)).field g.1 = some (zeroed g.2) := by
        simp only [zeroed, RVal.field, zeroedFields_eq]
        apply lookup_eq_some_of_mem
        · rw [List.map_map]; exact hg
        · exact List.mem_map.2 ⟨g, hm g (by simp), rfl⟩
      cases hl : inits.lookup g.1 with
      | none => simp [hl, hz, fill]
      | some v => simp [hl, fill]
  exact congrArg (Option.map RVal.struct) (this gs fun _ h => h)

theorem structNew_eq {decl : List String} {inits : List (String × RVal)}
    (hi : inits.map Prod.fst = decl) (hn : decl.Nodup) :
    structNew decl inits = some (.struct inits) := by
  subst hi
  rw [structNew, if_pos ⟨hn, fun _ h => h⟩, mapM_map]
  have : ∀ (is : List (String × RVal)), (∀ i ∈ is, i ∈ inits) →
      (is.mapM fun (i : String × RVal) => (inits.lookup i.1).map fun v => (i.1, v)) = some is := by
    intro is
    induction is with
    | nil => intro _; simp
    | cons i r ih =>
      intro hm
      obtain ⟨n, v⟩ := i
      rw [mapM_option_cons, ih fun g hg => hm g (List.mem_cons_of_mem _ hg),
        lookup_eq_some_of_mem hn (hm (n, v) (by simp))]
      simp
  rw [this inits fun _ h => h]
  rfl

/-- Convert the listed fields and collect the results. -/
def convFields (conv : Impl → RVal → Option RVal) (fs : List (String × Impl)) (v : RVal) :
    Option (List (String × RVal)) :=
  fs.mapM fun f => (v.field f.1).bind fun x => (conv f.2 x).map fun y => (f.1, y)

/-- A field-by-field conversion between a struct with fields `fs` and an Output struct with fields
`gs`. -/
def recordImpl (gs : List (String × RTy)) (al : Nat) (fs : List (String × Impl)) : Impl :=
  { out := .struct gs
    alignment := al
    outDebug := true
    asStd := fun self => (convFields Impl.asStd fs self).bind fun inits =>
      structUpdate (gs.map Prod.fst) inits (zeroed (.struct gs))
    fromStd := fun input => (convFields Impl.fromStd fs input).bind fun inits =>
      structNew (fs.map Prod.fst) inits }

theorem convFields_names {conv : Impl → RVal → Option RVal} {fs : List (String × Impl)} {v : RVal}
    {inits : List (String × RVal)} (h : convFields conv fs v = some inits) :
    inits.map Prod.fst = fs.map Prod.fst := by
  induction fs generalizing inits with
  | nil => simp [convFields] at h; simp [← h]
  | cons f r ih =>
    unfold convFields at h
    rw [mapM_option_cons] at h
    cases hv : v.field f.1 with
    | none => simp [hv] at h
    | some x =>
      cases hc : conv f.2 x with
      | none => simp [hv, hc] at h
      | some y =>
        cases hr : convFields conv r v with
        | none => unfold convFields at hr; simp [hv, hc, hr] at h
        | some rs =>
          have := ih hr
          unfold convFields at hr
          simp [hv, hc, hr] at h
          simp [← h, this]

theorem convFields_mem {conv : Impl → RVal → Option RVal} {fs : List (String × Impl)} {v : RVal}
    {inits : List (String × RVal)} (h : convFields conv fs v = some inits) {n : String} {i : Impl}
    (hm : (n, i) ∈ fs) : ∃ x y, v.field n = some x ∧ conv i x = some y ∧ (n, y) ∈ inits := by
  induction fs generalizing inits with
  | nil => simp at hm
  | cons f r ih =>
    unfold convFields at h
    rw [mapM_option_cons] at h
    cases hv : v.field f.1 with
    | none => simp [hv] at h
    | some x =>
      cases hc : conv f.2 x with
      | none => simp [hv, hc] at h
      | some y =>
        cases hr : convFields conv r v with
        | none => unfold convFields at hr; simp [hv, hc, hr] at h
        | some rs =>
          have ih' := @ih rs hr
          unfold convFields at hr
          simp [hv, hc, hr] at h
          subst h
          rcases List.mem_cons.1 hm with rfl | hm
          · exact ⟨x, y, hv, hc, by simp⟩
          · obtain ⟨x', y', h1, h2, h3⟩ := ih' hm
            exact ⟨x', y', h1, h2, List.mem_cons_of_mem _ h3⟩

theorem convFields_exists {conv : Impl → RVal → Option RVal} {fs : List (String × Impl)} {v : RVal}
    (h : ∀ n i, (n, i) ∈ fs → ∃ x y, v.field n = some x ∧ conv i x = some y) :
    ∃ inits, convFields conv fs v = some inits := by
  induction fs with
  | nil => exact ⟨[], by simp [convFields]⟩
  | cons f r ih =>
    obtain ⟨n, i⟩ := f
    obtain ⟨x, y, h1, h2⟩ := h n i (by simp)
    obtain ⟨rs, hr⟩ := ih fun n i hm => h n i (List.mem_cons_of_mem _ hm)
    unfold convFields at hr
    exact ⟨(n, y) :: rs, by unfold convFields; rw [mapM_option_cons]; simp [h1, h2, hr]⟩

/-- Side conditions under which a record conversion behaves. -/
structure RecordOk (gs : List (String × RTy)) (fs : List (String × Impl)) : Prop where
  gnodup : (gs.map Prod.fst).Nodup
  fnodup : (fs.map Prod.fst).Nodup
  sub : ∀ n i, (n, i) ∈ fs → gs.lookup n = some i.out

theorem RecordOk.names_sub {gs fs} (h : RecordOk gs fs) : ∀ x ∈ fs.map Prod.fst, x ∈ gs.map Prod.fst := by
  intro x hx
  obtain ⟨⟨n, i⟩, hm, rfl⟩ := List.mem_map.1 hx
  exact List.mem_map.2 ⟨_, mem_of_lookup_eq_some (h.sub n i hm), rfl⟩

theorem recordImpl_asStd {gs fs} (h : RecordOk gs fs) (al : Nat) {v : RVal}
    {inits : List (String × RVal)} (hc : convFields Impl.asStd fs v = some inits) :
    (recordImpl gs al fs).asStd v = some (.struct (fill gs inits)) := by
  have hn := convFields_names hc
  simp only [recordImpl, hc, Option.bind_some]
  exact structUpdate_zeroed h.gnodup (by rw [hn]; exact h.fnodup) (by rw [hn]; exact h.names_sub)

theorem recordImpl_fromStd {gs fs} (h : RecordOk gs fs) (al : Nat) {o : RVal}
    {inits : List (String × RVal)} (hc : convFields Impl.fromStd fs o = some inits) :
    (recordImpl gs al fs).fromStd o = some (.struct inits) := by
  simp only [recordImpl, hc, Option.bind_some]
  exact structNew_eq (convFields_names hc) h.fnodup

/-- Every converted field is the conversion of the field of the same name. -/
theorem recordImpl_as_field {gs fs} (h : RecordOk gs fs) {al : Nat} {v o : RVal}
    (ha : (recordImpl gs al fs).asStd v = some o) {n : String} {i : Impl} (hm : (n, i) ∈ fs) :
    ∃ x y, v.field n = some x ∧ i.asStd x = some y ∧ o.field n = some y := by
  cases hc : convFields Impl.asStd fs v with
  | none => simp [recordImpl, hc] at ha
  | some inits =>
    rw [recordImpl_asStd h al hc] at ha
    cases ha
    obtain ⟨x, y, h1, h2, h3⟩ := convFields_mem hc hm
    refine ⟨x, y, h1, h2, ?_⟩
    have hl : inits.lookup n = some y :=
      lookup_eq_some_of_mem (by rw [convFields_names hc]; exact h.fnodup) h3
    simp [RVal.field, fill_lookup (h.sub n i hm), hl]

/-- Every other field of the Output struct is zero. -/
theorem recordImpl_as_pad {gs fs} (h : RecordOk gs fs) {al : Nat} {v o : RVal}
    (ha : (recordImpl gs al fs).asStd v = some o) {n : String} {t : RTy}
    (hm : n ∉ fs.map Prod.fst) (hg : gs.lookup n = some t) : o.field n = some (zeroed t) := by
  cases hc : convFields Impl.asStd fs v with
  | none => simp [recordImpl, hc] at ha
  | some inits =>
    rw [recordImpl_asStd h al hc] at ha
    cases ha
    have hl : inits.lookup n = none :=
      lookup_eq_none_of_not_mem (by rw [convFields_names hc]; exact hm)
    simp [RVal.field, fill_lookup hg, hl]

theorem recordImpl_from_field {gs fs} (h : RecordOk gs fs) {al : Nat} {v o : RVal}
    (ha : (recordImpl gs al fs).fromStd o = some v) {n : String} {i : Impl} (hm : (n, i) ∈ fs) :
    ∃ y x, o.field n = some y ∧ i.fromStd y = some x ∧ v.field n = some x := by
  cases hc : convFields Impl.fromStd fs o with
  | none => simp [recordImpl, hc] at ha
  | some inits =>
    rw [recordImpl_fromStd h al hc] at ha
    cases ha
    obtain ⟨x, y, h1, h2, h3⟩ := convFields_mem hc hm
    exact ⟨x, y, h1, h2, lookup_eq_some_of_mem (by rw [convFields_names hc]; exact h.fnodup) h3⟩

/-- `as` succeeds, is well typed and is undone by `from`, if that holds of the fields. -/
theorem recordImpl_as_ok {gs fs} (h : RecordOk gs fs) (al : Nat) {vs : List (String × RVal)}
    (hv : All2 (fun (f : String × Impl) (x : String × RVal) => f.1 = x.1 ∧
      ∃ y, f.2.asStd x.2 = some y ∧ RVal.HasTy f.2.out y ∧ f.2.fromStd y = some x.2) fs vs) :
    ∃ o, (recordImpl gs al fs).asStd (.struct vs) = some o ∧ RVal.HasTy (.struct gs) o ∧
      (recordImpl gs al fs).fromStd o = some (.struct vs) := by
  have hnames : vs.map Prod.fst = fs.map Prod.fst := by
    have : ∀ {fs : List (String × Impl)} {vs : List (String × RVal)}, All2 (fun (f : String × Impl) (x : String × RVal) => f.1 = x.1 ∧
      ∃ y, f.2.asStd x.2 = some y ∧ RVal.HasTy f.2.out y ∧ f.2.fromStd y = some x.2) fs vs →
      vs.map Prod.fst = fs.map Prod.fst := by
      intro fs vs h
      induction h with
      | nil => rfl
      | cons h1 _ ih => simp [h1.1, ih]
    exact this hv
  have hvn : (vs.map Prod.fst).Nodup := by rw [hnames]; exact h.fnodup
  have hmem : ∀ n i, (n, i) ∈ fs → ∃ x, (n, x) ∈ vs ∧
      ∃ y, i.asStd x = some y ∧ RVal.HasTy i.out y ∧ i.fromStd y = some x := by
    clear h hnames hvn
    induction hv with
    | nil => intro n i hm; simp at hm
    | @cons f x r s h1 _ ih =>
      intro n i hm
      obtain ⟨m, x⟩ := x
      rcases List.mem_cons.1 hm with rfl | hm
      · obtain ⟨h1, h2⟩ := h1
        simp only at h1; subst h1
        exact ⟨x, by simp, h2⟩
      · obtain ⟨x', h3, h4⟩ := ih n i hm
        exact ⟨x', List.mem_cons_of_mem _ h3, h4⟩
  obtain ⟨inits, hc⟩ := convFields_exists (conv := Impl.asStd) (fs := fs) (v := .struct vs)
    (fun n i hm => by
      obtain ⟨x, hx, y, hy, _⟩ := hmem n i hm
      exact ⟨x, y, lookup_eq_some_of_mem hvn hx, hy⟩)
  have hin : (inits.map Prod.fst).Nodup := by rw [convFields_names hc]; exact h.fnodup
  refine ⟨_, recordImpl_asStd h al hc, ?_, ?_⟩
  · -- well typed
    simp only [RVal.HasTy]
    have : ∀ gs' : List (String × RTy), (∀ g ∈ gs', g ∈ gs) → HasTys gs' (fill gs' inits) := by
      intro gs'
      induction gs' with
      | nil => intro _; simp [fill, HasTys]
      | cons g r ih =>
        intro hm
        obtain ⟨n, t⟩ := g
        simp only [fill, List.map_cons, HasTys, true_and]
        refine ⟨?_, ih fun g hg => hm g (List.mem_cons_of_mem _ hg)⟩
        cases hl : inits.lookup n with
        | none => simpa using hasTy_zeroed t
        | some y =>
          have hnm : n ∈ fs.map Prod.fst := by
            rw [← convFields_names hc]
            exact List.mem_map.2 ⟨_, mem_of_lookup_eq_some hl, rfl⟩
          obtain ⟨⟨m, i⟩, hfi, rfl⟩ := List.mem_map.1 hnm
          obtain ⟨x', y', h1, h2, h3⟩ := convFields_mem hc hfi
          obtain ⟨x, hx, y2, hy, hty, _⟩ := hmem _ i hfi
          have e1 : x' = x := by
            have := lookup_eq_some_of_mem hvn hx
            simp only [RVal.field] at h1
            rw [this] at h1; exact (Option.some.inj h1).symm
          subst e1
          rw [hy] at h2; cases h2
          have e2 := lookup_eq_some_of_mem hin h3
          rw [hl] at e2; cases e2
          have e3 := h.sub _ i hfi
          have e4 := lookup_eq_some_of_mem h.gnodup (hm (m, t) (by simp))
          rw [e3] at e4; cases e4
          simpa using hty
    exact this gs fun _ h => h
  · -- round trip
    have hcf : convFields Impl.fromStd fs (.struct (fill gs inits)) = some vs := by
      have : ∀ (fs' : List (String × Impl)) (vs' : List (String × RVal)), (∀ f ∈ fs', f ∈ fs) →
          (∀ x ∈ vs', x ∈ vs) → vs'.map Prod.fst = fs'.map Prod.fst →
          convFields Impl.fromStd fs' (.struct (fill gs inits)) = some vs' := by
        intro fs'
        induction fs' with
        | nil => intro vs' _ _ hn; simp at hn; simp [convFields, hn]
        | cons f r ih =>
          intro vs' hf hx hn
          cases vs' with
          | nil => simp at hn
          | cons w ws =>
            obtain ⟨n, i⟩ := f
            obtain ⟨m, x⟩ := w
            simp only [List.map_cons, List.cons.injEq] at hn
            obtain ⟨rfl, hn⟩ := hn
            have hr := ih ws (fun f hf' => hf f (List.mem_cons_of_mem _ hf'))
              (fun x hx' => hx x (List.mem_cons_of_mem _ hx')) hn
            obtain ⟨x2, hx2, y, hy, _, hback⟩ := hmem m i (hf _ (by simp))
            have hxl := lookup_eq_some_of_mem hvn (hx (m, x) (by simp))
            have hxl2 := lookup_eq_some_of_mem hvn hx2
            rw [hxl] at hxl2; cases hxl2
            obtain ⟨x', y', h1, h2, h3⟩ := convFields_mem hc (hf (m, i) (by simp))
            simp only [RVal.field, hxl, Option.some.injEq] at h1
            subst h1
            rw [hy] at h2; cases h2
            have hl := lookup_eq_some_of_mem hin h3
            unfold convFields at hr ⊢
            rw [mapM_option_cons, hr]
            simp [RVal.field, fill_lookup (h.sub m i (hf _ (by simp))), hl, hback]
      exact this fs vs (fun _ h => h) (fun _ h => h) hnames
    exact recordImpl_fromStd h al hcf

/-- `from` succeeds on every value of the Output type, field by field in order. -/
theorem recordImpl_from_ok {gs fs} (h : RecordOk gs fs) (al : Nat) {o : RVal}
    (ho : RVal.HasTy (.struct gs) o) {P : Impl → RVal → Prop}
    (hP : ∀ n i, (n, i) ∈ fs → ∀ y, RVal.HasTy i.out y → ∃ x, i.fromStd y = some x ∧ P i x) :
    ∃ vs, (recordImpl gs al fs).fromStd o = some (.struct vs) ∧
      All2 (fun (f : String × Impl) (x : String × RVal) => f.1 = x.1 ∧ P f.2 x.2) fs vs := by
  cases o <;> simp only [RVal.HasTy] at ho
  rename_i os
  have hf : ∀ n i, (n, i) ∈ fs → ∃ y x, (RVal.struct os).field n = some y ∧ i.fromStd y = some x ∧ P i x := by
    intro n i hm
    obtain ⟨y, h1, h2⟩ := HasTys_lookup ho (h.sub n i hm)
    obtain ⟨x, h3, h4⟩ := hP n i hm y h2
    exact ⟨y, x, h1, h3, h4⟩
  have key : ∀ fs' : List (String × Impl), (∀ f ∈ fs', f ∈ fs) →
      ∃ vs, convFields Impl.fromStd fs' (.struct os) = some vs ∧
        All2 (fun (f : String × Impl) (x : String × RVal) => f.1 = x.1 ∧ P f.2 x.2) fs' vs := by
    intro fs'
    induction fs' with
    | nil => intro _; exact ⟨[], by simp [convFields], .nil⟩
    | cons f r ih =>
      intro hm
      obtain ⟨n, i⟩ := f
      obtain ⟨vs, h1, h2⟩ := ih fun f hf' => hm f (List.mem_cons_of_mem _ hf')
      obtain ⟨y, x, h3, h4, h5⟩ := hf n i (hm _ (by simp))
      unfold convFields at h1
      exact ⟨(n, x) :: vs, by unfold convFields; rw [mapM_option_cons]; simp [h3, h4, h1],
        .cons ⟨rfl, h5⟩ h2⟩
  obtain ⟨vs, h1, h2⟩ := key fs fun _ h => h
  exact ⟨vs, recordImpl_fromStd h al h1, h2⟩

end Crevice
