import Verif.Props.C21
/-
Writing the members of a block one after the other.
-/
namespace Crevice

variable {tg : Target} {env : ForeignEnv} {l : Layout}

/-- A shader reads an item's value wherever its bytes stand. -/
theorem Item.read (htg : tg.Valid) (henv : env.Lawful tg) (x : Item tg env l) {g : Glsl.Ty}
    (hg : x.ty.glsl = some g) {buf : List Byte} {off : Nat} (hs : SliceAt buf off x.bytes) :
    Glsl.read tg.endian l g buf off = x.ty.denote env x.val ∧
      ∃ d, x.ty.denote env x.val = some d := by
  have h1 := x.bytes_eq
  simp only [Option.bind_eq_some_iff] at h1
  obtain ⟨o, ho, hb⟩ := h1
  obtain ⟨o', ho', hty, _⟩ := (conv_resolve henv x.resolves).as_ok x.val x.hasVal
  rw [ho, Option.some.injEq] at ho'
  subst ho'
  obtain ⟨hb', _⟩ := outBytes htg x.resolves hty
  rw [hb, Option.some.injEq] at hb'
  rw [hb'] at hs
  have hd := denote_as henv x.resolves x.hasVal ho
  rw [← hd]
  exact read_resolve htg tg.endian x.resolves hg hty hs

/-- What the Writer sees of an entry. -/
def Entry.stds : Entry tg env l → List StdVal
  | .one x => [x.std]
  | .many _ xs => xs.map Item.std

theorem Entry.leaves (e : Entry tg env l) : e.arg.leaves = e.stds := by
  cases e with
  | one x => simp only [Entry.arg, Entry.stds, x.arg_std, WVal.leaves]
  | many t xs => simp only [Entry.arg, Entry.stds, items_slice_leaves]

theorem Entry.wf (htg : tg.Valid) (henv : env.Lawful tg) (e : Entry tg env l) : e.arg.Wf := by
  cases e with
  | one x => exact x.wf htg henv
  | many t xs => exact wf_slice (items_wf htg henv xs)

/-- Facts about the alignment and stride of an item's type. -/
theorem Item.layout (htg : tg.Valid) (x : Item tg env l) {g : Glsl.Ty} (hg : x.ty.glsl = some g) :
    0 < x.impl.alignment ∧ (∀ off, nextOffset off x.impl.alignment = Glsl.roundUp off (g.align l)) ∧
    x.impl.out.size tg = g.size l ∧
    ((l = .std430 ∨ 16 ≤ x.impl.alignment) → Glsl.roundToVec4 l (g.align l) = g.align l ∧
      nextOffset (x.impl.out.size tg) x.impl.alignment = Glsl.arrayStride l g) := by
  have hl := laidOut htg x.resolves hg
  have hp := (agrees_resolve htg x.resolves hg).pow2
  have hpos := hp.pos
  refine ⟨hpos, ?_, hl.size, ?_⟩
  · intro off
    rw [nextOffset, if_neg (by omega), hl.alignment]
  · intro h
    have hr : Glsl.roundToVec4 l (g.align l) = g.align l := by
      rw [← hl.alignment]
      cases l with
      | std430 => rfl
      | std140 =>
        rcases h with h | h
        · exact Layout.noConfusion h
        · exact roundUp_16_small hp h
    refine ⟨hr, ?_⟩
    rw [nextOffset, if_neg (by omega), hl.alignment, hl.size, Glsl.arrayStride, hr]

/-- One entry, written at `cur`: it starts at the offset GLSL assigns, a shader reads its value, and
if it fills its array slots it ends where GLSL says. -/
theorem Entry.step (htg : tg.Valid) (henv : env.Lawful tg) (e : Entry tg env l) (hok : e.ElemsOk)
    {g : Glsl.Ty} (hg : e.glsl = some g) (cur : Nat) {B : List Byte}
    (hB : ∀ m (hm : m < e.stds.length),
      SliceAt B ((places cur e.stds)[m]'(by rw [places_length]; exact hm)) e.stds[m].bytes) :
    (e.stds ≠ [] → e.arg.firstOffset cur = Glsl.roundUp cur (g.align l)) ∧
    (Glsl.read tg.endian l g B (Glsl.roundUp cur (g.align l)) = e.denote ∧ ∃ d, e.denote = some d) ∧
    (e.Full → endOf cur e.stds = Glsl.roundUp cur (g.align l) + g.size l) := by
  cases e with
  | one x =>
    obtain ⟨h1, h2, h3, _⟩ := x.layout htg hg
    have hs := hB 0 (by simp [Entry.stds])
    simp only [Entry.stds, places, List.getElem_cons_zero] at hs
    rw [show x.std.alignment = x.impl.alignment from rfl, h2] at hs
    refine ⟨fun _ => ?_, x.read htg henv hg hs, fun _ => ?_⟩
    · simp only [Entry.arg, x.arg_std, WVal.firstOffset]
      exact h2 cur
    · simp only [Entry.stds, endOf]
      rw [show x.std.alignment = x.impl.alignment from rfl, h2,
        show x.std.bytes.length = x.bytes.length from rfl, x.length htg henv, h3]
  | many t xs =>
    simp only [Entry.glsl, Option.map_eq_some_iff] at hg
    obtain ⟨g, hg, rfl⟩ := hg
    simp only [Entry.ElemsOk] at hok
    simp only [Entry.stds] at hB ⊢
    cases xs with
    | nil =>
      refine ⟨fun h => absurd rfl h, ⟨?_, ⟨_, rfl⟩⟩, fun h => absurd rfl h.1⟩
      rfl
    | cons x r =>
      have hgx : x.ty.glsl = some g := by rw [(hok x (by simp)).1]; exact hg
      obtain ⟨h1, h2, h3, h4⟩ := x.layout htg hgx
      obtain ⟨h5, h6⟩ := h4 (hok x (by simp)).2
      have hal : (Glsl.Ty.array g (x :: r).length).align l = g.align l := by
        simp only [Glsl.Ty.align, h5]
      have hres : resolve tg env l t = some x.impl := by
        rw [← (hok x (by simp)).1]; exact x.resolves
      have hh := items_homog htg henv hres (fun y hy => (hok y hy).1)
      rw [hal]
      refine ⟨fun _ => ?_, ?_, fun hf => ?_⟩
      · simp only [Entry.arg, List.map_cons, WVal.firstOffset, x.arg_std]
        exact h2 cur
      · have hrd : ∀ m (hm : m < (x :: r).length),
            Glsl.read tg.endian l g B (Glsl.roundUp cur (g.align l) + m * Glsl.arrayStride l g) =
              (x :: r)[m].ty.denote env (x :: r)[m].val ∧
            ∃ d, (x :: r)[m].ty.denote env (x :: r)[m].val = some d := by
          intro m hm
          have hm' : m < ((x :: r).map Item.std).length := by simpa using hm
          have hs := hB m hm'
          rw [places_homog _ hh _ _ hm', h2, h6] at hs
          refine Item.read htg henv _ (by rw [(hok _ (List.getElem_mem hm)).1]; exact hg) ?_
          rw [List.getElem_map] at hs
          exact hs
        constructor
        · simp only [Glsl.read, Entry.denote]
          congr 1
          refine mapM_eq_of_get (by simp) ?_
          intro m hm1 hm2
          have := (hrd m hm2).1
          rw [List.getElem_range]
          exact this
        · obtain ⟨ds, hds⟩ := mapM_isSome (l := x :: r)
            (f := fun (y : Item tg env l) => y.ty.denote env y.val) (by
              intro y hy
              obtain ⟨m, hm, rfl⟩ := List.getElem_of_mem hy
              exact (hrd m hm).2)
          exact ⟨_, by simp only [Entry.denote, hds]; rfl⟩
      · have hf2 := hf.2 x (by simp)
        rw [x.length htg henv] at hf2
        rw [endOf_homog _ hh _ (by simp), h2, nextOffset_self (.inr hf2)]
        simp only [Glsl.Ty.size, h5]
        rw [show Glsl.roundUp (g.size l) (g.align l) = Glsl.arrayStride l g by
          rw [Glsl.arrayStride, h5], ← h6, nextOffset_self (.inr hf2)]
        simp only [List.length_map, List.length_cons, Nat.add_sub_cancel]
        rw [Nat.succ_mul]
        omega

theorem Glsl.memberOffsets_append (l : Layout) (cur : Nat) (ms ms' : List (String × Glsl.Ty)) :
    Glsl.memberOffsets l cur (ms ++ ms') =
      Glsl.memberOffsets l cur ms ++ Glsl.memberOffsets l (Glsl.endOfMembers l cur ms) ms' := by
  induction ms generalizing cur with
  | nil => simp [Glsl.memberOffsets, Glsl.endOfMembers]
  | cons m r ih => obtain ⟨n, t⟩ := m; simp [Glsl.memberOffsets, Glsl.endOfMembers, ih]

/-- The values of all entries. -/
def entriesStds (es : List (String × Entry tg env l)) : List StdVal := es.flatMap fun e => e.2.stds

theorem entries_leaves (es : List (String × Entry tg env l)) :
    leavesList (es.map fun e => e.2.arg) = entriesStds es := by
  induction es with
  | nil => rfl
  | cons e r ih =>
    rw [List.map_cons, leavesList_cons, ih, e.2.leaves]
    simp [entriesStds]

/-- All members of a block whose entries, except possibly the last, fill their slots. -/
theorem block_read (htg : tg.Valid) (henv : env.Lawful tg) (es : List (String × Entry tg env l))
    (hok : ∀ e ∈ es, e.2.ElemsOk) (hfull : ∀ e ∈ es.dropLast, e.2.Full)
    {ms : List (String × Glsl.Ty)} (hms : blockMembers es = some ms) (cur : Nat) {B : List Byte}
    (hB : ∀ m (hm : m < (entriesStds es).length),
      SliceAt B ((places cur (entriesStds es))[m]'(by rw [places_length]; exact hm))
        (entriesStds es)[m].bytes) :
    (∃ vs, blockValues es = some vs ∧ Glsl.readMembers tg.endian l ms B 0 cur = some vs) ∧
    (∀ m (hm : m < es.length), es[m].2.stds ≠ [] →
      (Glsl.memberOffsets l cur ms)[m]? =
        some (es[m].1, (returned cur (es.map fun e => e.2.arg))[m]'(by
          rw [returned_length]; simpa using hm))) := by
  induction es generalizing ms cur with
  | nil =>
    simp only [blockMembers, Option.some.injEq] at hms
    subst hms
    exact ⟨⟨[], rfl, rfl⟩, fun m hm => by simp at hm⟩
  | cons e r ih =>
    obtain ⟨n, e⟩ := e
    simp only [blockMembers, Option.bind_eq_some_iff, Option.map_eq_some_iff] at hms
    obtain ⟨g, hg, ms, hms, rfl⟩ := hms
    have hsplit : entriesStds ((n, e) :: r) = e.stds ++ entriesStds r := by simp [entriesStds]
    have hB1 : ∀ m (hm : m < e.stds.length),
        SliceAt B ((places cur e.stds)[m]'(by rw [places_length]; exact hm)) e.stds[m].bytes := by
      intro m hm
      have := hB m (by rw [hsplit, List.length_append]; omega)
      simp only [hsplit, places_append] at this
      rwa [List.getElem_append_left (by rw [places_length]; exact hm),
        List.getElem_append_left hm] at this
    have hB2 : ∀ m (hm : m < (entriesStds r).length),
        SliceAt B ((places (endOf cur e.stds) (entriesStds r))[m]'(by rw [places_length]; exact hm))
          (entriesStds r)[m].bytes := by
      intro m hm
      have := hB (e.stds.length + m) (by rw [hsplit, List.length_append]; omega)
      simp only [hsplit, places_append] at this
      rw [List.getElem_append_right (by rw [places_length]; omega),
        List.getElem_append_right (by omega)] at this
      simpa [places_length] using this
    obtain ⟨h1, ⟨h2, d, hd⟩, h3⟩ := e.step htg henv (hok (n, e) (by simp)) hg cur hB1
    cases r with
    | nil =>
      simp only [blockMembers, Option.some.injEq] at hms
      subst hms
      refine ⟨⟨[(n, d)], by simp [blockValues, hd], ?_⟩, ?_⟩
      · simp only [Glsl.readMembers, Nat.zero_add]
        rw [h2, hd]; rfl
      · intro m hm hne
        have hm0 : m = 0 := by simp at hm; exact hm
        subst hm0
        simp only [List.getElem_cons_zero] at hne ⊢
        simp [Glsl.memberOffsets, returned, h1 hne]
    | cons f r =>
      have hfe : e.Full := hfull (n, e) (by simp)
      have h3 := h3 hfe
      obtain ⟨⟨vs, hvs, hrd⟩, hof⟩ := ih (fun x hx => hok x (by simp [hx]))
        (fun x hx => hfull x (by simp [List.dropLast_cons_cons, hx])) hms (endOf cur e.stds) hB2
      refine ⟨⟨(n, d) :: vs, by simp only [blockValues, hd, Option.bind_some] at hvs ⊢; rw [hvs]; rfl, ?_⟩, ?_⟩
      · simp only [Glsl.readMembers, Nat.zero_add]
        rw [h2, hd, ← h3, hrd]; rfl
      · intro m hm hne
        cases m with
        | zero =>
          simp only [List.getElem_cons_zero] at hne ⊢
          simp [Glsl.memberOffsets, returned, h1 hne]
        | succ m =>
          simp only [Glsl.memberOffsets, List.getElem?_cons_succ, List.getElem_cons_succ] at hne ⊢
          rw [← h3, hof m (by simpa using hm) hne]
          simp only [List.map_cons, returned, List.getElem_cons_succ, e.leaves]

end Crevice
