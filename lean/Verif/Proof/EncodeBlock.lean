import Verif.Props.C54
import Verif.Proof.Block
import Verif.Proof.Sessions
/-
The bytes a Writer delivers for the members of a block are the reference encoding of the block.
-/
namespace Crevice

variable {tg : Target} {env : ForeignEnv} {l : Layout}

/-- The bytes of an item are the reference encoding of its value. -/
theorem Item.store (htg : tg.Valid) (henv : env.Lawful tg) (x : Item tg env l) {g : Glsl.Ty}
    (hg : x.ty.glsl = some g) (hpl : x.ty.plain = true) :
    ∃ d, x.ty.denote env x.val = some d ∧ Glsl.store tg.endian l g d = some x.bytes := by
  obtain ⟨o, bs, d, h1, h2, h3, h4⟩ := C54_as_bytes htg henv x.resolves hg hpl x.hasVal
  have h5 := x.bytes_eq
  rw [h1, Option.bind_some, h2, Option.some.injEq] at h5
  subst h5
  exact ⟨d, h3, h4⟩

theorem image_homog {a s : Nat} (ha : 0 < a) (xs : List StdVal) (hne : xs ≠ [])
    (hh : ∀ x ∈ xs, x.alignment = a ∧ x.bytes.length = s) (cur : Nat) :
    image cur xs ++ List.replicate (nextOffset s a - s) 0 =
      List.replicate (nextOffset cur a - cur) 0 ++
        (xs.map fun x => Glsl.padTo (nextOffset s a) x.bytes).flatten := by
  induction xs generalizing cur with
  | nil => exact absurd rfl hne
  | cons x r ih =>
    obtain ⟨h1, h2⟩ := hh x (by simp)
    have hp : Glsl.padTo (nextOffset s a) x.bytes = x.bytes ++ List.replicate (nextOffset s a - s) 0 := by
      rw [Glsl.padTo, h2]
    simp only [image, List.map_cons, List.flatten_cons, h1, hp]
    cases r with
    | nil => simp [image]
    | cons y r =>
      have := ih (by simp) (fun x hx => hh x (by simp [hx])) (nextOffset cur a + x.bytes.length)
      rw [List.append_assoc _ _ (List.replicate _ _), this, h2]
      have hd : a ∣ nextOffset cur a := nextOffset_dvd.resolve_left (by omega)
      rw [Nat.add_comm (nextOffset cur a) s, nextOffset_shift (.inr hd), Nat.add_sub_add_right]
      simp only [List.append_assoc]

/-- One entry written at `cur`. -/
theorem Entry.store (htg : tg.Valid) (henv : env.Lawful tg) (e : Entry tg env l) (hok : e.ElemsOk)
    (hpl : e.Plain) {g : Glsl.Ty} (hg : e.glsl = some g) (cur : Nat) :
    ∃ d bs z, e.denote = some d ∧ Glsl.store tg.endian l g d = some bs ∧
      List.replicate (Glsl.roundUp cur (g.align l) - cur) 0 ++ bs =
        image cur e.stds ++ List.replicate z 0 ∧ (e.Full → z = 0) := by
  cases e with
  | one x =>
    obtain ⟨h1, h2, h3, _⟩ := x.layout htg hg
    obtain ⟨d, hd, hs⟩ := x.store htg henv hg hpl
    refine ⟨d, _, 0, hd, hs, ?_, fun _ => rfl⟩
    simp only [Entry.stds, image, List.append_nil, List.replicate_zero]
    rw [show x.std.alignment = x.impl.alignment from rfl, h2]
    rfl
  | many t xs =>
    simp only [Entry.glsl, Option.map_eq_some_iff] at hg
    obtain ⟨g, hg, rfl⟩ := hg
    simp only [Entry.ElemsOk] at hok
    simp only [Entry.Plain] at hpl
    simp only [Entry.stds]
    cases xs with
    | nil =>
      refine ⟨.array [], [], Glsl.roundUp cur ((Glsl.Ty.array g 0).align l) - cur, rfl, rfl, ?_,
        fun h => absurd rfl h.1⟩
      simp only [List.map_nil, image, List.nil_append, List.append_nil]
      rfl
    | cons x r =>
      have hgx : x.ty.glsl = some g := by rw [(hok x (by simp)).1]; exact hg
      obtain ⟨h1, h2, h3, h4⟩ := x.layout htg hgx
      obtain ⟨h5, h6⟩ := h4 (hok x (by simp)).2
      have hal : (Glsl.Ty.array g (x :: r).length).align l = g.align l := by
        simp only [Glsl.Ty.align, h5]
      have hres : resolve tg env l t = some x.impl := by
        rw [← (hok x (by simp)).1]; exact x.resolves
      have hh := items_homog htg henv hres (fun y hy => (hok y hy).1)
      have himg := image_homog h1 ((x :: r).map Item.std) (by simp) hh cur
      rw [h6, h2] at himg
      -- the elements
      have hst : ∀ ys : List (Item tg env l), (∀ y ∈ ys, y ∈ x :: r) →
          ∃ ds, (ys.mapM fun (y : Item tg env l) => y.ty.denote env y.val) = some ds ∧
            (ds.mapM fun d => (Glsl.store tg.endian l g d).map (Glsl.padTo (Glsl.arrayStride l g))) =
              some (ys.map fun y => Glsl.padTo (Glsl.arrayStride l g) y.bytes) := by
        intro ys
        induction ys with
        | nil => intro _; exact ⟨[], rfl, rfl⟩
        | cons y ys ih =>
          intro hy
          have hm := hy y (by simp)
          obtain ⟨ds, i1, i2⟩ := ih fun z hz => hy z (by simp [hz])
          obtain ⟨d, hd, hs⟩ := y.store htg henv (g := g) (by rw [(hok y hm).1]; exact hg)
            (by rw [(hok y hm).1]; exact hpl)
          refine ⟨d :: ds, ?_, ?_⟩
          · rw [mapM_option_cons, hd, i1]; rfl
          · rw [mapM_option_cons, hs, i2]; rfl
      obtain ⟨ds, i1, i2⟩ := hst (x :: r) fun _ h => h
      have hlen : ds.length = (x :: r).length := ((mapM_eq_some_iff _ _ _).1 i1).1
      refine ⟨.array ds, ((x :: r).map fun y => Glsl.padTo (Glsl.arrayStride l g) y.bytes).flatten,
        Glsl.arrayStride l g - x.impl.out.size tg, by simp only [Entry.denote, i1]; rfl, ?_, ?_,
        fun hf => ?_⟩
      · simp only [Glsl.store]
        rw [if_pos hlen, i2]; rfl
      · rw [hal, himg, List.map_map]
        rfl
      · have hf2 := hf.2 x (by simp)
        rw [x.length htg henv] at hf2
        rw [← h6, nextOffset_self (.inr hf2), Nat.sub_self]

/-- All members. -/
theorem block_store (htg : tg.Valid) (henv : env.Lawful tg) (es : List (String × Entry tg env l))
    (hok : ∀ e ∈ es, e.2.ElemsOk) (hfull : ∀ e ∈ es.dropLast, e.2.Full) (hpl : ∀ e ∈ es, e.2.Plain)
    {ms : List (String × Glsl.Ty)} (hms : blockMembers es = some ms) (cur : Nat) :
    ∃ vs bs z, blockValues es = some vs ∧ Glsl.storeMembers tg.endian l ms vs cur = some bs ∧
      bs = image cur (entriesStds es) ++ List.replicate z 0 := by
  induction es generalizing ms cur with
  | nil =>
    simp only [blockMembers, Option.some.injEq] at hms
    subst hms
    exact ⟨[], [], 0, rfl, rfl, rfl⟩
  | cons e r ih =>
    obtain ⟨n, e⟩ := e
    simp only [blockMembers, Option.bind_eq_some_iff, Option.map_eq_some_iff] at hms
    obtain ⟨g, hg, ms, hms, rfl⟩ := hms
    have hsplit : entriesStds ((n, e) :: r) = e.stds ++ entriesStds r := by simp [entriesStds]
    have hok0 := hok (n, e) (by simp)
    have hpl0 := hpl (n, e) (by simp)
    obtain ⟨d, bs, z, h1, h2, h3, h4⟩ := e.store htg henv hok0 hpl0 hg cur
    cases r with
    | nil =>
      simp only [blockMembers, Option.some.injEq] at hms
      subst hms
      refine ⟨[(n, d)], _, z, by simp [blockValues, h1], by
        simp only [Glsl.storeMembers, if_true, h2, Option.bind_some, Option.map_some]; rfl, ?_⟩
      rw [List.append_nil, h3, hsplit]
      simp [entriesStds]
    | cons f r =>
      have hfe : e.Full := hfull (n, e) (by simp)
      have hz := h4 hfe
      subst hz
      rw [List.replicate_zero, List.append_nil] at h3
      obtain ⟨vs, rest, z, k1, k2, k3⟩ := ih (fun x hx => hok x (by simp [hx]))
        (fun x hx => hfull x (by simp [List.dropLast_cons_cons, hx])) (fun x hx => hpl x (by simp [hx]))
        hms (endOf cur e.stds)
      have hB : ∀ m (hm : m < e.stds.length), SliceAt (List.replicate cur 0 ++ image cur e.stds)
          ((places cur e.stds)[m]'(by rw [places_length]; exact hm)) e.stds[m].bytes := by
        intro m hm
        obtain ⟨hle, hs⟩ := image_slice cur e.stds m hm
        unfold SliceAt at hs ⊢
        rw [List.drop_append, List.drop_of_length_le (by simpa using hle), List.nil_append,
          List.length_replicate]
        exact hs
      have hend := (e.step htg henv hok0 hg cur hB).2.2 hfe
      refine ⟨(n, d) :: vs, List.replicate (Glsl.roundUp cur (g.align l) - cur) 0 ++ bs ++ rest, z,
        ?_, ?_, ?_⟩
      · simp only [blockValues, h1, Option.bind_some] at k1 ⊢
        rw [k1]; rfl
      · simp only [Glsl.storeMembers, if_true, h2, Option.bind_some]
        rw [← hend, k2]; rfl
      · rw [h3, k3, hsplit, image_append, List.append_assoc]

end Crevice
