import Verif.Proof.Denote
/-
Bytes that do not belong to a scalar component are zero, and reading depends on no others.
-/
namespace Glsl

theorem Ty.ind {P : Ty → Prop} (hs : ∀ s, P (.scalar s)) (hv : ∀ s n, P (.vec s n))
    (hm : ∀ s c r, P (.mat s c r)) (ha : ∀ t n, P t → P (.array t n))
    (hst : ∀ n ms, (∀ m ∈ ms, P m.2) → P (.struct n ms))
    (hal : ∀ a t, P t → P (.aligned a t)) : ∀ t, P t := by
  intro t
  refine Ty.rec (motive_1 := P) (motive_2 := fun fs => ∀ f ∈ fs, P f.2)
    (motive_3 := fun f => P f.2) hs hv hm ha hst hal ?_ ?_ ?_ t
  · intro f hf; simp at hf
  · intro f r h1 h2 g hg
    rcases List.mem_cons.1 hg with rfl | hg
    · exact h1
    · exact h2 g hg
  · intro n t h; exact h

theorem scalarCells_shift (s : Scalar) (n off d : Nat) :
    scalarCells s n (d + off) = (scalarCells s n off).map fun c => (d + c.1, c.2) := by
  simp [scalarCells, Nat.add_assoc]

/-- The cells of a type at another offset. -/
theorem cells_shift (l : Crevice.Layout) (t : Ty) (d off : Nat) :
    cells l t (d + off) = (cells l t off).map fun c => (d + c.1, c.2) := by
  induction t using Ty.ind generalizing off with
  | hs s => simp [cells]
  | hv s n => simp only [cells, scalarCells_shift]
  | hm s c r =>
    simp only [cells, List.map_flatMap]
    congr 1
    funext i
    rw [Nat.add_assoc, scalarCells_shift]
  | ha t n ih =>
    simp only [cells, List.map_flatMap]
    congr 1
    funext i
    rw [Nat.add_assoc, ih]
  | hst n ms ih =>
    simp only [cells]
    have : ∀ cur, memberCells l ms (d + off) cur =
        (memberCells l ms off cur).map fun c => (d + c.1, c.2) := by
      induction ms with
      | nil => intro cur; rfl
      | cons m r ihr =>
        intro cur
        obtain ⟨n, t⟩ := m
        simp only [memberCells, List.map_append]
        rw [Nat.add_assoc, ih (n, t) (by simp), ihr fun m hm => ih m (List.mem_cons_of_mem _ hm)]
    exact this 0
  | hal a t ih => simp only [cells]; exact ih off

theorem memberCells_shift (l : Crevice.Layout) (ms : List (String × Ty)) (d off cur : Nat) :
    memberCells l ms (d + off) cur = (memberCells l ms off cur).map fun c => (d + c.1, c.2) := by
  induction ms generalizing cur with
  | nil => rfl
  | cons m r ih =>
    obtain ⟨n, t⟩ := m
    simp only [memberCells, List.map_append, ih]
    rw [Nat.add_assoc, cells_shift]

theorem memberCells_mem {l : Crevice.Layout} {ms : List (String × Ty)} {base cur : Nat} {n : String}
    {k : Nat} (h : (n, k) ∈ memberOffsets l cur ms) :
    ∃ g, (n, g) ∈ ms ∧ ∀ c ∈ cells l g (base + k), c ∈ memberCells l ms base cur := by
  induction ms generalizing cur with
  | nil => simp [memberOffsets] at h
  | cons m r ih =>
    obtain ⟨n', g⟩ := m
    simp only [memberOffsets] at h
    rcases List.mem_cons.1 h with h | h
    · cases h
      exact ⟨g, by simp, fun c hc => by simp only [memberCells]; exact List.mem_append_left _ hc⟩
    · obtain ⟨g', h1, h2⟩ := ih h
      exact ⟨g', List.mem_cons_of_mem _ h1, fun c hc => by
        simp only [memberCells]; exact List.mem_append_right _ (h2 c hc)⟩

theorem memberOffsets_of_mem {l : Crevice.Layout} {ms : List (String × Ty)} (cur : Nat) {m : String × Ty}
    (h : m ∈ ms) : ∃ k, (m.1, k) ∈ memberOffsets l cur ms := by
  induction ms generalizing cur with
  | nil => simp at h
  | cons x r ih =>
    obtain ⟨n', g⟩ := x
    simp only [memberOffsets]
    rcases List.mem_cons.1 h with rfl | h
    · exact ⟨_, List.mem_cons_self ..⟩
    · obtain ⟨k, hk⟩ := ih (roundUp cur (g.align l) + g.size l) h
      exact ⟨k, List.mem_cons_of_mem _ hk⟩

end Glsl

namespace Crevice

/-- Byte `k` is in some cell of the list. -/
def CellsHit (cs : List (Nat × Nat)) (k : Nat) : Prop := ∃ c ∈ cs, c.1 ≤ k ∧ k < c.1 + c.2

theorem cellsHit_shift {l : Layout} {g : Glsl.Ty} {d k : Nat} (h : Glsl.Occupied l g k) :
    CellsHit (Glsl.cells l g d) (d + k) := by
  obtain ⟨c, hc, h1, h2⟩ := h
  refine ⟨(d + c.1, c.2), ?_, by simp only; omega, by simp only; omega⟩
  have := Glsl.cells_shift l g d 0
  rw [Nat.add_zero] at this
  rw [this]
  exact List.mem_map.2 ⟨c, hc, rfl⟩

/-- Every byte of a struct is a byte of one of its fields. -/
theorem field_at (e : Endian) {gs : List (String × RTy)} {os : List (String × RVal)}
    (h : HasTys gs os) (off : Nat) {k : Nat} {b : Byte} (hb : (encFields e os)[k]? = some b) :
    ∃ n t v k₀ j, (n, t) ∈ gs ∧ (n, v) ∈ os ∧ (n, k₀) ∈ natOffsets off gs ∧ RVal.HasTy t v ∧
      off + k = k₀ + j ∧ (enc e v)[j]? = some b := by
  induction gs generalizing os off k with
  | nil => rw [HasTys_nil h] at hb; simp [encFields] at hb
  | cons g r ih =>
    obtain ⟨m, u⟩ := g
    obtain ⟨v, s, rfl, h1, h2⟩ := HasTys_cons h
    simp only [encFields] at hb
    have hl := enc_length e h1
    by_cases hk : k < (enc e v).length
    · rw [List.getElem?_append_left hk] at hb
      exact ⟨m, u, v, off, k, by simp, by simp, by simp [natOffsets], h1, rfl, hb⟩
    · rw [List.getElem?_append_right (by omega)] at hb
      obtain ⟨n, t, w, k₀, j, a1, a2, a3, a4, a5, a6⟩ := ih h2 (off + u.natSize) hb
      exact ⟨n, t, w, k₀, j, List.mem_cons_of_mem _ a1, List.mem_cons_of_mem _ a2, by
        simp only [natOffsets]; exact List.mem_cons_of_mem _ a3, a4, by omega, a6⟩

/-- A record conversion only puts non-zero bytes where its fields' conversions do. -/
theorem record_nonzero (e : Endian) {gs fs} (hok : RecordOk gs fs) {al : Nat} {v o : RVal}
    (ha : (recordImpl gs al fs).asStd v = some o) (ho : RVal.HasTy (.struct gs) o) {P : Nat → Prop}
    (H : ∀ n i, (n, i) ∈ fs → ∀ x y k₀, i.asStd x = some y → RVal.HasTy i.out y →
      (natOffsets 0 gs).lookup n = some k₀ → ∀ j b, (enc e y)[j]? = some b → b ≠ 0 → P (k₀ + j))
    {k : Nat} {b : Byte} (hb : (enc e o)[k]? = some b) (hne : b ≠ 0) : P k := by
  have ho' := ho
  cases o <;> simp only [RVal.HasTy] at ho
  rename_i os
  simp only [enc] at hb
  obtain ⟨n, t, w, k₀, j, a1, a2, a3, a4, a5, a6⟩ := field_at e ho 0 hb
  have hnod : (os.map Prod.fst).Nodup := by rw [HasTys_names ho]; exact hok.gnodup
  have hw : (RVal.struct os).field n = some w := lookup_eq_some_of_mem hnod a2
  have hk₀ : (natOffsets 0 gs).lookup n = some k₀ :=
    lookup_eq_some_of_mem (by rw [natOffsets_names]; exact hok.gnodup) a3
  have ht : gs.lookup n = some t := lookup_eq_some_of_mem hok.gnodup a1
  rw [Nat.zero_add] at a5
  subst a5
  by_cases hm : n ∈ fs.map Prod.fst
  · obtain ⟨⟨n', i⟩, hi, rfl⟩ := List.mem_map.1 hm
    obtain ⟨x, y, h1, h2, h3⟩ := recordImpl_as_field hok ha hi
    simp only at hw
    rw [hw] at h3; cases h3
    have := hok.sub _ i hi
    simp only at ht
    rw [ht] at this; cases this
    exact H _ i hi x w k₀ h2 a4 hk₀ j b a6 hne
  · have hz := recordImpl_as_pad hok ha hm ht
    rw [hw] at hz; cases hz
    rw [enc_zeroed] at a6
    have := List.mem_of_getElem? a6
    exact absurd (List.eq_of_mem_replicate this) hne

theorem vec_occupied (e : Endian) {l : Layout} {m : MathTy} {i : Impl} (hk : m.kind ≠ .matrix)
    (h : vecImpl l m = some i) {o : RVal} (ho : RVal.HasTy i.out o)
    {k : Nat} {b : Byte} (hb : (enc e o)[k]? = some b) :
    CellsHit (Glsl.scalarCells m.scalar.glsl m.dim 0) k := by
  obtain ⟨c, hc, h2, h4, rfl⟩ := vecImpl_shape hk h
  have hlt : k < (enc e o).length := by
    rcases Nat.lt_or_ge k (enc e o).length with h | h
    · exact h
    · rw [List.getElem?_eq_none h] at hb; cases hb
  rw [enc_length e ho] at hlt
  simp only [recordImpl, RTy.natSize, natSizeFields_replicate, fieldNames_length h4,
    MScalar.rty_natSize] at hlt
  have hpos : 0 < m.scalar.glsl.size := by cases m.scalar <;> decide
  refine ⟨(k / m.scalar.glsl.size * m.scalar.glsl.size, m.scalar.glsl.size), ?_, ?_, ?_⟩
  · simp only [Glsl.scalarCells, List.mem_map, List.mem_range, Nat.zero_add]
    exact ⟨k / m.scalar.glsl.size, (Nat.div_lt_iff_lt_mul hpos).2 hlt, rfl⟩
  · exact Nat.div_mul_le_self _ _
  · have := Nat.mod_lt k hpos
    simp only
    have h3 := Nat.div_add_mod k m.scalar.glsl.size
    rw [Nat.mul_comm] at h3
    omega

theorem math_nonzero (e : Endian) {l : Layout} {m : MathTy} {i : Impl} (h : mathImpl l m = some i)
    {g : Glsl.Ty} (hg : m.glsl = some g) {v o : RVal} (ha : i.asStd v = some o)
    (ho : RVal.HasTy i.out o) {k : Nat} {b : Byte} (hb : (enc e o)[k]? = some b) (hne : b ≠ 0) :
    Glsl.Occupied l g k := by
  have hm := math_glsl h
  rw [hg] at hm; cases hm
  by_cases hk : m.kind = .matrix
  · rw [if_pos hk]
    obtain ⟨col, gs, hcol, h2, h4, _, hok, rfl⟩ := matImpl_shape hk h
    have hkc : m.column.kind ≠ .matrix := by simp [MathTy.column]
    refine record_nonzero e (recordOk_mat hok) ha ho ?_ hb hne
    intro n c hc x y k₀ hx hy hk₀ j b' hb' _
    obtain ⟨n', hn', he⟩ := List.mem_map.1 hc
    cases he
    obtain ⟨q, hq, rfl⟩ := List.mem_iff_getElem.1 hn'
    rw [hok.offsets q hq] at hk₀
    cases hk₀
    obtain ⟨c, h5, h6, h7⟩ := vec_occupied e hkc hcol hy hb'
    refine ⟨(q * Glsl.columnStride l m.scalar.glsl m.dim + c.1, c.2), ?_, by simp only; omega,
      by simp only; omega⟩
    simp only [Glsl.cells, List.mem_flatMap, List.mem_range]
    refine ⟨q, by rwa [fieldNames_length h4] at hq, ?_⟩
    rw [Nat.zero_add]
    have := Glsl.scalarCells_shift m.scalar.glsl m.dim 0 (q * Glsl.columnStride l m.scalar.glsl m.dim)
    rw [Nat.add_zero] at this
    rw [this]
    exact List.mem_map.2 ⟨c, h5, rfl⟩
  · rw [if_neg hk]
    rw [mathImpl_vec hk] at h
    exact vec_occupied e hk h ho hb

theorem leaf_occupied (e : Endian) {l : Layout} {s : MScalar} {c : Impl} (h : mscalarImpl l s = some c)
    {o : RVal} (ho : RVal.HasTy c.out o) {k : Nat} {b : Byte} (hb : (enc e o)[k]? = some b) :
    Glsl.Occupied l (.scalar s.glsl) k := by
  obtain ⟨c', h1, h2, _⟩ := mscalarImpl_some l s
  rw [h] at h1; cases h1
  have hlt : k < (enc e o).length := by
    rcases Nat.lt_or_ge k (enc e o).length with h | h
    · exact h
    · rw [List.getElem?_eq_none h] at hb; cases hb
  rw [enc_length e ho, h2, MScalar.rty_natSize] at hlt
  exact ⟨(0, s.glsl.size), by simp [Glsl.cells], by simp, by simpa using hlt⟩

theorem plainFields_mem {fs : List (String × Ty)} (h : plainFields fs = true) {f : String × Ty}
    (hf : f ∈ fs) : f.2.plain = true := by
  induction fs with
  | nil => simp at hf
  | cons g r ih =>
    obtain ⟨n, t⟩ := g
    simp only [plainFields, Bool.and_eq_true] at h
    rcases List.mem_cons.1 hf with rfl | hf
    · exact h.1
    · exact ih h.2 hf

theorem AgreesAll.names {l : Layout} {is : List (String × Impl)} {ms : List (String × Glsl.Ty)}
    (h : AgreesAll l is ms) : ms.map Prod.fst = is.map Prod.fst := by
  unfold AgreesAll at h
  induction h with
  | nil => rfl
  | cons h1 _ ih => rw [List.map_cons, List.map_cons, h1.1, ih]

/-- A converted value has non-zero bytes only in scalar components. -/
theorem nonzero_resolve {tg : Target} (htg : tg.Valid) (e : Endian) {env : ForeignEnv} {l : Layout}
    {t : Ty} {i : Impl} {g : Glsl.Ty} (h : resolve tg env l t = some i) (hgl : t.glsl = some g)
    (hpl : t.plain = true) {v o : RVal} (ha : i.asStd v = some o) (ho : RVal.HasTy i.out o)
    {k : Nat} {b : Byte} (hb : (enc e o)[k]? = some b) (hne : b ≠ 0) : Glsl.Occupied l g k := by
  induction t using Ty.ind generalizing i g v o k b with
  | hs s =>
    cases s
    · cases hgl; exact leaf_occupied (s := .f32) e h ho hb
    · cases hgl; exact leaf_occupied (s := .f64) e h ho hb
    · cases hgl; exact leaf_occupied (s := .i32) e h ho hb
    · cases hgl; exact leaf_occupied (s := .u32) e h ho hb
    · cases hgl
  | hb =>
    cases hgl
    exact leaf_occupied (l := l) (s := .bool) e (by simpa [resolve, mscalarImpl] using h) ho hb
  | hm m => exact math_nonzero e h hgl ha ho hb hne
  | hf n =>
    simp only [resolve] at h
    simp only [Ty.glsl] at hgl
    cases hr : mintyRow n with
    | none => simp [hr] at h
    | some row =>
      simp only [hr, foreignMath_row hr, Option.bind_some] at h hgl
      cases hm : mathImpl l row.mint with
      | none => simp [hm] at h
      | some j =>
        simp only [hm, Option.map_some, Option.some.injEq] at h
        subst h
        simp only [mintyImpl] at ha
        cases hi : env.into n v with
        | none => simp [hi] at ha
        | some w =>
          rw [hi, Option.bind_some] at ha
          exact math_nonzero e hm hgl ha ho hb hne
  | hst n fs ih =>
    have hagr := agrees_resolve htg h hgl
    obtain ⟨is, hr, hok, rfl⟩ := resolve_struct h
    obtain ⟨ms, rfl, hnf, hms⟩ := glsl_struct hgl
    have ha' := resolveFields_all2 hr
    have hb' := glslMembers_all2 hms
    have hag : AgreesAll l is ms := ha'.comp hb' fun f hf b c hb hc =>
      ⟨hb.1.symm.trans hc.1, agrees_resolve htg hb.2 hc.2⟩
    have hgd : ∀ f ∈ is, Good f.2 := ha'.forall_right fun _ _ _ _ hab => good_resolve htg hab.2
    refine record_nonzero e hok ha ho ?_ hb hne
    intro n' j hj x y k₀ hx hy hk₀ q b' hbq hbne
    obtain ⟨⟨n'', t⟩, hf, hfn, hfr⟩ := ha'.mem_right hj
    simp only at hfn hfr
    subst hfn
    obtain ⟨⟨m₀, gm⟩, hm, hmn, hmg⟩ := hb'.mem_left hf
    simp only at hmn hmg
    subst hmn
    obtain ⟨k₁, hk₁⟩ := Glsl.memberOffsets_of_mem (l := l) 0 hm
    simp only at hk₁
    have hch : Child (genFields tg (structAl l is) 0 0 is) n'' k₁ j.out :=
      gen_child htg hag hgd hagr.pow2.pos hok hj hk₁
    rw [hch.off] at hk₀; cases hk₀
    have hoc := ih _ hf hfr hmg (by simpa using plainFields_mem (by simpa [Ty.plain] using hpl) hf) hx hy hbq hbne
    obtain ⟨gm', hgm', hsub⟩ := Glsl.memberCells_mem (base := 0) hk₁
    -- names are distinct, so it is the same member
    have hnod : (ms.map Prod.fst).Nodup := by
      have e1 : ms.map Prod.fst = is.map Prod.fst := hag.names
      rw [e1]; exact hok.fnodup
    have e2 : gm' = gm := by
      have h1 := lookup_eq_some_of_mem hnod hgm'
      have h2 := lookup_eq_some_of_mem hnod hm
      rw [h1] at h2; exact Option.some.inj h2
    subst e2
    obtain ⟨c, h5, h6, h7⟩ := cellsHit_shift (d := 0 + _) hoc
    refine ⟨c, hsub c h5, by omega, by omega⟩
  | hd t ih =>
    simp only [Ty.glsl] at hgl
    cases hgt : t.glsl with
    | none => simp [hgt] at hgl
    | some g'' =>
      simp only [hgt, Option.map_some, Option.some.injEq] at hgl
      subst hgl
      cases l with
      | std430 => simp [resolve] at h
      | std140 =>
        simp only [resolve] at h
        cases hr : resolve tg env .std140 t with
        | none => simp [hr] at h
        | some j =>
          simp only [hr, Option.map_some, Option.some.injEq] at h
          subst h
          simp only [dynamicImpl] at ho ha
          cases o <;> simp only [RVal.HasTy] at ho
          cases v <;> simp only [reduceCtorEq] at ha
          rename_i y x
          cases hx : j.asStd x with
          | none => simp [hx] at ha
          | some y' =>
            simp only [hx, Option.map_some, Option.some.injEq, RVal.newtype.injEq] at ha
            subst ha
            exact ih hr hgt (by simpa [Ty.plain] using hpl) hx ho hb hne
  | hu n t ih =>
    simp only [resolve, Option.map_eq_some_iff] at h
    obtain ⟨j, hj, rfl⟩ := h
    simp only [userImpl, Option.bind_eq_some_iff] at ha
    obtain ⟨w, _, ha⟩ := ha
    exact ih hj hgl (by simpa [Ty.plain] using hpl) ha ho hb hne
  | ho l' t ih => simp [Ty.plain] at hpl

end Crevice
