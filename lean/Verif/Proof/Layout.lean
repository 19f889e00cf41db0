import Verif.Proof.Conv
/-
Alignment, size and offsets agree with the GLSL rules.
-/
namespace Crevice

/-- An implementation has the alignment and size of a GLSL type. -/
structure Agrees (l : Layout) (i : Impl) (g : Glsl.Ty) : Prop where
  pow2 : IsPow2 i.alignment
  align : i.alignment = g.align l
  size : i.out.natSize = g.size l

/-- Members agree, in order. -/
def AgreesAll (l : Layout) (is : List (String × Impl)) (ms : List (String × Glsl.Ty)) : Prop :=
  All2 (fun (f : String × Impl) (m : String × Glsl.Ty) => f.1 = m.1 ∧ Agrees l f.2 m.2) is ms

theorem maxAlign_eq {l : Layout} {is ms} (h : AgreesAll l is ms) :
    Glsl.maxAlign l ms = maxArr (is.map fun f => f.2.alignment) := by
  induction h with
  | nil => rfl
  | @cons f m r s h1 _ ih =>
    obtain ⟨n, t⟩ := m
    rw [List.map_cons, maxArr_cons, Glsl.maxAlign, ih, h1.2.align]

theorem isPow2_maxArr {l : Layout} {is ms} (h : AgreesAll l is ms) (hne : is ≠ []) :
    IsPow2 (maxArr (is.map fun f => f.2.alignment)) := by
  have hm := maxArr_mem (l := is.map fun f => f.2.alignment) (by simpa using hne)
  obtain ⟨f, hf, he⟩ := List.mem_map.1 hm
  obtain ⟨m, _, hfm⟩ := All2.mem_left h hf
  rw [← he]; exact hfm.2.pow2

theorem structAl_eq {l : Layout} {is ms} (h : AgreesAll l is ms) (hne : is ≠ []) :
    structAl l is = Glsl.roundToVec4 l (Glsl.maxAlign l ms) := by
  have hp := isPow2_maxArr h hne
  rw [maxAlign_eq h, structAl, maxArr_cons]
  cases l
  · simp only [Layout.minStructAlignment, Glsl.roundToVec4, isPow2_roundUp16 hp]; omega
  · simp [Layout.minStructAlignment, Glsl.roundToVec4]

theorem nextAl_cons (sal : Nat) (n : String) (f : Impl) (r : List (String × Impl)) :
    nextAl sal ((n, f) :: r) = f.alignment := rfl

theorem nextAl_pos {l : Layout} {is ms} (h : AgreesAll l is ms) {sal : Nat} (hs : 0 < sal) :
    0 < nextAl sal is := by
  cases h with
  | nil => exact hs
  | cons h1 _ => exact h1.2.pow2.pos

theorem gen_end {tg : Target} (htg : tg.Valid) {l : Layout} {is ms} (h : AgreesAll l is ms)
    (hg : ∀ f ∈ is, Good f.2) {sal : Nat} (hs : 0 < sal) (i cur : Nat) :
    Glsl.roundUp cur (nextAl sal is) +
      natSizeFields (genFields tg sal i (Glsl.roundUp cur (nextAl sal is)) is) =
    Glsl.roundUp (Glsl.endOfMembers l cur ms) sal := by
  induction h generalizing i cur with
  | nil => simp [genFields, natSizeFields, Glsl.endOfMembers, nextAl]
  | @cons f m r s h1 hr ih =>
    obtain ⟨n, f⟩ := f
    obtain ⟨n', t⟩ := m
    have hf := hg (n, f) (by simp)
    have hsz := size_eq_natSize htg hf.packed
    obtain ⟨-, h1⟩ := h1
    simp only at h1
    have ih' := ih (fun g hg' => hg g (List.mem_cons_of_mem _ hg')) (i + 1)
      (Glsl.roundUp cur f.alignment + f.out.natSize)
    have hpos : 0 < nextAl sal r := nextAl_pos hr hs
    rw [roundUp_eq _ (nextAl sal r) hpos] at ih'
    simp only [genFields, natSizeFields, nextAl_cons, RTy.natSize, Scalar.size, Nat.one_mul, hsz,
      Glsl.endOfMembers, ← h1.align, ← h1.size]
    rw [← ih']
    omega

/-- Offsets of the generated struct at the members' names. -/
theorem gen_offsets {tg : Target} (htg : tg.Valid) {l : Layout} {is ms} (h : AgreesAll l is ms)
    (hg : ∀ f ∈ is, Good f.2) {sal : Nat} (hs : 0 < sal) (i cur : Nat) :
    ∀ x ∈ Glsl.memberOffsets l cur ms,
      x ∈ natOffsets (Glsl.roundUp cur (nextAl sal is))
        (genFields tg sal i (Glsl.roundUp cur (nextAl sal is)) is) := by
  induction h generalizing i cur with
  | nil => simp [Glsl.memberOffsets]
  | @cons f m r s h1 hr ih =>
    obtain ⟨n, f⟩ := f
    obtain ⟨n', t⟩ := m
    have hf := hg (n, f) (by simp)
    have hsz := size_eq_natSize htg hf.packed
    obtain ⟨hn, h1⟩ := h1
    simp only at h1 hn
    subst hn
    intro x hx
    simp only [Glsl.memberOffsets, ← h1.align, ← h1.size] at hx
    simp only [genFields, natOffsets, nextAl_cons, RTy.natSize, Scalar.size, Nat.one_mul, hsz]
    rcases List.mem_cons.1 hx with rfl | hx
    · exact List.mem_cons_self
    · refine List.mem_cons_of_mem _ (List.mem_cons_of_mem _ ?_)
      have ih' := ih (fun g hg' => hg g (List.mem_cons_of_mem _ hg')) (i + 1)
        (Glsl.roundUp cur f.alignment + f.out.natSize) x hx
      rwa [roundUp_eq _ (nextAl sal r) (nextAl_pos hr hs)] at ih'

theorem natOffsets_names (off : Nat) (gs : List (String × RTy)) :
    (natOffsets off gs).map Prod.fst = gs.map Prod.fst := by
  induction gs generalizing off with
  | nil => rfl
  | cons g r ih => obtain ⟨n, t⟩ := g; simp [natOffsets, ih]

/-- The field `n` of a packed struct has type `t` and offset `k`. -/
structure Child (gs : List (String × RTy)) (n : String) (k : Nat) (t : RTy) : Prop where
  ty : gs.lookup n = some t
  off : (natOffsets 0 gs).lookup n = some k

/-- A GLSL member and the implementation it comes from sit at the same offset. -/
theorem gen_child {tg : Target} (htg : tg.Valid) {l : Layout} {is ms} (h : AgreesAll l is ms)
    (hg : ∀ f ∈ is, Good f.2) {sal : Nat} (hs : 0 < sal)
    (hok : RecordOk (genFields tg sal 0 0 is) is) {n : String} {j : Impl} (hm : (n, j) ∈ is)
    {k : Nat} (hk : (n, k) ∈ Glsl.memberOffsets l 0 ms) : Child (genFields tg sal 0 0 is) n k j.out := by
  refine ⟨hok.sub n j hm, ?_⟩
  have := gen_offsets htg h hg hs 0 0 _ hk
  rw [roundUp_zero _ (nextAl_pos h hs)] at this
  exact lookup_eq_some_of_mem (by rw [natOffsets_names]; exact hok.gnodup) this

theorem agrees_scalar {l : Layout} {s : MScalar} {c : Impl} (h : mscalarImpl l s = some c) :
    Agrees l c (.scalar s.glsl) := by
  obtain ⟨c', h1, h2, h3⟩ := mscalarImpl_some l s
  rw [h] at h1; cases h1
  refine ⟨?_, by rw [h3]; rfl, by rw [h2, s.rty_natSize]; rfl⟩
  rw [h3]
  cases s <;> simp [MScalar.glsl, Glsl.Scalar.size, isPow2_4, isPow2_8]

theorem agrees_vec {l : Layout} {m : MathTy} {i : Impl} (hk : m.kind ≠ .matrix)
    (h : vecImpl l m = some i) : Agrees l i (.vec m.scalar.glsl m.dim) := by
  obtain ⟨c, hc, h2, h4, rfl⟩ := vecImpl_shape hk h
  refine ⟨isPow2_vecAlign _ _, rfl, ?_⟩
  simp [recordImpl, RTy.natSize, natSizeFields_replicate, fieldNames_length h4,
    MScalar.rty_natSize, Glsl.Ty.size]

theorem agrees_mat {l : Layout} {m : MathTy} {i : Impl} (hk : m.kind = .matrix)
    (h : mathImpl l m = some i) : Agrees l i (.mat m.scalar.glsl m.dim m.dim) := by
  obtain ⟨col, gs, _, h2, h4, _, hok, rfl⟩ := matImpl_shape hk h
  exact ⟨isPow2_roundToVec4 (isPow2_vecAlign _ _), rfl, hok.size⟩

theorem math_glsl {l : Layout} {m : MathTy} {i : Impl} (h : mathImpl l m = some i) :
    m.glsl = some (if m.kind = .matrix then .mat m.scalar.glsl m.dim m.dim
      else .vec m.scalar.glsl m.dim) := by
  by_cases hk : m.kind = .matrix
  · obtain ⟨col, gs, _, h2, h4, hs, hok, rfl⟩ := matImpl_shape hk h
    rcases hs with hs | hs <;> simp [MathTy.glsl, hk, hs, h2, h4, MScalar.glsl]
  · rw [mathImpl_vec hk] at h
    obtain ⟨c, hc, h2, h4, rfl⟩ := vecImpl_shape hk h
    simp only [MathTy.glsl, h2, h4, and_self, if_true]
    cases hkk : m.kind with
    | matrix => contradiction
    | vector => simp
    | point => simp

theorem agrees_math {l : Layout} {m : MathTy} {i : Impl} {g : Glsl.Ty} (h : mathImpl l m = some i)
    (hg : m.glsl = some g) : Agrees l i g := by
  have := math_glsl h
  rw [hg] at this; cases this
  by_cases hk : m.kind = .matrix
  · rw [if_pos hk]; exact agrees_mat hk h
  · rw [if_neg hk]; rw [mathImpl_vec hk] at h; exact agrees_vec hk h

theorem glslMembers_all2 {fs : List (String × Ty)} {ms : List (String × Glsl.Ty)}
    (h : glslMembers fs = some ms) :
    All2 (fun (f : String × Ty) (m : String × Glsl.Ty) => f.1 = m.1 ∧ f.2.glsl = some m.2) fs ms := by
  induction fs generalizing ms with
  | nil => simp [glslMembers] at h; subst h; exact .nil
  | cons f r ih =>
    obtain ⟨n, t⟩ := f
    simp only [glslMembers] at h
    cases hr : t.glsl with
    | none => simp [hr] at h
    | some i =>
      cases hrs : glslMembers r with
      | none => simp [hr, hrs] at h
      | some rs =>
        simp only [hr, hrs, Option.bind_some, Option.map_some, Option.some.injEq] at h
        subst h
        exact .cons ⟨rfl, hr⟩ (ih hrs)

/-- GLSL type of a derived struct, unfolded. -/
theorem glsl_struct {name : String} {fs : List (String × Ty)} {g : Glsl.Ty}
    (h : (Ty.struct name fs).glsl = some g) :
    ∃ ms, g = .struct name ms ∧ fs ≠ [] ∧ glslMembers fs = some ms := by
  simp only [Ty.glsl] at h
  split at h
  · cases h
  · rename_i hne
    cases hm : glslMembers fs with
    | none => simp [hm] at h
    | some ms =>
      simp only [hm, Option.map_some, Option.some.injEq] at h
      exact ⟨ms, h.symm, by simpa using hne, rfl⟩

theorem agrees_struct {tg : Target} (htg : tg.Valid) {l : Layout} {name : String}
    {is : List (String × Impl)} {ms : List (String × Glsl.Ty)} (h : AgreesAll l is ms)
    (hg : ∀ f ∈ is, Good f.2) (hne : is ≠ []) :
    Agrees l (recordImpl (genFields tg (structAl l is) 0 0 is) (structAl l is) is)
      (.struct name ms) := by
  have hal := structAl_eq h hne
  have hp : IsPow2 (structAl l is) := by
    rw [hal, maxAlign_eq h]; exact isPow2_roundToVec4 (isPow2_maxArr h hne)
  refine ⟨hp, by rw [Glsl.Ty.align]; exact hal, ?_⟩
  have he := gen_end htg h hg hp.pos 0 0
  rw [roundUp_zero _ (nextAl_pos h hp.pos), Nat.zero_add] at he
  simp only [recordImpl, RTy.natSize, Glsl.Ty.size, Glsl.Ty.align, ← hal, he]

theorem agrees_resolve {tg : Target} (htg : tg.Valid) {env : ForeignEnv} {l : Layout} {t : Ty}
    {i : Impl} {g : Glsl.Ty} (h : resolve tg env l t = some i) (hgl : t.glsl = some g) :
    Agrees l i g := by
  induction t using Ty.ind generalizing i g with
  | hs s =>
    cases s
    · cases hgl; exact agrees_scalar (l := l) (s := .f32) h
    · cases hgl; exact agrees_scalar (l := l) (s := .f64) h
    · cases hgl; exact agrees_scalar (l := l) (s := .i32) h
    · cases hgl; exact agrees_scalar (l := l) (s := .u32) h
    · cases hgl
  | hb => cases hgl; exact agrees_scalar (l := l) (s := .bool) h
  | hm m => exact agrees_math h hgl
  | hf n =>
    simp only [resolve] at h
    simp only [Ty.glsl] at hgl
    cases hr : mintyRow n with
    | none => simp [hr] at h
    | some row =>
      simp only [hr, foreignMath_row hr, Option.bind_some] at h hgl
      cases hm : mathImpl l row.mint with
      | none => simp [hm] at h
      | some j =>
        simp only [hm, Option.map_some, Option.some.injEq] at h
        subst h
        have := agrees_math hm hgl
        exact ⟨this.pow2, this.align, this.size⟩
  | hst n fs ih =>
    obtain ⟨is, hr, hok, rfl⟩ := resolve_struct h
    obtain ⟨ms, rfl, hne, hms⟩ := glsl_struct hgl
    have ha := resolveFields_all2 hr
    have hb := glslMembers_all2 hms
    have hag : AgreesAll l is ms := ha.comp hb fun f hf b c hb hc =>
      ⟨hb.1.symm.trans hc.1, ih f hf hb.2 hc.2⟩
    refine agrees_struct htg hag (ha.forall_right fun _ _ _ _ hab => good_resolve htg hab.2) ?_
    intro h0; subst h0; cases ha; exact hne rfl
  | hd t ih =>
    simp only [Ty.glsl] at hgl
    cases hgt : t.glsl with
    | none => simp [hgt] at hgl
    | some g' =>
      simp only [hgt, Option.map_some, Option.some.injEq] at hgl
      subst hgl
      cases l with
      | std430 => simp [resolve] at h
      | std140 =>
        simp only [resolve] at h
        cases hr : resolve tg env .std140 t with
        | none => simp [hr] at h
        | some j =>
          simp only [hr, Option.map_some, Option.some.injEq] at h
          subst h
          have hj := ih hr hgt
          refine ⟨?_, ?_, hj.size⟩
          · simp only [dynamicImpl, constMax_eq]; exact isPow2_256.max hj.pow2
          · simp only [dynamicImpl, constMax_eq, Glsl.Ty.align, hj.align]
  | hu n t ih =>
    simp only [resolve, Option.map_eq_some_iff] at h
    obtain ⟨j, hj, rfl⟩ := h
    have hj := ih hj hgl
    exact ⟨hj.pow2, hj.align, hj.size⟩
  | ho l' t ih =>
    simp only [resolve] at h
    split at h
    · cases hr : resolve tg env l t with
      | none => simp [hr] at h
      | some j =>
        simp only [hr, Option.map_some, Option.some.injEq] at h
        subst h
        have hj := ih hr hgl
        exact ⟨hj.pow2, hj.align, hj.size⟩
    · cases h

/-! ### Offsets of nested members -/

theorem offsetOfField_packed {tg : Target} (htg : tg.Valid) (gs : List (String × RTy)) (off : Nat)
    (hp : packedFields off gs = true) {n : String} {t : RTy} {k : Nat} (ht : gs.lookup n = some t)
    (hk : (natOffsets off gs).lookup n = some k) (p : List String) :
    offsetOfField tg off gs n p = (RTy.offsetOf tg t p).map fun x => (k + x.1, x.2) := by
  induction gs generalizing off with
  | nil => simp at ht
  | cons g r ih =>
    obtain ⟨m, u⟩ := g
    simp only [packedFields, Bool.and_eq_true, decide_eq_true_eq] at hp
    obtain ⟨⟨hp1, hp2⟩, hp3⟩ := hp
    have hd : u.align tg ∣ off :=
      Nat.dvd_trans (align_dvd_natAlign htg u) (Nat.dvd_of_mod_eq_zero hp2)
    simp only [natOffsets] at hk
    rw [lookup_cons_if] at ht hk
    simp only [offsetOfField, paddingFor_of_dvd hd, size_eq_natSize htg hp1, Nat.add_zero]
    by_cases hm : n = m
    · simp only [hm, if_true, Option.some.injEq] at ht hk ⊢
      subst ht hk
      rfl
    · simp only [hm, if_false, Ne.symm hm] at ht hk ⊢
      exact ih _ hp3 ht hk

theorem offsetOf_child {tg : Target} (htg : tg.Valid) {gs : List (String × RTy)}
    (hp : (RTy.struct gs).packed = true) {n : String} {t : RTy} {k : Nat} (hc : Child gs n k t)
    (p : List String) :
    RTy.offsetOf tg (.struct gs) (n :: p) = (RTy.offsetOf tg t p).map fun x => (k + x.1, x.2) := by
  simp only [RTy.packed, Bool.and_eq_true] at hp
  simp only [RTy.offsetOf]
  exact offsetOfField_packed htg gs 0 hp.1 hc.ty hc.off p

theorem natOffsets_replicate {names : List String} {t : RTy} (off : Nat) (hn : names.Nodup) {j : Nat}
    (hj : j < names.length) :
    (natOffsets off (names.map fun n => (n, t))).lookup names[j] = some (off + j * t.natSize) := by
  induction names generalizing off j with
  | nil => simp at hj
  | cons m r ih =>
    rw [List.nodup_cons] at hn
    simp only [List.map_cons, natOffsets]
    rw [lookup_cons_if]
    cases j with
    | zero => simp
    | succ j =>
      have hj' : j < r.length := by simpa using hj
      have : r[j] ≠ m := fun h => hn.1 (h ▸ List.getElem_mem hj')
      simp only [List.getElem_cons_succ, this, if_false]
      rw [ih _ hn.2 hj', Nat.add_mul]
      congr 1; omega

theorem vec_child {m : MathTy} {j : Nat} (hj : j < m.fieldNames.length) :
    Child (m.fieldNames.map fun n => (n, m.scalar.rty)) m.fieldNames[j] (j * m.scalar.glsl.size)
      m.scalar.rty := by
  refine ⟨lookup_replicate (List.getElem_mem hj), ?_⟩
  rw [natOffsets_replicate 0 (fieldNames_nodup m) hj, Nat.zero_add, MScalar.rty_natSize]

theorem mat_child {l : Layout} {m : MathTy} {gs : List (String × RTy)} {colTy : RTy}
    (hok : MatOk l m gs colTy) {j : Nat} (hj : j < m.fieldNames.length) :
    Child gs m.fieldNames[j] (j * Glsl.columnStride l m.scalar.glsl m.dim) colTy :=
  ⟨hok.cols _ (List.getElem_mem hj), hok.offsets j hj⟩

/-- Looking a component name up by its position. -/
theorem component_index {m : MathTy} {c : String}
    (hc : ((Glsl.componentNames.take m.dim).contains c) = true) :
    ∃ j, ∃ hj : j < m.fieldNames.length, m.fieldNames[j] = c ∧ Glsl.componentNames.idxOf c = j := by
  have hmem : c ∈ m.fieldNames := by simpa [MathTy.fieldNames, Glsl.componentNames] using hc
  have hlt : m.fieldNames.idxOf c < m.fieldNames.length := List.idxOf_lt_length_of_mem hmem
  refine ⟨_, hlt, List.getElem_idxOf hlt, ?_⟩
  have : Glsl.componentNames = m.fieldNames ++ Glsl.componentNames.drop m.dim := by
    simp [MathTy.fieldNames, Glsl.componentNames, List.take_append_drop]
  rw [this, List.idxOf_append, if_pos hmem]

theorem offset_vec {tg : Target} (htg : tg.Valid) {l : Layout} {m : MathTy} {i : Impl}
    (hk : m.kind ≠ .matrix) (h : vecImpl l m = some i) {p : List String} {k : Nat} {g' : Glsl.Ty}
    (hp : Glsl.Ty.offsetOf l (.vec m.scalar.glsl m.dim) p = some (k, g')) :
    ∃ t', i.out.offsetOf tg p = some (k, t') ∧ t'.size tg = g'.size l := by
  have hag := agrees_vec hk h
  have hgood := good_vecImpl hk h
  obtain ⟨c, hc, h2, h4, rfl⟩ := vecImpl_shape hk h
  match p with
  | [] =>
    simp only [Glsl.Ty.offsetOf, Option.some.injEq, Prod.mk.injEq] at hp
    obtain ⟨rfl, rfl⟩ := hp
    exact ⟨_, by simp only [RTy.offsetOf]; rfl, by rw [size_eq_natSize htg hgood.packed, hag.size]⟩
  | [c] =>
    simp only [Glsl.Ty.offsetOf] at hp
    split at hp
    · rename_i hcn
      simp only [Option.some.injEq, Prod.mk.injEq] at hp
      obtain ⟨rfl, rfl⟩ := hp
      obtain ⟨j, hj, hjc, hidx⟩ := component_index hcn
      have hch := vec_child (m := m) hj
      rw [hjc] at hch
      refine ⟨m.scalar.rty, ?_, ?_⟩
      · simp only [recordImpl]
        rw [offsetOf_child htg hgood.packed hch]
        simp [RTy.offsetOf, hidx]
      · rw [size_eq_natSize htg m.scalar.rty_packed, m.scalar.rty_natSize]; rfl
    · cases hp
  | _ :: _ :: _ => simp [Glsl.Ty.offsetOf] at hp

/-- A matrix is a sequence of column vectors. -/
theorem offsetOf_mat_cons (l : Layout) (s : Glsl.Scalar) (cols rows : Nat) (c : String)
    (p : List String) :
    Glsl.Ty.offsetOf l (.mat s cols rows) (c :: p) =
      if (Glsl.componentNames.take cols).contains c then
        (Glsl.Ty.offsetOf l (.vec s rows) p).map fun x =>
          (Glsl.componentNames.idxOf c * Glsl.columnStride l s rows + x.1, x.2)
      else none := by
  match p with
  | [] => simp only [Glsl.Ty.offsetOf]; split <;> rfl
  | [d] =>
    simp only [Glsl.Ty.offsetOf]
    split
    · split <;> rfl
    · rfl
  | _ :: _ :: _ => simp [Glsl.Ty.offsetOf]

theorem offset_mat {tg : Target} (htg : tg.Valid) {l : Layout} {m : MathTy} {i : Impl}
    (hk : m.kind = .matrix) (h : mathImpl l m = some i) {p : List String} {k : Nat} {g' : Glsl.Ty}
    (hp : Glsl.Ty.offsetOf l (.mat m.scalar.glsl m.dim m.dim) p = some (k, g')) :
    ∃ t', i.out.offsetOf tg p = some (k, t') ∧ t'.size tg = g'.size l := by
  have hag := agrees_mat hk h
  have hgood := good_mathImpl h
  obtain ⟨col, gs, hcol, h2, h4, _, hok, rfl⟩ := matImpl_shape hk h
  have hkc : m.column.kind ≠ .matrix := by simp [MathTy.column]
  cases p with
  | nil =>
    simp only [Glsl.Ty.offsetOf, Option.some.injEq, Prod.mk.injEq] at hp
    obtain ⟨rfl, rfl⟩ := hp
    exact ⟨_, by simp only [RTy.offsetOf]; rfl, by rw [size_eq_natSize htg hgood.packed, hag.size]⟩
  | cons c p =>
    rw [offsetOf_mat_cons] at hp
    split at hp
    · rename_i hcn
      obtain ⟨j, hj, hjc, hidx⟩ := component_index hcn
      have hch := mat_child hok hj
      rw [hjc] at hch
      simp only [recordImpl]
      rw [offsetOf_child htg hgood.packed hch]
      cases hv : Glsl.Ty.offsetOf l (.vec m.scalar.glsl m.dim) p with
      | none => simp [hv] at hp
      | some x =>
        simp only [hv, Option.map_some, Option.some.injEq, Prod.mk.injEq] at hp
        obtain ⟨rfl, rfl⟩ := hp
        obtain ⟨t', h1, h2⟩ := offset_vec htg (m := m.column) hkc hcol hv
        exact ⟨t', by simp [h1, hidx], h2⟩
    · cases hp

theorem memberOffsets_of_offsetOfMember {l : Layout} (ms : List (String × Glsl.Ty)) (cur : Nat)
    {n : String} {p : List String} {k : Nat} {g' : Glsl.Ty}
    (h : Glsl.offsetOfMember l cur ms n p = some (k, g')) :
    ∃ k₀ k₁ g, (n, k₀) ∈ Glsl.memberOffsets l cur ms ∧ (n, g) ∈ ms ∧ ms.lookup n = some g ∧
      g.offsetOf l p = some (k₁, g') ∧ k = k₀ + k₁ := by
  induction ms generalizing cur with
  | nil => simp [Glsl.offsetOfMember] at h
  | cons x r ih =>
    obtain ⟨m, t⟩ := x
    simp only [Glsl.offsetOfMember] at h
    rw [lookup_cons_if]
    by_cases hm : m = n
    · subst hm
      simp only [if_true] at h
      cases ho : Glsl.Ty.offsetOf l t p with
      | none => simp [ho] at h
      | some y =>
        simp only [ho, Option.map_some, Option.some.injEq, Prod.mk.injEq] at h
        obtain ⟨rfl, rfl⟩ := h
        exact ⟨_, y.1, t, by simp [Glsl.memberOffsets], by simp, by simp, by rw [ho], rfl⟩
    · simp only [hm, if_false] at h
      obtain ⟨k₀, k₁, g, h1, h2, h3, h4, h5⟩ := ih _ h
      exact ⟨k₀, k₁, g, by simp only [Glsl.memberOffsets]; exact List.mem_cons_of_mem _ h1,
        List.mem_cons_of_mem _ h2, by rw [if_neg (Ne.symm hm)]; exact h3, h4, h5⟩

/-- Every GLSL member at every depth is at the same offset in the Output type. -/
theorem offset_resolve {tg : Target} (htg : tg.Valid) {env : ForeignEnv} {l : Layout} {t : Ty}
    {i : Impl} {g : Glsl.Ty} (h : resolve tg env l t = some i) (hgl : t.glsl = some g)
    {p : List String} {k : Nat} {g' : Glsl.Ty} (hp : g.offsetOf l p = some (k, g')) :
    ∃ t', i.out.offsetOf tg p = some (k, t') ∧ t'.size tg = g'.size l := by
  have whole : ∀ {t : Ty} {i : Impl} {g : Glsl.Ty}, resolve tg env l t = some i → t.glsl = some g →
      ∀ {k g'}, g.offsetOf l [] = some (k, g') →
      ∃ t', i.out.offsetOf tg [] = some (k, t') ∧ t'.size tg = g'.size l := by
    intro t i g h hgl k g' hp
    have e1 : g.offsetOf l [] = some (0, g) := by cases g <;> simp [Glsl.Ty.offsetOf]
    have e2 : i.out.offsetOf tg [] = some (0, i.out) := by cases i.out <;> simp [RTy.offsetOf]
    rw [e1] at hp; cases hp
    exact ⟨_, e2, by
      rw [size_eq_natSize htg (good_resolve htg h).packed, (agrees_resolve htg h hgl).size]⟩
  induction t using Ty.ind generalizing i g p k g' with
  | hs s =>
    cases p with
    | nil => exact whole h hgl hp
    | cons c p => cases s <;> cases hgl <;> simp [Glsl.Ty.offsetOf] at hp
  | hb =>
    cases p with
    | nil => exact whole h hgl hp
    | cons c p => cases hgl; simp [Glsl.Ty.offsetOf] at hp
  | hm m =>
    have hm := math_glsl h
    simp only [Ty.glsl] at hgl
    rw [hgl] at hm; cases hm
    by_cases hk : m.kind = .matrix
    · rw [if_pos hk] at hp; exact offset_mat htg hk h hp
    · rw [if_neg hk] at hp
      simp only [resolve, mathImpl_vec hk] at h
      exact offset_vec htg hk h hp
  | hf n =>
    simp only [resolve] at h
    simp only [Ty.glsl] at hgl
    cases hr : mintyRow n with
    | none => simp [hr] at h
    | some row =>
      simp only [hr, foreignMath_row hr, Option.bind_some] at h hgl
      cases hm : mathImpl l row.mint with
      | none => simp [hm] at h
      | some j =>
        simp only [hm, Option.map_some, Option.some.injEq] at h
        subst h
        have hm' := math_glsl hm
        rw [hgl] at hm'; cases hm'
        simp only [mintyImpl]
        by_cases hk : row.mint.kind = .matrix
        · rw [if_pos hk] at hp; exact offset_mat htg hk hm hp
        · rw [if_neg hk] at hp
          rw [mathImpl_vec hk] at hm
          exact offset_vec htg hk hm hp
  | hst n fs ih =>
    cases p with
    | nil => exact whole h hgl hp
    | cons c p =>
      have hgood := good_resolve htg h
      have hagr := agrees_resolve htg h hgl
      obtain ⟨is, hr, hok, rfl⟩ := resolve_struct h
      obtain ⟨ms, rfl, hne, hms⟩ := glsl_struct hgl
      have ha := resolveFields_all2 hr
      have hb := glslMembers_all2 hms
      have hag : AgreesAll l is ms := ha.comp hb fun f hf b c hb hc =>
        ⟨hb.1.symm.trans hc.1, agrees_resolve htg hb.2 hc.2⟩
      have hgd : ∀ f ∈ is, Good f.2 := ha.forall_right fun _ _ _ _ hab => good_resolve htg hab.2
      simp only [Glsl.Ty.offsetOf] at hp
      obtain ⟨k₀, k₁, g₁, h1, h2, h3, h4, rfl⟩ := memberOffsets_of_offsetOfMember ms 0 hp
      obtain ⟨f, hf, hfn, hfg⟩ := hb.mem_right h2
      obtain ⟨⟨n', j⟩, hj, hjn, hjr⟩ := ha.mem_left hf
      simp only at hfn hjn hjr hfg
      rw [hfn] at hjn
      subst hjn
      have hch := gen_child htg hag hgd hagr.pow2.pos hok hj h1
      simp only [recordImpl] at hgood ⊢
      rw [offsetOf_child htg hgood.packed hch]
      obtain ⟨t', h5, h6⟩ := ih f hf hjr hfg h4
      exact ⟨t', by simp [h5], h6⟩
  | hd t ih =>
    simp only [Ty.glsl] at hgl
    cases hgt : t.glsl with
    | none => simp [hgt] at hgl
    | some g'' =>
      cases p with
      | nil => exact whole h (by simpa only [Ty.glsl] using hgl) hp
      | cons c p =>
        simp only [hgt, Option.map_some, Option.some.injEq] at hgl
        subst hgl
        cases l with
        | std430 => simp [resolve] at h
        | std140 =>
          simp only [resolve] at h
          cases hr : resolve tg env .std140 t with
          | none => simp [hr] at h
          | some j =>
            simp only [hr, Option.map_some, Option.some.injEq] at h
            subst h
            simp only [Glsl.Ty.offsetOf] at hp
            simpa only [dynamicImpl, RTy.offsetOf] using ih hr hgt hp
  | hu n t ih =>
    simp only [resolve, Option.map_eq_some_iff] at h
    obtain ⟨j, hj, rfl⟩ := h
    exact ih hj hgl hp
  | ho l' t ih =>
    simp only [resolve] at h
    split at h
    · cases hr : resolve tg env l t with
      | none => simp [hr] at h
      | some j =>
        simp only [hr, Option.map_some, Option.some.injEq] at h
        subst h
        exact ih hr hgl hp
    · cases h

end Crevice
