import Verif.Proof.Record
import Verif.Spec.Correspond
/-
The tables: what every `easy_impl!` row amounts to.
-/
namespace Crevice

/-- Output type of a component. -/
def MScalar.rty : MScalar → RTy
  | .f32 => .scalar .f32
  | .f64 => .scalar .f64
  | .i32 => .scalar .i32
  | .u32 => .scalar .u32
  | .bool => boolTy

def MScalar.prim : MScalar → PrimTy
  | .f32 => .scalar .f32
  | .f64 => .scalar .f64
  | .i32 => .scalar .i32
  | .u32 => .scalar .u32
  | .bool => .Bool

theorem MScalar.prim_rty (s : MScalar) : s.prim.rty = s.rty := by cases s <;> rfl

theorem MScalar.rty_natSize (s : MScalar) : s.rty.natSize = s.glsl.size := by cases s <;> rfl
theorem MScalar.rty_natAlign (s : MScalar) : s.rty.natAlign = s.glsl.size := by cases s <;> rfl
theorem MScalar.rty_packed (s : MScalar) : s.rty.packed = true := by cases s <;> rfl
theorem MScalar.rty_noBool (s : MScalar) : s.rty.noBool = true := by cases s <;> rfl

theorem mscalarImpl_some (l : Layout) (s : MScalar) :
    ∃ c, mscalarImpl l s = some c ∧ c.out = s.rty ∧ c.alignment = s.glsl.size := by
  cases l <;> cases s <;> exact ⟨_, rfl, rfl, rfl⟩

/-- Check of a vector row against the layout module. -/
def vecRowOk (l : Layout) (r : EasyRow) : Bool :=
  match l.vectors.find? fun v => v.name == r.stdName with
  | some v =>
    v.fields == r.ty.fieldNames && v.prim == r.ty.scalar.prim &&
    v.align == Glsl.vecAlign r.ty.scalar.glsl r.ty.dim && r.fields == r.ty.fieldNames &&
    decide (2 ≤ r.ty.dim) && decide (r.ty.dim ≤ 4)
  | none => false

/-- Check of a matrix row against the layout module. -/
def matRowOk (l : Layout) (r : EasyRow) : Bool :=
  (l.vectors.find? fun v => v.name == r.stdName).isNone &&
  match l.matrices.find? fun v => v.name == r.stdName, easyRow r.ty.column with
  | some mr, some cr =>
    mr.align == Glsl.roundToVec4 l (Glsl.vecAlign r.ty.scalar.glsl r.ty.dim) &&
    (r.ty.scalar == .f32 || r.ty.scalar == .f64) &&
    r.fields == r.ty.fieldNames && decide (2 ≤ r.ty.dim) && decide (r.ty.dim ≤ 4) &&
    decide (∀ n ∈ r.ty.fieldNames, mr.fields.lookup n = some (.vec cr.stdName)) &&
    match mr.primitive l with
    | some p =>
      decide (p.fields.map Prod.fst).Nodup && (RTy.struct p.fields).packed &&
      (RTy.struct p.fields).noBool && decide (p.alignment % natAlignFields p.fields = 0) &&
      natSizeFields p.fields ==
        r.ty.dim * Glsl.columnStride l r.ty.scalar.glsl r.ty.dim &&
      decide (∀ j ∈ List.range r.ty.dim,
        (natOffsets 0 p.fields).lookup (r.ty.fieldNames.getD j "") =
          some (j * Glsl.columnStride l r.ty.scalar.glsl r.ty.dim))
    | none => false
  | _, _ => false

def rowOk (l : Layout) (r : EasyRow) : Bool :=
  if r.ty.kind = .matrix then matRowOk l r else vecRowOk l r

theorem rows_ok : (easyRows.all (rowOk .std140) && easyRows.all (rowOk .std430)) = true := by
  decide +kernel

theorem row_ok (l : Layout) {r : EasyRow} (h : r ∈ easyRows) : rowOk l r = true := by
  have := rows_ok
  simp only [Bool.and_eq_true, List.all_eq_true] at this
  cases l
  · exact this.1 r h
  · exact this.2 r h

theorem easyRow_mem {m : MathTy} {r : EasyRow} (h : easyRow m = some r) :
    r ∈ easyRows ∧ r.ty = m := by
  refine ⟨List.mem_of_find?_eq_some h, ?_⟩
  have := List.find?_some h
  simpa using this

theorem easyImpl_eq {l : Layout} {row : EasyRow} {comp : Impl} {p : Primitive}
    (hp : l.primitive row.stdName = some p) (hf : row.fields = row.ty.fieldNames) :
    easyImpl l row comp =
      some (recordImpl p.fields p.alignment (row.ty.fieldNames.map fun n => (n, comp))) := by
  have hid : (Prod.fst ∘ fun n : String => (n, comp)) = id := rfl
  simp only [easyImpl, hp, Option.map_some, hf, recordImpl, convFields, mapM_map, List.map_map,
    hid, List.map_id]

theorem fieldNames_nodup (m : MathTy) : m.fieldNames.Nodup := by
  have : ["x", "y", "z", "w"].Nodup := by decide
  exact List.Sublist.nodup (List.take_sublist _ _) this

theorem fieldNames_length {m : MathTy} (h : m.dim ≤ 4) : m.fieldNames.length = m.dim := by
  simp [MathTy.fieldNames]; omega

/-- Shape of a vector implementation. -/
theorem vecImpl_shape {l : Layout} {m : MathTy} {i : Impl} (hk : m.kind ≠ .matrix)
    (h : vecImpl l m = some i) :
    ∃ c, mscalarImpl l m.scalar = some c ∧ 2 ≤ m.dim ∧ m.dim ≤ 4 ∧
      i = recordImpl (m.fieldNames.map fun n => (n, m.scalar.rty))
        (Glsl.vecAlign m.scalar.glsl m.dim) (m.fieldNames.map fun n => (n, c)) := by
  unfold vecImpl at h
  cases hr : easyRow m with
  | none => simp [hr] at h
  | some r =>
    obtain ⟨c, hc, _, _⟩ := mscalarImpl_some l m.scalar
    simp only [hr, Option.bind_some, hc] at h
    obtain ⟨hm, rfl⟩ := easyRow_mem hr
    have hok := row_ok l hm
    simp only [rowOk, hk, if_false, vecRowOk] at hok
    cases hv : l.vectors.find? fun v => v.name == r.stdName with
    | none => simp [hv] at hok
    | some v =>
      simp only [hv, Bool.and_eq_true, beq_iff_eq, decide_eq_true_eq] at hok
      obtain ⟨⟨⟨⟨⟨h1, h2⟩, h3⟩, h4⟩, h5⟩, h6⟩ := hok
      have hp : l.primitive r.stdName = some v.primitive := by
        simp [Layout.primitive, Layout.vecPrimitive, hv]
      rw [easyImpl_eq hp h4] at h
      cases h
      refine ⟨c, hc, h5, h6, ?_⟩
      simp [VecRow.primitive, h1, h2, h3, MScalar.prim_rty]

theorem vecImpl_some {l : Layout} {m : MathTy} (hk : m.kind ≠ .matrix) {r : EasyRow}
    (hr : easyRow m = some r) : ∃ i, vecImpl l m = some i := by
  obtain ⟨c, hc, _, _⟩ := mscalarImpl_some l m.scalar
  obtain ⟨hm, rfl⟩ := easyRow_mem hr
  have hok := row_ok l hm
  simp only [rowOk, hk, if_false, vecRowOk] at hok
  cases hv : l.vectors.find? fun v => v.name == r.stdName with
  | none => simp [hv] at hok
  | some v =>
    have hp : l.primitive r.stdName = some v.primitive := by
      simp [Layout.primitive, Layout.vecPrimitive, hv]
    simp only [hv, Bool.and_eq_true, beq_iff_eq, decide_eq_true_eq] at hok
    exact ⟨_, by simp only [vecImpl, hr, Option.bind_some, hc]; exact easyImpl_eq hp hok.1.1.2⟩

/-- What is known of the fields of a matrix Output. -/
structure MatOk (l : Layout) (m : MathTy) (gs : List (String × RTy)) (colTy : RTy) : Prop where
  nodup : (gs.map Prod.fst).Nodup
  packed : (RTy.struct gs).packed = true
  noBool : (RTy.struct gs).noBool = true
  natAlign : natAlignFields gs ∣ Glsl.roundToVec4 l (Glsl.vecAlign m.scalar.glsl m.dim)
  size : natSizeFields gs = m.dim * Glsl.columnStride l m.scalar.glsl m.dim
  cols : ∀ n ∈ m.fieldNames, gs.lookup n = some colTy
  offsets : ∀ j (h : j < m.fieldNames.length), (natOffsets 0 gs).lookup m.fieldNames[j] =
    some (j * Glsl.columnStride l m.scalar.glsl m.dim)

theorem mapM_lookup {α β} {g : α → Option β} {fs : List (String × α)} {ps : List (String × β)}
    (h : (fs.mapM fun (f : String × α) => (g f.2).map fun t => (f.1, t)) = some ps) {n : String}
    {x : α} (hl : fs.lookup n = some x) : ∃ t, g x = some t ∧ ps.lookup n = some t := by
  induction fs generalizing ps with
  | nil => simp at hl
  | cons f r ih =>
    obtain ⟨m, y⟩ := f
    rw [mapM_option_cons] at h
    cases hg : g y with
    | none => simp [hg] at h
    | some t =>
      cases hr : r.mapM fun (f : String × α) => (g f.2).map fun t => (f.1, t) with
      | none => simp [hg, hr] at h
      | some rs =>
        simp only [hg, hr, Option.map_some, Option.bind_some, Option.some.injEq] at h
        subst h
        rw [lookup_cons_if] at hl ⊢
        by_cases hm : n = m
        · simp only [hm, if_true, Option.some.injEq] at hl ⊢
          subst hl
          exact ⟨t, hg, rfl⟩
        · simp only [hm, if_false] at hl ⊢
          exact ih hr hl

/-- Shape of a matrix implementation. -/
theorem matImpl_row {l : Layout} {m : MathTy} (hk : m.kind = .matrix) {r : EasyRow}
    (hr : easyRow m = some r) :
    ∃ col gs, vecImpl l m.column = some col ∧ 2 ≤ m.dim ∧ m.dim ≤ 4 ∧
      (m.scalar = .f32 ∨ m.scalar = .f64) ∧ MatOk l m gs col.out ∧
      mathImpl l m = some (recordImpl gs (Glsl.roundToVec4 l (Glsl.vecAlign m.scalar.glsl m.dim))
        (m.fieldNames.map fun n => (n, col))) := by
  obtain ⟨hm, rfl⟩ := easyRow_mem hr
  have hok := row_ok l hm
  simp only [rowOk, hk, if_true, matRowOk] at hok
  cases hv : l.vectors.find? fun v => v.name == r.stdName with
  | some v => simp [hv] at hok
  | none =>
    cases hmr : l.matrices.find? fun v => v.name == r.stdName with
    | none => simp [hmr] at hok
    | some mr =>
      cases hcr : easyRow r.ty.column with
      | none => simp [hcr] at hok
      | some cr =>
        cases hpr : mr.primitive l with
        | none => simp [hmr, hcr, hpr] at hok
        | some p =>
          simp only [hmr, hcr, hpr, Bool.and_eq_true, beq_iff_eq, decide_eq_true_eq,
            Bool.or_eq_true] at hok
          obtain ⟨-, ⟨⟨⟨⟨⟨⟨h1, h2⟩, h3⟩, h4⟩, h5⟩, h6⟩, ⟨⟨⟨⟨h7, h8⟩, h9⟩, h10⟩, h11⟩, h12⟩⟩ := hok
          have hck : r.ty.column.kind ≠ .matrix := by simp [MathTy.column]
          obtain ⟨col, hcol⟩ := vecImpl_some (l := l) hck hcr
          have hp : l.primitive r.stdName = some p := by
            simp [Layout.primitive, Layout.vecPrimitive, hv, hmr, hpr]
          have hpal : p.alignment = mr.align := by
            simp only [MatRow.primitive] at hpr
            cases hq : mr.fields.mapM fun (f : String × MatField) => (f.2.rty l).map fun t => (f.1, t) with
            | none => rw [hq] at hpr; simp at hpr
            | some q => rw [hq] at hpr; cases hpr; rfl
          have hpf : (mr.fields.mapM fun (f : String × MatField) => (f.2.rty l).map fun t => (f.1, t))
              = some p.fields := by
            simp only [MatRow.primitive] at hpr
            cases hq : mr.fields.mapM fun (f : String × MatField) => (f.2.rty l).map fun t => (f.1, t) with
            | none => rw [hq] at hpr; simp at hpr
            | some q => rw [hq] at hpr; cases hpr; rfl
          refine ⟨col, p.fields, hcol, h4, h5, h2, ⟨h7, h8, h9, ?_, h11, ?_, ?_⟩, ?_⟩
          · rw [← h1, ← hpal]; exact Nat.dvd_of_mod_eq_zero h10
          · intro n hn
            obtain ⟨t, ht, hl⟩ := mapM_lookup (g := MatField.rty l) hpf (h6 n hn)
            rw [hl]
            congr 1
            -- the column type is the Output of the column implementation
            have hcm := easyRow_mem hcr
            have hokc := row_ok l hcm.1
            have hck' : cr.ty.kind ≠ .matrix := by rw [hcm.2]; exact hck
            simp only [rowOk, hck', if_false, vecRowOk] at hokc
            cases hv' : l.vectors.find? fun v => v.name == cr.stdName with
            | none => simp [hv'] at hokc
            | some v =>
              simp only [hv', Bool.and_eq_true, beq_iff_eq, decide_eq_true_eq] at hokc
              simp only [MatField.rty, Layout.vecPrimitive, hv', Option.map_some,
                Option.some.injEq] at ht
              obtain ⟨c, hc, _, _⟩ := mscalarImpl_some l r.ty.column.scalar
              have hp' : l.primitive cr.stdName = some v.primitive := by
                simp [Layout.primitive, Layout.vecPrimitive, hv']
              simp only [vecImpl, hcr, Option.bind_some, hc,
                easyImpl_eq hp' hokc.1.1.2, Option.some.injEq] at hcol
              rw [← hcol, ← ht]
              rfl
          · intro j hj
            have := h12 j (by rw [fieldNames_length h5] at hj; simpa using hj)
            rwa [List.getD_eq_getElem?_getD, List.getElem?_eq_getElem hj] at this
          · simp only [mathImpl, hk, hr, Option.bind_some, hcol]
            rw [easyImpl_eq hp h3, hpal, h1]

theorem matImpl_shape {l : Layout} {m : MathTy} {i : Impl} (hk : m.kind = .matrix)
    (h : mathImpl l m = some i) :
    ∃ col gs, vecImpl l m.column = some col ∧ 2 ≤ m.dim ∧ m.dim ≤ 4 ∧
      (m.scalar = .f32 ∨ m.scalar = .f64) ∧ MatOk l m gs col.out ∧
      i = recordImpl gs (Glsl.roundToVec4 l (Glsl.vecAlign m.scalar.glsl m.dim))
        (m.fieldNames.map fun n => (n, col)) := by
  cases hr : easyRow m with
  | none => simp [mathImpl, hk, hr] at h
  | some r =>
    obtain ⟨col, gs, h1, h2, h3, h4, h5, h6⟩ := matImpl_row (l := l) hk hr
    rw [h] at h6
    exact ⟨col, gs, h1, h2, h3, h4, h5, Option.some.inj h6⟩

theorem mathImpl_vec {l : Layout} {m : MathTy} (hk : m.kind ≠ .matrix) :
    mathImpl l m = vecImpl l m := by
  unfold mathImpl
  split
  · contradiction
  · rfl

/-- A math type is convertible iff it has a row, and then in both layouts. -/
theorem mathImpl_some_iff (l : Layout) (m : MathTy) :
    (∃ i, mathImpl l m = some i) ↔ ∃ r, easyRow m = some r := by
  constructor
  · rintro ⟨i, h⟩
    cases hr : easyRow m with
    | some r => exact ⟨r, rfl⟩
    | none =>
      by_cases hk : m.kind = .matrix
      · simp [mathImpl, hk, hr] at h
      · simp [mathImpl_vec hk, vecImpl, hr] at h
  · rintro ⟨r, hr⟩
    by_cases hk : m.kind = .matrix
    · obtain ⟨_, _, _, _, _, _, _, h⟩ := matImpl_row (l := l) hk hr
      exact ⟨_, h⟩
    · rw [mathImpl_vec hk]; exact vecImpl_some hk hr

end Crevice
