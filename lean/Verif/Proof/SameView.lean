import Verif.Proof.GlslText
import Verif.Proof.Rename
import Verif.Proof.Congr
/-
Types that stand for the same GLSL type convert equal values to equal bytes.
-/
namespace Crevice

/-- Name of the layout primitive for a shape. -/
def stdNameOf (mat : Bool) (s : MScalar) (dim : Nat) : String :=
  (match s with
    | .f32 => ""
    | .f64 => "D"
    | .i32 => "I"
    | .u32 => "U"
    | .bool => "B") ++ (if mat then "Mat" else "Vec") ++ toString dim

theorem rows_stdName :
    (easyRows.all fun r => r.stdName == stdNameOf (r.ty.kind == .matrix) r.ty.scalar r.ty.dim &&
      r.fields == r.ty.fieldNames) = true := by decide +kernel

/-- Same shape: library aside, and points being vectors. -/
structure SameShape (m m' : MathTy) : Prop where
  mat : m.kind = .matrix ↔ m'.kind = .matrix
  scalar : m.scalar = m'.scalar
  dim : m.dim = m'.dim

theorem SameShape.column {m m' : MathTy} (h : SameShape m m') : SameShape m.column m'.column :=
  ⟨by simp [MathTy.column], h.scalar, h.dim⟩

theorem MScalar.glsl_inj {s s' : MScalar} (h : s.glsl = s'.glsl) : s = s' := by
  cases s <;> cases s' <;> simp [MScalar.glsl] at h ⊢

theorem sameShape_of_glsl {m m' : MathTy} {g : Glsl.Ty} (h : m.glsl = some g)
    (h' : m'.glsl = some g) : SameShape m m' := by
  obtain ⟨lib, k, s, d⟩ := m
  obtain ⟨lib', k', s', d'⟩ := m'
  simp only [MathTy.glsl] at h h'
  split at h
  · split at h'
    · cases k <;> cases s <;> simp only [Option.some.injEq, reduceCtorEq] at h <;>
        subst h <;> cases k' <;> cases s' <;>
        simp_all [MScalar.glsl] <;> constructor <;> simp_all
    · simp at h'
  · simp at h

theorem SameShape.fieldNames {m m' : MathTy} (h : SameShape m m') : m.fieldNames = m'.fieldNames := by
  simp only [MathTy.fieldNames, h.dim]

theorem easyImpl_same {l : Layout} {m m' : MathTy} (h : SameShape m m') {r r' : EasyRow}
    (hr : easyRow m = some r) (hr' : easyRow m' = some r') (c : Impl) :
    easyImpl l r c = easyImpl l r' c := by
  obtain ⟨hm, rfl⟩ := easyRow_mem hr
  obtain ⟨hm', rfl⟩ := easyRow_mem hr'
  have h1 := List.all_eq_true.1 rows_stdName r hm
  have h2 := List.all_eq_true.1 rows_stdName r' hm'
  simp only [Bool.and_eq_true, beq_iff_eq] at h1 h2
  have hk : (r.ty.kind == .matrix) = (r'.ty.kind == .matrix) := by
    rw [Bool.eq_iff_iff, beq_iff_eq, beq_iff_eq]
    exact h.mat
  have hs : r.stdName = r'.stdName := by rw [h1.1, h2.1, hk, h.scalar, h.dim]
  have hf : r.fields = r'.fields := by rw [h1.2, h2.2, h.fieldNames]
  simp only [easyImpl, hs, hf, h.fieldNames]

theorem vecImpl_same {l : Layout} {m m' : MathTy} (h : SameShape m m') {i j : Impl}
    (hi : vecImpl l m = some i) (hj : vecImpl l m' = some j) : i = j := by
  simp only [vecImpl, Option.bind_eq_some_iff] at hi hj
  obtain ⟨r, hr, c, hc, hi⟩ := hi
  obtain ⟨r', hr', c', hc', hj⟩ := hj
  rw [← h.scalar, hc] at hc'
  injection hc' with hc'
  subst hc'
  rw [easyImpl_same h hr hr', hj] at hi
  exact (Option.some.inj hi).symm

theorem mathImpl_same {l : Layout} {m m' : MathTy} (h : SameShape m m') {i j : Impl}
    (hi : mathImpl l m = some i) (hj : mathImpl l m' = some j) : i = j := by
  by_cases hk : m.kind = .matrix
  · have hk' := h.mat.1 hk
    simp only [mathImpl, hk, hk', Option.bind_eq_some_iff] at hi hj
    obtain ⟨r, hr, c, hc, hi⟩ := hi
    obtain ⟨r', hr', c', hc', hj⟩ := hj
    have := vecImpl_same h.column hc hc'
    subst this
    rw [easyImpl_same h hr hr', hj] at hi
    exact (Option.some.inj hi).symm
  · have hk' : m'.kind ≠ .matrix := fun hc => hk (h.mat.2 hc)
    rw [mathImpl_vec hk] at hi
    rw [mathImpl_vec hk'] at hj
    exact vecImpl_same h hi hj

theorem SameShape.hasVal {m m' : MathTy} (h : SameShape m m') (v : RVal) : m.HasVal v ↔ m'.HasVal v := by
  unfold MathTy.HasVal
  rw [h.fieldNames, h.scalar]
  have := h.mat
  cases hk : m.kind <;> cases hk' : m'.kind <;> simp_all

theorem SameShape.denote {m m' : MathTy} (h : SameShape m m') (v : RVal) : m.denote v = m'.denote v := by
  unfold MathTy.denote
  rw [h.fieldNames]
  have := h.mat
  cases hk : m.kind <;> cases hk' : m'.kind <;> simp_all

/-- The mint or cgmath value behind a value of a math type. -/
theorem math_core {tg : Target} {env : ForeignEnv} (henv : env.Lawful tg) {l : Layout} {t : Ty} {i : Impl}
    (hi : resolve tg env l t = some i) {g : Glsl.Ty} (hg : t.glsl = some g)
    (hgs : (∃ s n, g = .vec s n) ∨ ∃ s c r, g = .mat s c r) (hpl : t.plain = true) {v o : RVal}
    (hv : t.HasVal tg env v) (ho : i.asStd v = some o) :
    ∃ m j w, mathImpl l m = some j ∧ m.glsl = some g ∧ m.HasVal w ∧ j.asStd w = some o ∧
      t.denote env v = m.denote w := by
  induction t using Ty.ind generalizing i v with
  | hs s => cases s <;> simp [Ty.glsl] at hg <;> subst hg <;> simp at hgs
  | hb => simp [Ty.glsl] at hg; subst hg; simp at hgs
  | hm m => exact ⟨m, i, v, hi, hg, hv, ho, rfl⟩
  | hu n t ih =>
    simp only [resolve, Option.map_eq_some_iff] at hi
    obtain ⟨j, hj, rfl⟩ := hi
    obtain ⟨w, h1, h2, -⟩ := henv.user_into n t v hv
    simp only [userImpl, h1, Option.bind_some] at ho
    obtain ⟨m, k, x, g1, g2, g3, g4, g5⟩ := ih hj hg (by simpa [Ty.plain] using hpl) h2 ho
    exact ⟨m, k, x, g1, g2, g3, g4, by simp only [Ty.denote, h1, Option.bind_some, g5]⟩
  | hf n =>
    simp only [resolve, Option.bind_eq_some_iff, Option.map_eq_some_iff] at hi
    obtain ⟨row, hrow, j, hj, rfl⟩ := hi
    have hm := foreignMath_row hrow
    obtain ⟨w, h1, h2, -⟩ := henv.into_has n _ hm v hv
    simp only [mintyImpl, h1, Option.bind_some] at ho
    refine ⟨row.mint, j, w, hj, ?_, h2, ho, ?_⟩
    · simpa [Ty.glsl, hm] using hg
    · simp [Ty.denote, hm, h1]
  | hst n fs =>
    obtain ⟨ms, rfl, -⟩ := glsl_struct hg
    simp at hgs
  | hd t =>
    simp only [Ty.glsl, Option.map_eq_some_iff] at hg
    obtain ⟨_, _, rfl⟩ := hg
    simp at hgs
  | ho l t => simp [Ty.plain] at hpl

/-- A value of a type with hand-written implementations, seen through them. -/
theorem core_view {tg : Target} {env : ForeignEnv} (henv : env.Lawful tg) {l : Layout} {u : Ty}
    {g : Glsl.Ty} {j : Impl} (hj : resolve tg env l u = some j) (hgu : u.glsl = some g)
    (hpu : u.plain = true) {w : RVal} (hw : u.HasVal tg env w) {x : Glsl.Val}
    (hy : u.denote env w = some x) {p : RVal} (hp : j.asStd w = some p) :
    ∃ u' j' w', (∀ n r, u' ≠ .user n r) ∧ resolve tg env l u' = some j' ∧ u'.glsl = some g ∧
      u'.plain = true ∧ u'.HasVal tg env w' ∧ u'.denote env w' = some x ∧ j'.asStd w' = some p := by
  induction u using Ty.ind generalizing j w with
  | hu n t ih =>
    simp only [resolve, Option.map_eq_some_iff] at hj
    obtain ⟨a, ha, rfl⟩ := hj
    obtain ⟨w', h1, h2, -⟩ := henv.user_into n t w hw
    simp only [userImpl, h1, Option.bind_some] at hp
    simp only [Ty.denote, h1, Option.bind_some] at hy
    exact ih ha hgu (by simpa [Ty.plain] using hpu) h2 hy hp
  | _ =>
    refine ⟨_, j, w, ?_, hj, hgu, hpu, hw, hy, hp⟩
    intro n r h
    cases h

theorem math_same_bytes {tg : Target} {env : ForeignEnv} (henv : env.Lawful tg)
    {l : Layout} {t u : Ty} {g : Glsl.Ty}
    (hgs : (∃ s n, g = .vec s n) ∨ ∃ s c r, g = .mat s c r)
    (hgt : t.glsl = some g) (hgu : u.glsl = some g)
    (hpt : t.plain = true) (hpu : u.plain = true) {i j : Impl} (hi : resolve tg env l t = some i)
    (hj : resolve tg env l u = some j) {v w : RVal} (hv : t.HasVal tg env v)
    (hw : u.HasVal tg env w) {x : Glsl.Val} (hx : t.denote env v = some x)
    (hy : u.denote env w = some x) {o p : RVal} (ho : i.asStd v = some o)
    (hp : j.asStd w = some p) : o = p := by
  obtain ⟨m, a, v', h1, h2, h3, h4, h5⟩ := math_core henv hi hgt hgs hpt hv ho
  obtain ⟨m', b, w', h1', h2', h3', h4', h5'⟩ := math_core henv hj hgu hgs hpu hw hp
  have hs := sameShape_of_glsl h2 h2'
  have hab := mathImpl_same hs h1 h1'
  subst hab
  have hd : v' = w' := by
    refine denote_inj (tg := tg) henv (l := l) (t := .math m) (i := a) h1 rfl h3 ((hs.hasVal _).2 h3')
      (x := x) ?_ ?_
    · rw [← hx, h5]; rfl
    · rw [← hy, h5', ← hs.denote]; rfl
  subst hd
  rw [h4] at h4'
  exact Option.some.inj h4'

theorem glsl_scalar_inv {t : Ty} {s : Glsl.Scalar} (h : t.glsl = some (.scalar s))
    (hpl : t.plain = true) (hnu : ∀ n r, t ≠ .user n r) :
    (t = .scalar .f32 ∧ s = .float) ∨ (t = .scalar .f64 ∧ s = .double) ∨
    (t = .scalar .i32 ∧ s = .int) ∨ (t = .scalar .u32 ∧ s = .uint) ∨ (t = .bool ∧ s = .bool) := by
  cases t with
  | scalar s' => cases s' <;> simp [Ty.glsl] at h <;> subst h <;> simp
  | bool => simp [Ty.glsl] at h; subst h; simp
  | math m =>
    simp only [Ty.glsl, MathTy.glsl] at h
    split at h
    · split at h <;> simp at h
    · simp at h
  | «foreign» n =>
    simp only [Ty.glsl, Option.bind_eq_some_iff] at h
    obtain ⟨row, -, h⟩ := h
    simp only [MathTy.glsl] at h
    split at h
    · split at h <;> simp at h
    · simp at h
  | struct n fs =>
    obtain ⟨ms, h, -⟩ := glsl_struct h
    simp at h
  | dynamic t =>
    simp only [Ty.glsl, Option.map_eq_some_iff] at h
    obtain ⟨_, _, h⟩ := h
    simp at h
  | output l t => simp [Ty.plain] at hpl
  | user n r => exact absurd rfl (hnu n r)

theorem math_glsl_shape {m : MathTy} {g : Glsl.Ty} (h : m.glsl = some g) :
    (∃ s n, g = .vec s n) ∨ ∃ s c r, g = .mat s c r := by
  simp only [MathTy.glsl] at h
  split at h
  · split at h <;> simp at h <;> subst h <;> simp
  · simp at h

theorem glsl_struct_inv {t : Ty} {n : String} {ms : List (String × Glsl.Ty)}
    (h : t.glsl = some (.struct n ms)) (hpl : t.plain = true) (hnu : ∀ n r, t ≠ .user n r) :
    ∃ fs, t = .struct n fs ∧ glslMembers fs = some ms ∧ plainFields fs = true := by
  cases t with
  | scalar s' => cases s' <;> simp [Ty.glsl] at h
  | bool => simp [Ty.glsl] at h
  | math m =>
    have := math_glsl_shape (m := m) (by simpa [Ty.glsl] using h)
    simp at this
  | «foreign» n =>
    simp only [Ty.glsl, Option.bind_eq_some_iff] at h
    obtain ⟨row, -, h⟩ := h
    have := math_glsl_shape h
    simp at this
  | struct n' fs =>
    obtain ⟨ms', h1, -, h2⟩ := glsl_struct h
    injection h1 with h1 h3
    subst h1; subst h3
    exact ⟨fs, rfl, h2, by simpa [Ty.plain] using hpl⟩
  | dynamic t =>
    simp only [Ty.glsl, Option.map_eq_some_iff] at h
    obtain ⟨_, _, h⟩ := h
    simp at h
  | output l t => simp [Ty.plain] at hpl
  | user n r => exact absurd rfl (hnu n r)

theorem glsl_aligned_inv {t : Ty} {a : Nat} {g : Glsl.Ty}
    (h : t.glsl = some (.aligned a g)) (hpl : t.plain = true) (hnu : ∀ n r, t ≠ .user n r) :
    ∃ t', t = .dynamic t' ∧ t'.glsl = some g ∧ t'.plain = true := by
  cases t with
  | scalar s' => cases s' <;> simp [Ty.glsl] at h
  | bool => simp [Ty.glsl] at h
  | math m =>
    have := math_glsl_shape (m := m) (by simpa [Ty.glsl] using h)
    simp at this
  | «foreign» n =>
    simp only [Ty.glsl, Option.bind_eq_some_iff] at h
    obtain ⟨row, -, h⟩ := h
    have := math_glsl_shape h
    simp at this
  | struct n' fs =>
    obtain ⟨ms', h1, -, h2⟩ := glsl_struct h
    simp at h1
  | dynamic t =>
    simp only [Ty.glsl, Option.map_eq_some_iff] at h
    obtain ⟨g', h1, h2⟩ := h
    injection h2 with _ h2
    subst h2
    exact ⟨t, rfl, h1, by simpa [Ty.plain] using hpl⟩
  | output l t => simp [Ty.plain] at hpl
  | user n r => exact absurd rfl (hnu n r)

theorem plainFields_get {fs : List (String × Ty)} (h : plainFields fs = true) :
    ∀ f ∈ fs, f.2.plain = true := by
  induction fs with
  | nil => simp
  | cons f r ih =>
    obtain ⟨n, t⟩ := f
    simp only [plainFields, Bool.and_eq_true] at h
    intro g hg
    rcases List.mem_cons.1 hg with rfl | hg
    · exact h.1
    · exact ih h.2 g hg

theorem denoteFields_all2 {env : ForeignEnv} {fs : List (String × Ty)} {v : RVal}
    {xs : List (String × Glsl.Val)} (h : denoteFields env fs v = some xs) :
    All2 (fun (f : String × Ty) (x : String × Glsl.Val) => ∃ y, v.field f.1 = some y ∧
      f.2.denote env y = some x.2) fs xs := by
  induction fs generalizing xs with
  | nil => simp [denoteFields] at h; subst h; exact .nil
  | cons f r ih =>
    obtain ⟨n, t⟩ := f
    simp only [denoteFields, Option.bind_eq_some_iff, Option.map_eq_some_iff] at h
    obtain ⟨x, ⟨y, hy, hd⟩, xs', hxs, rfl⟩ := h
    exact .cons ⟨y, hy, hd⟩ (ih hxs)

/-- Same GLSL type and same GLSL value: same bytes. -/
theorem same_view_bytes {tg : Target} (htg : tg.Valid) {env : ForeignEnv} (henv : env.Lawful tg)
    {l : Layout} {t u : Ty} {g : Glsl.Ty} (hgt : t.glsl = some g) (hgu : u.glsl = some g)
    (hpt : t.plain = true) (hpu : u.plain = true) {i j : Impl} (hi : resolve tg env l t = some i)
    (hj : resolve tg env l u = some j) {v w : RVal} (hv : t.HasVal tg env v)
    (hw : u.HasVal tg env w) {x : Glsl.Val} (hx : t.denote env v = some x)
    (hy : u.denote env w = some x) {o p : RVal} (ho : i.asStd v = some o)
    (hp : j.asStd w = some p) : enc tg.endian o = enc tg.endian p := by
  induction t using Ty.ind generalizing u g i j v w x o p with
  | hs s =>
    obtain ⟨u1, j1, w1, hnu, hj1, hgu1, hpu1, hw1, hy1, hp1⟩ := core_view henv hj hgu hpu hw hy hp
    clear hp hy hw hpu hgu hj w j u
    revert u1 j1 w1
    intro u j w hnu hj hgu hpu hw hy hp
    have hh : ∃ s', g = .scalar s' := by cases s <;> simp [Ty.glsl] at hgt <;> subst hgt <;> simp
    obtain ⟨s', rfl⟩ := hh
    have e : u = .scalar s := by
      have h1 := glsl_scalar_inv hgt hpt (by intro n r h; cases h)
      have h2 := glsl_scalar_inv hgu hpu hnu
      rcases h1 with ⟨h1, rfl⟩ | ⟨h1, rfl⟩ | ⟨h1, rfl⟩ | ⟨h1, rfl⟩ | ⟨h1, rfl⟩ <;> simp_all
    subst e
    have := denote_inj henv hi hpt hv hw hx hy
    subst this
    rw [hi] at hj; cases hj
    rw [ho] at hp; cases hp; rfl
  | hb =>
    obtain ⟨u1, j1, w1, hnu, hj1, hgu1, hpu1, hw1, hy1, hp1⟩ := core_view henv hj hgu hpu hw hy hp
    clear hp hy hw hpu hgu hj w j u
    revert u1 j1 w1
    intro u j w hnu hj hgu hpu hw hy hp
    have hh : ∃ s', g = .scalar s' := by simp [Ty.glsl] at hgt; subst hgt; simp
    obtain ⟨s', rfl⟩ := hh
    have e : u = .bool := by
      have h1 := glsl_scalar_inv hgt hpt (by intro n r h; cases h)
      have h2 := glsl_scalar_inv hgu hpu hnu
      rcases h1 with ⟨h1, rfl⟩ | ⟨h1, rfl⟩ | ⟨h1, rfl⟩ | ⟨h1, rfl⟩ | ⟨h1, rfl⟩ <;> simp_all
    subst e
    have := denote_inj henv hi hpt hv hw hx hy
    subst this
    rw [hi] at hj; cases hj
    rw [ho] at hp; cases hp; rfl
  | hm m =>
    have := math_same_bytes henv (math_glsl_shape (m := m) (by simpa [Ty.glsl] using hgt)) hgt hgu
      hpt hpu hi hj hv hw hx hy ho hp
    rw [this]
  | hf n =>
    have hh := hgt
    simp only [Ty.glsl, Option.bind_eq_some_iff] at hh
    obtain ⟨row, -, hh⟩ := hh
    have := math_same_bytes henv (math_glsl_shape hh) hgt hgu
      hpt hpu hi hj hv hw hx hy ho hp
    rw [this]
  | hu n t ih =>
    simp only [resolve, Option.map_eq_some_iff] at hi
    obtain ⟨a, ha, rfl⟩ := hi
    obtain ⟨v', h1, h2, -⟩ := henv.user_into n t v hv
    simp only [userImpl, h1, Option.bind_some] at ho
    simp only [Ty.denote, h1, Option.bind_some] at hx
    exact ih hgt hgu (by simpa [Ty.plain] using hpt) hpu ha hj h2 hw hx hy ho hp
  | ho l' t _ => simp [Ty.plain] at hpt
  | hd t ih =>
    obtain ⟨u1, j1, w1, hnu, hj1, hgu1, hpu1, hw1, hy1, hp1⟩ := core_view henv hj hgu hpu hw hy hp
    clear hp hy hw hpu hgu hj w j u
    revert u1 j1 w1
    intro u j w hnu hj hgu hpu hw hy hp
    have hh := hgt
    simp only [Ty.glsl, Option.map_eq_some_iff] at hh
    obtain ⟨g', hg', rfl⟩ := hh
    obtain ⟨u', rfl, hgu', hpu'⟩ := glsl_aligned_inv hgu hpu hnu
    cases l with
    | std430 => simp [resolve] at hi
    | std140 =>
      simp only [resolve, Option.map_eq_some_iff] at hi hj
      obtain ⟨a, ha, rfl⟩ := hi
      obtain ⟨b, hb, rfl⟩ := hj
      obtain ⟨v, rfl, hv⟩ := hv
      obtain ⟨w, rfl, hw⟩ := hw
      simp only [Ty.denote] at hx hy
      simp only [dynamicImpl, Option.map_eq_some_iff] at ho hp
      obtain ⟨o, ho, rfl⟩ := ho
      obtain ⟨p, hp, rfl⟩ := hp
      simpa only [enc] using ih hg' hgu' (by simpa [Ty.plain] using hpt) hpu' ha hb hv hw hx hy ho hp
  | hst n fs ih =>
    obtain ⟨u1, j1, w1, hnu, hj1, hgu1, hpu1, hw1, hy1, hp1⟩ := core_view henv hj hgu hpu hw hy hp
    clear hp hy hw hpu hgu hj w j u
    revert u1 j1 w1
    intro u j w hnu hj hgu hpu hw hy hp
    obtain ⟨ms, rfl, -, hms⟩ := glsl_struct hgt
    obtain ⟨gs, rfl, hms', hpu'⟩ := glsl_struct_inv hgu hpu hnu
    have hpt' : plainFields fs = true := by simpa [Ty.plain] using hpt
    have hA := glslMembers_all2 hms
    have hB := glslMembers_all2 hms'
    have hal : i.alignment = j.alignment := by
      rw [(agrees_resolve htg hi hgt).align, (agrees_resolve htg hj hgu).align]
    obtain ⟨ws, hws, he⟩ := struct_image htg henv hi hv ho
    obtain ⟨ws', hws', he'⟩ := struct_image htg henv hj hw hp
    simp only [Ty.denote, Option.map_eq_some_iff] at hx hy
    obtain ⟨xs, hxs, rfl⟩ := hx
    obtain ⟨ys, hys, hxy⟩ := hy
    injection hxy with hxy
    subst hxy
    have hC := denoteFields_all2 hxs
    have hD := denoteFields_all2 hys
    have heq : ws = ws' := by
      apply List.ext_getElem
      · rw [← hws.length, ← hws'.length, hA.length, hB.length]
      · intro k k1 k2
        have kf : k < fs.length := by rw [hws.length]; exact k1
        have kg : k < gs.length := by rw [hws'.length]; exact k2
        have km : k < ms.length := by rw [← hA.length]; exact kf
        have kx : k < ys.length := by rw [← hC.length]; exact kf
        obtain ⟨a, x, y, ra, fx, hx, ay, ty, e1, _⟩ := hws.get k kf k1
        obtain ⟨b, x', y', rb, fx', hx', ay', ty', e2, _⟩ := hws'.get k kg k2
        obtain ⟨z, hz, hzd⟩ := hC.get k kf kx
        obtain ⟨z', hz', hzd'⟩ := hD.get k kg kx
        rw [fx] at hz; cases hz
        rw [fx'] at hz'; cases hz'
        have g1 := (hA.get k kf km).2
        have g2 := (hB.get k kg km).2
        have a1 := agrees_resolve htg ra g1
        have a2 := agrees_resolve htg rb g2
        have p1 := plainFields_get hpt' _ (List.getElem_mem kf)
        have p2 := plainFields_get hpu' _ (List.getElem_mem kg)
        have e5 := ih fs[k] (List.getElem_mem kf) g1 g2 p1 p2 ra rb hx hx' hzd hzd' ay ay'
        have e4 : a.out.size tg = b.out.size tg := by
          rw [size_eq_natSize htg (good_resolve htg ra).packed,
            size_eq_natSize htg (good_resolve htg rb).packed, a1.size, a2.size]
        rw [e1, e2, a1.align, a2.align, e4, e5]
    rw [he, he', heq, hal]

end Crevice
