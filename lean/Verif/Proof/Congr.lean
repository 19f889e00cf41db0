import Verif.Proof.Padding
/-
Reading depends on the scalar components only; a value is determined by its GLSL value.
-/
namespace Glsl
open Crevice (Byte Endian Layout)

/-- The two buffers agree on the listed cells. -/
def SameCells (buf buf' : List Byte) (cs : List (Nat × Nat)) : Prop :=
  ∀ c ∈ cs, ∀ k, c.1 ≤ k → k < c.1 + c.2 → buf[k]? = buf'[k]?

theorem wordAt_congr (e : Endian) {buf buf' : List Byte} (hl : buf.length = buf'.length) {off n : Nat}
    (h : ∀ k, off ≤ k → k < off + n → buf[k]? = buf'[k]?) : wordAt e buf off n = wordAt e buf' off n := by
  unfold wordAt
  rw [hl]
  have : (buf.drop off).take n = (buf'.drop off).take n := by
    apply List.ext_getElem?
    intro k
    by_cases hk : k < n
    · rw [List.getElem?_take_of_lt hk, List.getElem?_take_of_lt hk, List.getElem?_drop,
        List.getElem?_drop]
      exact h _ (by omega) (by omega)
    · rw [List.getElem?_take_eq_none (by omega), List.getElem?_take_eq_none (by omega)]
  rw [this]

theorem readScalar_congr (e : Endian) {buf buf' : List Byte} (hl : buf.length = buf'.length)
    {s : Scalar} {off : Nat} (h : SameCells buf buf' [(off, s.size)]) :
    readScalar e s buf off = readScalar e s buf' off := by
  unfold readScalar
  rw [wordAt_congr e hl fun k h1 h2 => h (off, s.size) (by simp) k h1 h2]

theorem readScalars_congr (e : Endian) {buf buf' : List Byte} (hl : buf.length = buf'.length)
    {s : Scalar} {n off : Nat} (h : SameCells buf buf' (scalarCells s n off)) :
    readScalars e s n buf off = readScalars e s n buf' off := by
  unfold readScalars
  apply Crevice.mapM_congr
  intro i hi
  apply readScalar_congr e hl
  intro c hc
  simp only [List.mem_singleton] at hc
  subst hc
  apply h
  simp only [scalarCells, List.mem_map]
  exact ⟨i, hi, rfl⟩

theorem read_congr (e : Endian) (l : Layout) {buf buf' : List Byte} (hl : buf.length = buf'.length)
    (t : Ty) (off : Nat) (h : SameCells buf buf' (cells l t off)) :
    read e l t buf off = read e l t buf' off := by
  induction t using Ty.ind generalizing off with
  | hs s => simp only [read]; exact readScalar_congr e hl h
  | hv s n => simp only [read]; rw [readScalars_congr e hl h]
  | hm s c r =>
    simp only [read]
    congr 1
    apply Crevice.mapM_congr
    intro i hi
    apply readScalars_congr e hl
    intro x hx
    apply h
    simp only [cells, List.mem_flatMap]
    exact ⟨i, hi, hx⟩
  | ha t n ih =>
    simp only [read]
    congr 1
    apply Crevice.mapM_congr
    intro i hi
    apply ih
    intro x hx
    apply h
    simp only [cells, List.mem_flatMap]
    exact ⟨i, hi, hx⟩
  | hst n ms ih =>
    simp only [read]
    congr 1
    simp only [cells] at h
    generalize (0 : Nat) = cur at h
    induction ms generalizing cur with
    | nil => rfl
    | cons m r ihr =>
      obtain ⟨n, t⟩ := m
      simp only [readMembers]
      simp only [memberCells] at h
      rw [ih (n, t) (by simp) _ (fun c hc => h c (List.mem_append_left _ hc)),
        ihr (fun m hm => ih m (List.mem_cons_of_mem _ hm)) _
          (fun c hc => h c (List.mem_append_right _ hc))]
  | hal a t ih => simp only [read]; exact ih off h

end Glsl

namespace Crevice

theorem denoteLeaf_inj {s : MScalar} {v w : RVal} (hv : s.HasVal v) (hw : s.HasVal w)
    (h : denoteLeaf v = denoteLeaf w) : v = w := by
  cases s <;> obtain ⟨a, rfl⟩ := hv <;> obtain ⟨b, rfl⟩ := hw <;>
    simp only [denoteLeaf, Option.some.injEq] at h
  · exact congrArg (RVal.scalar .f32) (Glsl.Val.float.inj h)
  · exact congrArg (RVal.scalar .f64) (Glsl.Val.double.inj h)
  · exact congrArg (RVal.scalar .i32) (Glsl.Val.int.inj h)
  · exact congrArg (RVal.scalar .u32) (Glsl.Val.uint.inj h)
  · exact congrArg RVal.bool (Glsl.Val.bool.inj h)

theorem denoteLeaf_isSome {s : MScalar} {v : RVal} (hv : s.HasVal v) : (denoteLeaf v).isSome := by
  cases s <;> obtain ⟨a, rfl⟩ := hv <;> rfl

/-- Records with the same fields that denote the same are equal. -/
theorem mapM_some_inj {α β} {f g : α → Option β} {l : List α} {r : List β} (hf : l.mapM f = some r)
    (hg : l.mapM g = some r) : ∀ a ∈ l, f a = g a := by
  induction l generalizing r with
  | nil => intro a ha; simp at ha
  | cons a t ih =>
    rw [mapM_option_cons] at hf hg
    cases h1 : f a with
    | none => simp [h1] at hf
    | some b =>
      cases h2 : g a with
      | none => simp [h2] at hg
      | some b' =>
        cases h3 : t.mapM f with
        | none => simp [h1, h3] at hf
        | some bs =>
          cases h4 : t.mapM g with
          | none => simp [h2, h4] at hg
          | some bs' =>
            simp only [h1, h3, Option.bind_some, Option.map_some, Option.some.injEq] at hf
            simp only [h2, h4, Option.bind_some, Option.map_some, Option.some.injEq] at hg
            rw [← hg] at hf
            cases hf
            intro x hx
            rcases List.mem_cons.1 hx with rfl | hx
            · rw [h1, h2]
            · exact ih h3 h4 x hx

theorem uniform_inj {β : Type} {names : List String} (hn : names.Nodup) {P : RVal → Prop}
    {d : RVal → Option β} (hd : ∀ v w, P v → P w → d v = d w → v = w)
    (hs : ∀ v, P v → (d v).isSome) {v w : RVal}
    (hv : UniformStruct names P v) (hw : UniformStruct names P w)
    (h : (names.mapM fun n => (v.field n).bind d) = names.mapM fun n => (w.field n).bind d) :
    v = w := by
  obtain ⟨vs, rfl, hvn, hvP⟩ := hv
  obtain ⟨ws, rfl, hwn, hwP⟩ := hw
  have hf : ∀ n ∈ names, ∃ x, (n, x) ∈ vs := by
    intro n hn
    rw [← hvn] at hn
    obtain ⟨⟨m, x⟩, hx, rfl⟩ := List.mem_map.1 hn
    exact ⟨x, hx⟩
  have hg : ∀ n ∈ names, ∃ x, (n, x) ∈ ws := by
    intro n hn
    rw [← hwn] at hn
    obtain ⟨⟨m, x⟩, hx, rfl⟩ := List.mem_map.1 hn
    exact ⟨x, hx⟩
  have hlv : ∀ n x, (n, x) ∈ vs → vs.lookup n = some x := fun n x hx =>
    lookup_eq_some_of_mem (by rw [hvn]; exact hn) hx
  have hlw : ∀ n x, (n, x) ∈ ws → ws.lookup n = some x := fun n x hx =>
    lookup_eq_some_of_mem (by rw [hwn]; exact hn) hx
  obtain ⟨r, hr⟩ : ∃ r, (names.mapM fun n => ((RVal.struct vs).field n).bind d) = some r := by
    apply mapM_isSome
    intro n hn
    obtain ⟨x, hx⟩ := hf n hn
    simp only [RVal.field, hlv n x hx, Option.bind_some]
    exact Option.isSome_iff_exists.1 (hs x (hvP _ hx))
  have hr2 := hr
  rw [h] at hr2
  have hall := mapM_some_inj hr hr2
  have hlook : ∀ n ∈ names, vs.lookup n = ws.lookup n := by
    intro n hn
    obtain ⟨x, hx⟩ := hf n hn
    obtain ⟨y, hy⟩ := hg n hn
    have := hall n hn
    simp only [RVal.field, hlv n x hx, hlw n y hy, Option.bind_some] at this
    rw [hlv n x hx, hlw n y hy, hd x y (hvP _ hx) (hwP _ hy) this]
  congr 1
  clear h hr hr2 hall hf hg hlv hlw hvP hwP
  induction vs generalizing ws names with
  | nil =>
    rw [← hvn] at hwn
    simp at hwn
    exact hwn.symm
  | cons a r' ih =>
    cases ws with
    | nil => rw [← hvn] at hwn; simp at hwn
    | cons b s' =>
      obtain ⟨m, x⟩ := a
      obtain ⟨m', y⟩ := b
      rw [← hvn] at hwn
      simp only [List.map_cons, List.cons.injEq] at hwn
      obtain ⟨rfl, hwn⟩ := hwn
      subst hvn
      simp only [List.map_cons, List.nodup_cons] at hn
      have h0 := hlook m' (by simp)
      simp only [lookup_cons_if, if_true, Option.some.injEq] at h0
      subst h0
      congr 1
      refine ih hn.2 rfl _ hwn ?_
      intro n hn'
      have := hlook n (by simp; right; simpa using hn')
      rw [lookup_cons_if, lookup_cons_if] at this
      have hne : n ≠ m' := fun e => hn.1 (e ▸ hn')
      simpa [hne] using this

theorem uniform_isSome {β : Type} {names : List String} (hn : names.Nodup) {P : RVal → Prop}
    {d : RVal → Option β} (hs : ∀ v, P v → (d v).isSome) {v : RVal} (hv : UniformStruct names P v) :
    (names.mapM fun n => (v.field n).bind d).isSome := by
  obtain ⟨vs, rfl, hvn, hvP⟩ := hv
  rw [Option.isSome_iff_exists]
  apply mapM_isSome
  intro n hn'
  rw [← hvn] at hn'
  obtain ⟨⟨m, x⟩, hx, rfl⟩ := List.mem_map.1 hn'
  have : vs.lookup m = some x := lookup_eq_some_of_mem (by rw [hvn]; exact hn) hx
  simp only [RVal.field, this, Option.bind_some]
  exact Option.isSome_iff_exists.1 (hs x (hvP _ hx))

theorem denote_math_inj {m : MathTy} {v w : RVal} (hv : m.HasVal v) (hw : m.HasVal w)
    (h : m.denote v = m.denote w) : v = w := by
  have hn := fieldNames_nodup m
  have hmap : ∀ {α β : Type} {f : α → β} (_ : Function.Injective f) {a b : Option α},
      a.map f = b.map f → a = b := by
    intro α β f hf a b h
    cases a <;> cases b <;> simp at h ⊢
    exact hf h
  by_cases hk : m.kind = .matrix
  · simp only [MathTy.denote, MathTy.HasVal, hk] at h hv hw
    refine uniform_inj hn (P := UniformStruct m.fieldNames m.scalar.HasVal)
      (d := denoteComponents m.fieldNames) ?_ ?_ hv hw (hmap (fun a b h => by cases h; rfl) h)
    · intro a b ha hb hab
      exact uniform_inj hn (fun _ _ => denoteLeaf_inj) (fun _ => denoteLeaf_isSome) ha hb hab
    · intro a ha
      exact uniform_isSome hn (fun _ => denoteLeaf_isSome) ha
  · have hden : ∀ o, m.denote o = (denoteComponents m.fieldNames o).map .vec := by
      intro o; simp only [MathTy.denote]
    have hval : ∀ v, m.HasVal v = UniformStruct m.fieldNames m.scalar.HasVal v := by
      intro v; simp only [MathTy.HasVal]
    rw [hden, hden] at h
    rw [hval] at hv hw
    exact uniform_inj hn (fun _ _ => denoteLeaf_inj) (fun _ => denoteLeaf_isSome) hv hw
      (hmap (fun a b h => by cases h; rfl) h)

/-- A value of a type without raw layout types is determined by its GLSL value. -/
theorem denote_inj {tg : Target} {env : ForeignEnv} (henv : env.Lawful tg) {l : Layout} {t : Ty}
    {i : Impl} (h : resolve tg env l t = some i) (hpl : t.plain = true) {v w : RVal}
    (hv : t.HasVal tg env v) (hw : t.HasVal tg env w) {x : Glsl.Val} (hdv : t.denote env v = some x)
    (hdw : t.denote env w = some x) : v = w := by
  induction t using Ty.ind generalizing i v w x with
  | hs s =>
    simp only [Ty.HasVal] at hv hw
    simp only [Ty.denote] at hdv hdw
    cases s
    · exact denoteLeaf_inj (s := .f32) hv hw (hdv.trans hdw.symm)
    · exact denoteLeaf_inj (s := .f64) hv hw (hdv.trans hdw.symm)
    · exact denoteLeaf_inj (s := .i32) hv hw (hdv.trans hdw.symm)
    · exact denoteLeaf_inj (s := .u32) hv hw (hdv.trans hdw.symm)
    · obtain ⟨b, rfl⟩ := hv
      simp [denoteLeaf] at hdv
  | hb => exact denoteLeaf_inj (s := .bool) hv hw (hdv.trans hdw.symm)
  | hm m => exact denote_math_inj hv hw (hdv.trans hdw.symm)
  | hf n =>
    simp only [resolve] at h
    simp only [Ty.denote] at hdv hdw
    simp only [Ty.HasVal] at hv hw
    cases hr : mintyRow n with
    | none => simp [hr] at h
    | some row =>
      have hmem := foreignMath_row hr
      simp only [hmem, Option.bind_some] at hdv hdw
      obtain ⟨a, h1, h2, h3⟩ := henv.into_has n _ hmem v hv
      obtain ⟨b, h4, h5, h6⟩ := henv.into_has n _ hmem w hw
      rw [h1, Option.bind_some] at hdv
      rw [h4, Option.bind_some] at hdw
      have := denote_math_inj h2 h5 (hdv.trans hdw.symm)
      subst this
      rw [h3] at h6
      exact Option.some.inj h6
  | hst n fs ih =>
    obtain ⟨is, hr, hok, rfl⟩ := resolve_struct h
    have ha := resolveFields_all2 hr
    have hfn : (fs.map Prod.fst).Nodup := by
      have e1 : fs.map Prod.fst = is.map Prod.fst := by
        clear h ih hpl hr hok hv hw hdv hdw
        induction ha with
        | nil => rfl
        | cons h1 _ ih => rw [List.map_cons, List.map_cons, h1.1, ih]
      rw [e1]; exact hok.fnodup
    simp only [Ty.HasVal] at hv hw
    obtain ⟨vs, rfl, hvs⟩ := hv
    obtain ⟨ws, rfl, hws⟩ := hw
    simp only [Ty.denote] at hdv hdw
    simp only [Ty.plain] at hpl
    cases hd1 : denoteFields env fs (.struct vs) with
    | none => simp [hd1] at hdv
    | some xs =>
      cases hd2 : denoteFields env fs (.struct ws) with
      | none => simp [hd2] at hdw
      | some ys =>
        simp only [hd1, Option.map_some, Option.some.injEq] at hdv
        simp only [hd2, Option.map_some, Option.some.injEq] at hdw
        rw [← hdw] at hdv
        cases hdv
        congr 1
        clear hdw
        -- generalise over sublists of the fields
        rw [HasVals_iff] at hvs hws
        have key : ∀ (fs' : List (String × Ty)) (vs' ws' : List (String × RVal))
            (xs : List (String × Glsl.Val)), (∀ f ∈ fs', f ∈ fs) →
            (∀ f ∈ vs', f ∈ vs) → (∀ f ∈ ws', f ∈ ws) →
            All2 (fun (f : String × Ty) (v : String × RVal) => f.1 = v.1 ∧ Ty.HasVal tg env f.2 v.2) fs' vs' →
            All2 (fun (f : String × Ty) (v : String × RVal) => f.1 = v.1 ∧ Ty.HasVal tg env f.2 v.2) fs' ws' →
            denoteFields env fs' (.struct vs) = some xs → denoteFields env fs' (.struct ws) = some xs →
            vs' = ws' := by
          have hnv : (vs.map Prod.fst).Nodup := by
            have e1 : fs.map Prod.fst = vs.map Prod.fst := by
              clear h ih hpl hr hok hd1 hd2 ha hfn hws
              induction hvs with
              | nil => rfl
              | cons h1 _ ih => rw [List.map_cons, List.map_cons, h1.1, ih]
            rw [← e1]; exact hfn
          have hnw : (ws.map Prod.fst).Nodup := by
            have e1 : fs.map Prod.fst = ws.map Prod.fst := by
              clear h ih hpl hr hok hd1 hd2 ha hfn hvs hnv
              induction hws with
              | nil => rfl
              | cons h1 _ ih => rw [List.map_cons, List.map_cons, h1.1, ih]
            rw [← e1]; exact hfn
          intro fs'
          induction fs' with
          | nil => intro vs' ws' xs _ _ _ h1 h2 _ _; cases h1; cases h2; rfl
          | cons f r ihr =>
            intro vs' ws' xs hf hvs' hws' h1 h2 h3 h4
            cases h1 with
            | @cons _ a _ va hfa h1 =>
            cases h2 with
            | @cons _ b _ wb hfb h2 =>
            obtain ⟨n, t⟩ := f
            obtain ⟨n1, a⟩ := a
            obtain ⟨n2, b⟩ := b
            obtain ⟨e1, hva⟩ := hfa
            obtain ⟨e2, hvb⟩ := hfb
            simp only at e1 e2 hva hvb
            subst e1 e2
            have la : vs.lookup n = some a := lookup_eq_some_of_mem hnv (hvs' _ (by simp))
            have lb : ws.lookup n = some b := lookup_eq_some_of_mem hnw (hws' _ (by simp))
            simp only [denoteFields, RVal.field, la, lb, Option.bind_some] at h3 h4
            cases da : t.denote env a with
            | none => simp [da] at h3
            | some x1 =>
            cases db : t.denote env b with
            | none => simp [db] at h4
            | some x2 =>
            cases ra : denoteFields env r (.struct vs) with
            | none => simp [da, ra] at h3
            | some r1 =>
            cases rb : denoteFields env r (.struct ws) with
            | none => simp [db, rb] at h4
            | some r2 =>
            simp only [da, ra, Option.bind_some, Option.map_some, Option.some.injEq] at h3
            simp only [db, rb, Option.bind_some, Option.map_some, Option.some.injEq] at h4
            rw [← h4] at h3
            cases h3
            have hmf := hf (n, t) (by simp)
            obtain ⟨⟨n', j⟩, hj, hjn, hjr⟩ := ha.mem_left hmf
            have := ih (n, t) hmf hjr (plainFields_mem hpl hmf) hva hvb da db
            subst this
            congr 1
            exact ihr va wb r1 (fun f h => hf f (List.mem_cons_of_mem _ h))
              (fun f h => hvs' f (List.mem_cons_of_mem _ h))
              (fun f h => hws' f (List.mem_cons_of_mem _ h)) h1 h2 ra rb
        exact key fs vs ws xs (fun _ h => h) (fun _ h => h) (fun _ h => h) hvs hws hd1 hd2
  | hd t ih =>
    cases l with
    | std430 => simp [resolve] at h
    | std140 =>
      simp only [resolve] at h
      cases hr : resolve tg env .std140 t with
      | none => simp [hr] at h
      | some j =>
        simp only [Ty.HasVal] at hv hw
        obtain ⟨a, rfl, ha⟩ := hv
        obtain ⟨b, rfl, hb⟩ := hw
        simp only [Ty.denote] at hdv hdw
        rw [ih hr (by simpa [Ty.plain] using hpl) ha hb hdv hdw]
  | hu n t ih =>
    simp only [resolve, Option.map_eq_some_iff] at h
    obtain ⟨j, hj, rfl⟩ := h
    obtain ⟨a, h1, h2, h3⟩ := henv.user_into n t v hv
    obtain ⟨b, h4, h5, h6⟩ := henv.user_into n t w hw
    simp only [Ty.denote, h1, Option.bind_some] at hdv
    simp only [Ty.denote, h4, Option.bind_some] at hdw
    obtain rfl := ih hj (by simpa [Ty.plain] using hpl) h2 h5 hdv hdw
    rw [h3] at h6
    exact Option.some.inj h6
  | ho l' t ih => simp [Ty.plain] at hpl

end Crevice
