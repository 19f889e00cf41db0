import Verif.Proof.Overwrite
import Verif.Props.C22_C26
import Verif.Props.C21
import Verif.Props.C30_C31
/-
C51: updating part of a buffer in place.
-/
namespace Crevice

variable {tg : Target} {env : ForeignEnv} {l : Layout}

theorem Item.ext_val {x y : Item tg env l} (ht : x.ty = y.ty) (hv : x.val = y.val) : x = y := by
  obtain ⟨t, v, i, bs, a, h1, h2, h3, h4⟩ := x
  obtain ⟨t', v', i', bs', a', h1', h2', h3', h4'⟩ := y
  simp only at ht hv
  subst ht hv
  rw [h1, Option.some.injEq] at h1'
  subst h1'
  rw [h3, Option.some.injEq] at h3'
  rw [h4, Option.some.injEq] at h4'
  subst h3' h4'
  rfl

theorem Item.same_impl {x y : Item tg env l} (ht : x.ty = y.ty) : x.impl = y.impl := by
  have h := x.resolves
  rw [ht, y.resolves, Option.some.injEq] at h
  exact h.symm

theorem items_set (xs : List (Item tg env l)) (m : Nat) (y : Item tg env l) :
    (xs.set m y).map Item.std = (xs.map Item.std).set m y.std := by
  rw [List.map_set]

/-- C51: take two sequences of writes that differ in one value, of the same type in both. Both
return the same offsets, and overwriting the bytes at the offset of that value in what the first
delivers gives what the second delivers. -/
theorem C51_buffer (htg : tg.Valid) (henv : env.Lawful tg) (xs : List (Item tg env l)) {m : Nat}
    (hm : m < xs.length) (y : Item tg env l) (hy : y.ty = xs[m].ty)
    {σ σ' ε ε' : Type} {k : Sink σ ε} (hk : k.Lawful) {k' : Sink σ' ε'} (hk' : k'.Lawful)
    {s : σ} {s' : σ'} {os os' : List Nat} {w : Writer σ} {w' : Writer σ'}
    (h : (Writer.new s).history k (xs.map Item.arg) = (os.map .ok, w))
    (h' : (Writer.new s').history k' ((xs.set m y).map Item.arg) = (os'.map .ok, w')) :
    os' = os ∧ w'.len = w.len ∧ ∃ (img : List Byte) (hmo : m < os.length),
      k.delivered w.sink = k.delivered s ++ img ∧ img.length = w.len ∧
      os[m] + y.bytes.length ≤ img.length ∧
      k'.delivered w'.sink = k'.delivered s' ++ overwrite img os[m] y.bytes := by
  obtain ⟨h1, h2, h3⟩ := history_ok hk (items_wf htg henv xs) h
  obtain ⟨g1, g2, g3⟩ := history_ok hk' (items_wf htg henv _) h'
  rw [items_returned] at h1 g1
  rw [items_leaves] at h2 h3 g2 g3
  have hi := Item.same_impl hy
  have hmx : m < (xs.map Item.std).length := by simpa using hm
  have hset := image_set 0 (xs.map Item.std) m hmx y.std
    (by simp [Item.std, hi]) (by
      simp only [Item.std, List.getElem_map]
      rw [y.length htg henv, xs[m].length htg henv, hi])
  simp only [Writer.new] at h1 h2 h3 g1 g2 g3
  rw [items_set, hset.1] at g1
  rw [items_set, hset.2.1] at g2
  rw [items_set, hset.2.2] at g3
  have hl := image_length 0 (xs.map Item.std)
  have hmo : m < os.length := by rw [h1, places_length]; exact hmx
  refine ⟨by rw [g1, h1], by rw [Writer.len, Writer.len, g2, h2], _, hmo, h3, ?_, ?_, ?_⟩
  · rw [Writer.len, h2, ← hl, Nat.zero_add]
  · have hp := placed_places 0 (xs.map Item.std)
    have := (hp.bounds.2 m (by simpa using hm) (by rw [places_length]; exact hmx)).2
    simp only [List.getElem_map, Item.std] at this
    have e : os[m] = (places 0 (xs.map Item.std))[m]'(by rw [places_length]; exact hmx) := by
      simp [h1]
    have hyl : y.bytes.length = xs[m].bytes.length := by
      rw [y.length htg henv, xs[m].length htg henv, hi]
    have e2 : (places 0 (xs.map Item.std))[m]'(by rw [places_length]; exact hmx) +
        xs[m].bytes.length ≤ endOf 0 (xs.map Item.std) := this
    omega
  · rw [g3]
    subst h1
    simp [Item.std]

/-- Offsets of nested fields. -/
theorem offsetOf_cons {tg : Target} {gs : List (String × RTy)} {n : String} {k : Nat} {t : RTy}
    (h : RTy.offsetOf tg (.struct gs) [n] = some (k, t)) (p : List String) :
    RTy.offsetOf tg (.struct gs) (n :: p) = (RTy.offsetOf tg t p).map fun x => (k + x.1, x.2) := by
  simp only [RTy.offsetOf] at h ⊢
  generalize (0 : Nat) = off at h ⊢
  induction gs generalizing off with
  | nil => simp [offsetOfField] at h
  | cons g r ih =>
    obtain ⟨m, u⟩ := g
    rw [offsetOfField] at h ⊢
    by_cases hmn : m = n
    · rw [if_pos hmn] at h ⊢
      have h0 : RTy.offsetOf tg u [] = some (0, u) := by rw [RTy.offsetOf]
      rw [h0] at h
      simp only [Option.map_some, Nat.add_zero, Option.some.injEq, Prod.mk.injEq] at h
      obtain ⟨rfl, rfl⟩ := h
      rfl
    · rw [if_neg hmn] at h ⊢
      exact ih _ h

/-- One step of `C51_field`. -/
theorem overwrite_field (htg : tg.Valid) (henv : env.Lawful tg) {x x' : Item tg env l} {name : String}
    {fs : List (String × Ty)} (hx : x.ty = .struct name fs) (hx' : x'.ty = .struct name fs)
    {n : String} {u : Ty} (hu : fs.lookup n = some u)
    (hsame : ∀ m, m ≠ n → x'.val.field m = x.val.field m) :
    ∃ (a a' : Item tg env l) (off : Nat), a.ty = u ∧ a'.ty = u ∧ x.val.field n = some a.val ∧
      x'.val.field n = some a'.val ∧ x.impl.out.offsetOf tg [n] = some (off, a.impl.out) ∧
      off + a.bytes.length ≤ x.bytes.length ∧ SliceAt x.bytes off a.bytes ∧
      x'.bytes = overwrite x.bytes off a'.bytes := by
  obtain ⟨ys, hl, hys⟩ := C23_fields_exist htg henv x hx
  obtain ⟨ys', hl', hys'⟩ := C23_fields_exist htg henv x' hx'
  obtain ⟨m, hm, hfm⟩ : ∃ m, ∃ hm : m < fs.length, fs[m] = (n, u) :=
    List.getElem_of_mem (mem_of_lookup_eq_some hu)
  have hmy : m < ys.length := by omega
  have hmy' : m < ys'.length := by omega
  have hnod : (fs.map Prod.fst).Nodup := by
    have := ((C30_compiles tg env l name fs).1 ⟨x.impl, hx ▸ x.resolves⟩).2.2.1
    exact nodup_of_unraw (by simpa only [plainName_eq_unraw] using this)
  have hset : ys' = ys.set m ys'[m] := by
    apply List.ext_getElem
    · simp; omega
    · intro j hj hj'
      by_cases hjm : j = m
      · subst hjm; simp
      · rw [List.getElem_set_ne (Ne.symm hjm)]
        have hjf : j < fs.length := by omega
        obtain ⟨a1, a2⟩ := hys j hjf (by omega)
        obtain ⟨b1, b2⟩ := hys' j hjf hj
        refine Item.ext_val (by rw [a1, b1]) ?_
        have hne : fs[j].1 ≠ n := by
          intro he
          have h1 : (fs.map Prod.fst)[j]'(by simpa using hjf) = (fs.map Prod.fst)[m]'(by simpa using hm) := by
            simp [he, hfm]
          exact hjm ((List.getElem_inj hnod).1 h1)
        rw [hsame _ hne, a2, Option.some.injEq] at b2
        exact b2.symm
  obtain ⟨e1, e2⟩ := hys m hm hmy
  obtain ⟨e1', e2'⟩ := hys' m hm hmy'
  simp only [hfm] at e1 e2 e1' e2'
  obtain ⟨w, hw, -⟩ := history_infallible (vecSink_infallible Unit) (Writer.new [])
    (items_wf htg henv ys)
  obtain ⟨w', hw', -⟩ := history_infallible (vecSink_infallible Unit) (Writer.new [])
    (items_wf htg henv ys')
  obtain ⟨img, f1, f2, f3, f4, f5⟩ := C23_fieldwise htg henv x hx ys hl hys (vecSink_lawful Unit) hw
  obtain ⟨img', g1, g2, g3, g4, g5⟩ := C23_fieldwise htg henv x' hx' ys' hl' hys' (vecSink_lawful Unit) hw'
  have hw'' := hw'
  rw [hset] at hw''
  obtain ⟨b1, b2, img₁, hmo, b3, b4, b5, b6⟩ := C51_buffer htg henv ys hmy ys'[m] (by rw [e1, e1'])
    (vecSink_lawful Unit) (vecSink_lawful Unit) hw hw''
  obtain rfl : img = img₁ := List.append_cancel_left (f1.symm.trans b3)
  have himg' : img' = overwrite img _ ys'[m].bytes := List.append_cancel_left (g1.symm.trans b6)
  obtain ⟨-, img₂, q1, q2, q3, -⟩ := C18_history htg henv ys (vecSink_lawful Unit) hw
  obtain rfl : img = img₂ := List.append_cancel_left (f1.symm.trans q1)
  have hoff := f5 m hm hmo hmy
  simp only [hfm] at hoff
  have hlen : ys[m].bytes.length = ys'[m].bytes.length := by
    rw [Item.length htg henv, Item.length htg henv, Item.same_impl (e1.trans e1'.symm)]
  have hxl : x'.bytes.length = x.bytes.length := by
    rw [Item.length htg henv, Item.length htg henv, Item.same_impl (hx'.trans hx.symm)]
  have hle : img.length ≤ x.bytes.length := by
    have := congrArg List.length f3
    simp at this
    omega
  refine ⟨ys[m], ys'[m], _, e1, e1', e2, e2', hoff, by omega, ?_, ?_⟩
  · have := q3 m hmy hmo
    unfold SliceAt at this ⊢
    rw [f3, List.drop_append_of_le_length (by omega), List.take_append_of_le_length]
    · exact this
    · rw [List.length_drop]; omega
  · rw [g3, f3, overwrite_append (by simpa using b5), ← himg']
    congr 2
    omega

/-- C51: take a value of a struct type and assign to one of its fields, at any depth. Overwriting
the bytes at the offset of that field with the bytes the new field value converts to gives the bytes
the new struct value converts to. -/
theorem C51_field (htg : tg.Valid) (henv : env.Lawful tg) {p : List String} {x x' z : Item tg env l}
    (ht : x'.ty = x.ty) (hz : x.ty.fieldTy p = some z.ty) (ha : Assigned p x.val z.val x'.val) :
    ∃ off, x.impl.out.offsetOf tg p = some (off, z.impl.out) ∧
      off + z.bytes.length ≤ x.bytes.length ∧ x'.bytes = overwrite x.bytes off z.bytes := by
  induction p generalizing x x' with
  | nil =>
    generalize hzv : z.val = zv at ha
    generalize hxv : x'.val = xv at ha
    cases ha
    simp only [Ty.fieldTy, Option.some.injEq] at hz
    have hzx : z = x' := Item.ext_val (hz.symm.trans ht.symm) (hzv.trans hxv.symm)
    subst hzx
    have hi := Item.same_impl ht
    have hl : z.bytes.length = x.bytes.length := by
      rw [Item.length htg henv, Item.length htg henv, hi]
    refine ⟨0, by rw [RTy.offsetOf, hi], by omega, ?_⟩
    simp [overwrite, hl]
  | cons n p ih =>
    generalize hxt : x.ty = t at *
    cases t with
    | struct name fs =>
      simp only [Ty.fieldTy, Option.bind_eq_some_iff] at hz
      obtain ⟨u, hu, hz⟩ := hz
      generalize hzv : z.val = zv at ha
      cases ha with
      | field h1 h2 h3 h4 =>
        obtain ⟨a, a', off, q1, q2, q3, q4, q5, q6, q7, q8⟩ := overwrite_field htg henv hxt ht hu h4
        rw [q3, Option.some.injEq] at h1
        rw [q4, Option.some.injEq] at h3
        subst h1 h3 hzv
        obtain ⟨k, r1, r2, r3⟩ := ih (x := a) (x' := a') (q2.trans q1.symm) (by rw [q1]; exact hz) h2
        have hstruct : ∃ gs, x.impl.out = .struct gs := by
          have hr := x.resolves
          rw [hxt] at hr
          obtain ⟨is, -, -, hi⟩ := resolve_struct hr
          exact ⟨_, by rw [hi]; rfl⟩
        obtain ⟨gs, hgs⟩ := hstruct
        refine ⟨off + k, ?_, by omega, ?_⟩
        · rw [hgs] at q5 ⊢
          rw [offsetOf_cons q5 p, r1]
          rfl
        · rw [q8, r3]
          exact overwrite_nested q7 q6 r2
    | _ => simp [Ty.fieldTy] at hz

/-- C51, both together: to change a field, at any depth, of a value written to a buffer, overwrite
the bytes at (offset the write returned) + (offset of the field). -/
theorem C51_buffer_field (htg : tg.Valid) (henv : env.Lawful tg) (xs : List (Item tg env l)) {m : Nat}
    (hm : m < xs.length) {p : List String} {x' z : Item tg env l} (ht : x'.ty = xs[m].ty)
    (hz : xs[m].ty.fieldTy p = some z.ty) (ha : Assigned p xs[m].val z.val x'.val)
    {σ σ' ε ε' : Type} {k : Sink σ ε} (hk : k.Lawful) {k' : Sink σ' ε'} (hk' : k'.Lawful)
    {s : σ} {s' : σ'} {os os' : List Nat} {w : Writer σ} {w' : Writer σ'}
    (h : (Writer.new s).history k (xs.map Item.arg) = (os.map .ok, w))
    (h' : (Writer.new s').history k' ((xs.set m x').map Item.arg) = (os'.map .ok, w')) :
    ∃ (off : Nat) (img : List Byte) (hmo : m < os.length),
      xs[m].impl.out.offsetOf tg p = some (off, z.impl.out) ∧
      k.delivered w.sink = k.delivered s ++ img ∧ os[m] + off + z.bytes.length ≤ img.length ∧
      k'.delivered w'.sink = k'.delivered s' ++ overwrite img (os[m] + off) z.bytes := by
  obtain ⟨off, e1, e2, e3⟩ := C51_field htg henv ht hz ha
  obtain ⟨-, -, img, hmo, f1, f2, f3, f4⟩ := C51_buffer htg henv xs hm x' ht hk hk' h h'
  obtain ⟨-, img₂, q1, q2, q3, -⟩ := C18_history htg henv xs hk h
  obtain rfl : img = img₂ := List.append_cancel_left (f1.symm.trans q1)
  have hl : x'.bytes.length = xs[m].bytes.length := by
    rw [Item.length htg henv, Item.length htg henv, Item.same_impl ht]
  refine ⟨off, img, hmo, e1, f1, by omega, ?_⟩
  rw [f4, e3, overwrite_nested (q3 m hm hmo) (by omega) e2]

/-- C51, slices: a slice of one type is written at any position of a Writer; element `m` is replaced.
Overwriting its bytes at (returned offset) + `m` · (stride) gives what writing the changed slice
from the same position gives. -/
theorem C51_slice (htg : tg.Valid) (henv : env.Lawful tg) {t : Ty} {i : Impl}
    (ht : resolve tg env l t = some i) {S : Nat} (hS : IsNext i.alignment (i.out.size tg) S)
    (xs : List (Item tg env l)) (hxs : ∀ x ∈ xs, x.ty = t) {m : Nat} (hm : m < xs.length)
    (y : Item tg env l) (hy : y.ty = t)
    {σ σ' ε ε' : Type} {k : Sink σ ε} (hk : k.Lawful) {k' : Sink σ' ε'} (hk' : k'.Lawful)
    {w w₁ : Writer σ} {w' w₁' : Writer σ'} {o o' : Nat} (hlen : w'.len = w.len)
    (h : w.write k (.slice (xs.map Item.arg)) = (.ok o, w₁))
    (h' : w'.write k' (.slice ((xs.set m y).map Item.arg)) = (.ok o', w₁')) :
    o' = o ∧ w₁'.len = w₁.len ∧ w.len ≤ o ∧ ∃ img, k.delivered w₁.sink = k.delivered w.sink ++ img ∧
      o + m * S - w.len + y.bytes.length ≤ img.length ∧
      k'.delivered w₁'.sink = k'.delivered w'.sink ++ overwrite img (o + m * S - w.len) y.bytes := by
  obtain ⟨hle, img, c1, c2, c3⟩ := C21_constant_stride htg henv ht hS xs hxs hk h
  obtain ⟨h1, h2, h3⟩ := write_ok hk (wf_slice (items_wf htg henv xs)) h
  obtain ⟨g1, g2, g3⟩ := write_ok hk' (wf_slice (items_wf htg henv _)) h'
  rw [items_slice_leaves] at h2 h3 g2 g3
  have hoff : w'.offset = w.offset := hlen
  have hty : xs[m].ty = t := hxs _ (List.getElem_mem hm)
  have hi : y.impl = xs[m].impl := Item.same_impl (hy.trans hty.symm)
  have hmx : m < (xs.map Item.std).length := by simpa using hm
  have hset := image_set w.offset (xs.map Item.std) m hmx y.std
    (by simp [Item.std, hi]) (by
      simp only [Item.std, List.getElem_map]
      rw [y.length htg henv, xs[m].length htg henv, hi])
  rw [hoff] at g1 g2 g3
  rw [items_set, hset.2.1] at g2
  rw [items_set, hset.2.2] at g3
  have hpos : (places w.offset (xs.map Item.std))[m]'(by rw [places_length]; exact hmx) = o + m * S := by
    have hh := items_homog htg henv ht hxs
    obtain rfl : S = nextOffset (i.out.size tg) i.alignment := hS.unique (isNext_nextOffset _ _)
    rw [places_homog _ hh _ _ hmx, h1]
    congr 1
    cases xs with
    | nil => simp at hm
    | cons x r =>
      rw [List.map_cons, x.arg_std]
      simp only [WVal.firstOffset]
      rw [(hh x.std (by simp)).1]
  obtain rfl : img = image w.offset (xs.map Item.std) := List.append_cancel_left (c1.symm.trans h3)
  refine ⟨?_, by rw [Writer.len, Writer.len, g2, h2], hle, _, c1, ?_, ?_⟩
  · rw [g1, h1]
    cases xs with
    | nil => simp at hm
    | cons x r =>
      have hx : x.ty = t := hxs x (by simp)
      cases m with
      | zero =>
        simp only [List.set_cons_zero, List.map_cons, Item.arg_std, WVal.firstOffset, Item.std]
        rw [Item.same_impl (hy.trans hx.symm)]
      | succ m => simp only [List.set_cons_succ, List.map_cons, Item.arg_std, WVal.firstOffset]
  · have hp := placed_places w.offset (xs.map Item.std)
    have hb := (hp.bounds.2 m (by simpa using hm) (by rw [places_length]; exact hmx)).2
    simp only [List.getElem_map, Item.std] at hb
    have hil := image_length w.offset (xs.map Item.std)
    have e2 : (places w.offset (xs.map Item.std))[m]'(by rw [places_length]; exact hmx) +
        xs[m].bytes.length ≤ endOf w.offset (xs.map Item.std) := hb
    have hyl : y.bytes.length = xs[m].bytes.length := by
      rw [y.length htg henv, xs[m].length htg henv, hi]
    rw [hpos] at e2
    simp only [Writer.len] at hle ⊢
    omega
  · rw [g3, hpos]
    rfl

/-- Non-vacuity of C51: `light.inner.k = b` for any `b`, in a buffer holding the light twice. -/
example (b : BitVec 64) : ∃ (x x' z : Item x86_64 Ex.env .std140), x.ty = Ex.light ∧
    x.val = Ex.lightVal ∧ x'.ty = x.ty ∧ z.val = .scalar .f64 b ∧
    x.ty.fieldTy ["inner", "k"] = some z.ty ∧ Assigned ["inner", "k"] x.val z.val x'.val ∧
    (∃ (os : List Nat) (w : _), (Writer.new []).history (vecSink Unit) ([x, x].map Item.arg) = (os.map .ok, w)) ∧
    (∃ (os : List Nat) (w : _), (Writer.new []).history (vecSink Unit) (([x, x].set 1 x').map Item.arg) =
      (os.map .ok, w)) := by
  obtain ⟨i, hi⟩ := Ex.light_resolves x86_64 .std140
  obtain ⟨x, h1, h2, _⟩ := Item.exists Ex.x86_64_valid Ex.env_lawful hi (Ex.light_hasVal _)
  have hv' : Ex.light.HasVal x86_64 Ex.env (.struct
      [("position", Ex.v3 (Ex.flt 0x3f800000) (Ex.flt 0x40000000) (Ex.flt 0x40400000)),
       ("intensity", Ex.flt 0xbf800000), ("enabled", .bool true),
       ("basis", Ex.v3 (Ex.v3 (Ex.flt 1) (Ex.flt 2) (Ex.flt 3)) (Ex.v3 (Ex.flt 4) (Ex.flt 5) (Ex.flt 6))
          (Ex.v3 (Ex.flt 7) (Ex.flt 8) (Ex.flt 9))),
       ("inner", .struct [("k", .scalar .f64 b),
          ("v", .newtype (Ex.v2 (Ex.flt 5) (Ex.flt 6)))])]) := by
    obtain ⟨vs, e, hl⟩ := Ex.light_hasVal x86_64
    obtain ⟨ws, e', hw⟩ := Ex.atten_hasVal x86_64
    cases e
    cases e'
    exact ⟨_, rfl, hl.1, hl.2.1, hl.2.2.1, hl.2.2.2.1, hl.2.2.2.2.1, hl.2.2.2.2.2.1, rfl, hl.2.2.2.2.2.2.2.1,
      rfl, ⟨_, rfl, rfl, ⟨_, rfl⟩, hw.2.2⟩, trivial⟩
  obtain ⟨x', h3, h4, _⟩ := Item.exists Ex.x86_64_valid Ex.env_lawful hi hv'
  obtain ⟨z, h5, h6, _⟩ := Item.exists (l := .std140) Ex.x86_64_valid Ex.env_lawful
    (t := .scalar .f64) (by rfl) (v := .scalar .f64 b) ⟨b, rfl⟩
  refine ⟨x, x', z, h1, h2, by rw [h1, h3], h6, ?_, ?_, ?_, ?_⟩
  · rw [h1, h5]; rfl
  · rw [h2, h4, h6]
    refine .field (a := Ex.attenVal) (a' := .struct [("k", .scalar .f64 b),
      ("v", .newtype (Ex.v2 (Ex.flt 5) (Ex.flt 6)))]) rfl (.field (a := .scalar .f64 0x3ff0000000000000)
        rfl .here rfl ?_) rfl ?_
    · intro m hm
      simp [Ex.attenVal, RVal.field, List.lookup, beq_eq_false_iff_ne.2 hm]
    · intro m hm
      simp [Ex.lightVal, RVal.field, List.lookup, beq_eq_false_iff_ne.2 hm]
  · obtain ⟨w, hw, -⟩ := history_infallible (vecSink_infallible Unit) (Writer.new [])
      (items_wf Ex.x86_64_valid Ex.env_lawful [x, x])
    exact ⟨_, w, hw⟩
  · obtain ⟨w, hw, -⟩ := history_infallible (vecSink_infallible Unit) (Writer.new [])
      (items_wf Ex.x86_64_valid Ex.env_lawful ([x, x].set 1 x'))
    exact ⟨_, w, hw⟩

end Crevice
