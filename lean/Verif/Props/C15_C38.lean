import Verif.Proof.BoolWord
import Verif.Proof.Rename
import Verif.Props.C06_C12
/-
C15 sizes, C27 bool, C35 pass-through, C36 nesting, C37 renaming and prefixes, C38 normalisation.
-/
namespace Crevice

/-! ## C15 -/

/-- A converted value as an argument of `Writer::write`. -/
theorem wval_some {tg : Target} (htg : tg.Valid) {env : ForeignEnv} (henv : env.Lawful tg) {l : Layout}
    {t : Ty} {i : Impl} (h : resolve tg env l t = some i) {v : RVal} (hv : t.HasVal tg env v) :
    ∃ o sv, i.asStd v = some o ∧ RVal.HasTy i.out o ∧ i.stdVal tg o = some sv ∧
      i.wval tg v = some (.std sv) ∧ sv.alignment = i.alignment ∧ sv.size = i.out.size tg ∧
      bytesOf tg i.out o = some sv.bytes ∧ sv.bytes = enc tg.endian o ∧
      sv.bytes.length = i.out.size tg := by
  obtain ⟨o, ho, hty, _⟩ := (conv_resolve henv h).as_ok v hv
  obtain ⟨hb, hl⟩ := outBytes htg h hty
  have hs : i.stdVal tg o = some ⟨i.alignment, i.out.size tg, enc tg.endian o⟩ := by
    simp [Impl.stdVal, hb]
  exact ⟨o, _, ho, hty, hs, by simp [Impl.wval, ho, hs], rfl, rfl, hb, rfl, hl⟩

theorem wf_std {x : StdVal} (h : x.bytes.length = x.size) : (WVal.std x).Wf := by
  intro y hy
  simp only [WVal.leaves, List.mem_cons, List.not_mem_nil, or_false] at hy
  subst hy; exact h

/-- C15: for every value, the number of bytes of the converted value, `stdN_size_static()` and
`stdN_size()` (the overriding method and the provided one) are all `size_of::<Output>()`, whatever
the value. -/
theorem C15_sizes_agree {tg : Target} (htg : tg.Valid) {env : ForeignEnv} (henv : env.Lawful tg)
    {l : Layout} {t : Ty} {i : Impl} (h : resolve tg env l t = some i) {v : RVal}
    (hv : t.HasVal tg env v) :
    i.sizeStatic tg = i.out.size tg ∧
    ∃ o bs wv, i.asStd v = some o ∧ bytesOf tg i.out o = some bs ∧ bs.length = i.out.size tg ∧
      i.wval tg v = some wv ∧ wv.stdSize = some (i.out.size tg) ∧
      wv.stdSizeDefault = some (i.out.size tg) := by
  obtain ⟨o, sv, ho, hty, _, hw, ha, hs, hb, _, hl⟩ := wval_some htg henv h hv
  refine ⟨rfl, o, sv.bytes, _, ho, hb, hl, hw, by simp [WVal.stdSize, hs], ?_⟩
  obtain ⟨w', e1, e2⟩ := write_infallible (nullSink_infallible Unit) (Writer.new [])
    (wf_std (x := sv) (by rw [hl, hs]))
  simp only [WVal.stdSizeDefault, e1, Writer.len]
  simp only [Writer.new, WVal.leaves, endOf, nextOffset_zero, Nat.zero_add] at e2
  rw [e2, hl]

/-- C15: writing the value to a fresh Writer returns offset 0, makes `len()` equal to that size and
delivers as many bytes. -/
theorem C15_fresh_writer {tg : Target} (htg : tg.Valid) {env : ForeignEnv} (henv : env.Lawful tg)
    {l : Layout} {t : Ty} {i : Impl} (h : resolve tg env l t = some i) {v : RVal}
    (hv : t.HasVal tg env v) {wv : WVal} (hwv : i.wval tg v = some wv) {σ ε : Type} {k : Sink σ ε}
    (hk : k.Lawful) {s : σ} {off : Nat} {w' : Writer σ}
    (hw : (Writer.new s).write k wv = (.ok off, w')) :
    off = 0 ∧ w'.len = i.out.size tg ∧
      (k.delivered w'.sink).length = (k.delivered s).length + i.out.size tg := by
  obtain ⟨o, sv, ho, hty, _, hw', ha, hs, hb, _, hl⟩ := wval_some htg henv h hv
  rw [hwv, Option.some.injEq] at hw'
  subst hw'
  obtain ⟨h1, h2, h3⟩ := write_ok hk (wf_std (by rw [hl, hs])) hw
  simp only [Writer.new, WVal.leaves, WVal.firstOffset, endOf, image, nextOffset_zero, Nat.zero_add,
    Nat.sub_zero, List.replicate_zero, List.nil_append, List.append_nil] at h1 h2 h3
  exact ⟨h1, by rw [Writer.len, h2, hl], by rw [h3, List.length_append, hl]⟩

example (l : Layout) : ∃ i wv w', resolve x86_64 Ex.env l Ex.light = some i ∧
    i.wval x86_64 Ex.lightVal = some wv ∧
    (Writer.new []).write (vecSink Unit) wv = (.ok 0, w') := by
  obtain ⟨i, hi⟩ := Ex.light_resolves x86_64 l
  obtain ⟨o, sv, _, _, _, hw, _, hs, _, _, hl⟩ :=
    wval_some Ex.x86_64_valid Ex.env_lawful hi (Ex.light_hasVal _)
  obtain ⟨w', e1, _⟩ := write_infallible (vecSink_infallible Unit) (Writer.new [])
    (wf_std (x := sv) (by rw [hl, hs]))
  refine ⟨i, _, w', hi, hw, ?_⟩
  rw [e1]
  simp [WVal.firstOffset, Writer.new, nextOffset_zero]

/-! ## C27 -/

/-- C27: `true` becomes the word 1 and `false` the word 0, in the bytes of the converted value. -/
theorem C27_bool_word {tg : Target} (htg : tg.Valid) (env : ForeignEnv) (l : Layout) (b : Bool) :
    ∃ i o bs, resolve tg env l .bool = some i ∧ i.asStd (.bool b) = some o ∧
      bytesOf tg i.out o = some bs ∧ bs.length = 4 ∧
      Glsl.wordAt tg.endian bs 0 4 = some (if b then 1 else 0) := by
  have h : resolve tg env l .bool = some (boolImpl l) := rfl
  have hty : RVal.HasTy (boolImpl l).out (boolToBool b) := by
    simp [boolImpl, boolTy, boolToBool, RVal.HasTy]
  obtain ⟨hb, hl⟩ := outBytes htg h hty
  refine ⟨_, _, _, h, rfl, hb, by rw [hl]; simp [boolImpl, boolTy, RTy.size, Scalar.size], ?_⟩
  cases tg.endian <;> cases b <;>
    simp [boolToBool, enc, scalarBytes, natToLE, Scalar.size, Glsl.wordAt, Glsl.number]

/-- C27: converting a `Bool` back gives `false` for the zero word and `true` for every other. -/
theorem C27_nonzero_is_true {tg : Target} {env : ForeignEnv} {l : Layout} {i : Impl}
    (h : resolve tg env l .bool = some i) (word : BitVec 32) :
    i.fromStd (.newtype (.scalar .u32 word)) = some (.bool (decide (word ≠ 0))) := by
  cases h
  simp only [boolImpl, boolOfBool, Option.map_some, Option.some.injEq, RVal.bool.injEq]
  by_cases hw : word = 0
  · subst hw; rfl
  · have h2 : (word != 0) = true := by simpa using hw
    rw [decide_eq_true hw]
    exact h2

/-- C27: `bool → Bool → bool` is the identity; `Bool → bool → Bool` yields 1 for every non-zero word
and keeps 0. -/
theorem C27_round_trips {tg : Target} {env : ForeignEnv} {l : Layout} {i : Impl}
    (h : resolve tg env l .bool = some i) :
    (∀ b, (i.asStd (.bool b)).bind i.fromStd = some (.bool b)) ∧
    (∀ word : BitVec 32, (i.fromStd (.newtype (.scalar .u32 word))).bind i.asStd =
      some (.newtype (.scalar .u32 (if word = 0 then 0 else 1)))) := by
  refine ⟨?_, ?_⟩
  · intro b; cases h; cases b <;> rfl
  · intro word
    rw [C27_nonzero_is_true h]
    cases h
    by_cases hw : word = 0
    · subst hw; rfl
    · simp [boolImpl, boolToBool, hw]

/-- C27: equality of `Bool`s is equality of words, so two `Bool`s that are both true need not be
equal. -/
example : (RVal.newtype (.scalar .u32 (1 : BitVec 32))) ≠ .newtype (.scalar .u32 (2 : BitVec 32)) ∧
    boolOfBool (.newtype (.scalar .u32 (1 : BitVec 32))) = some true ∧
    boolOfBool (.newtype (.scalar .u32 (2 : BitVec 32))) = some true := by
  refine ⟨?_, rfl, rfl⟩
  intro h
  injection h with h
  injection h with _ h
  exact absurd h (by decide)

/-! ## C35 -/

/-- C35: an Output type is itself convertible, is its own Output with the same ALIGNMENT and size,
and both conversions are the identity. -/
theorem C35_identity {tg : Target} {env : ForeignEnv} {l : Layout} {t : Ty} {i : Impl}
    (h : resolve tg env l t = some i) :
    ∃ j, resolve tg env l (.output l t) = some j ∧ j.out = i.out ∧ j.alignment = i.alignment ∧
      ∀ o, (Ty.output l t).HasVal tg env o → j.asStd o = some o ∧ j.fromStd o = some o := by
  exact ⟨blanketImpl i.out i.alignment i.outDebug,
    by simp only [resolve, true_or, if_true, h, Option.map_some], rfl, rfl,
    fun o _ => ⟨rfl, rfl⟩⟩

/-- C35: `write(&x)`, `write(&x.as_stdN())` and `write_stdN(&x.as_stdN())` are the same operation:
same result, same sink, same `len()`, whatever the sink and the state of the Writer. -/
theorem C35_write {tg : Target} (htg : tg.Valid) {env : ForeignEnv} (henv : env.Lawful tg) {l : Layout}
    {t : Ty} {i j : Impl} (h : resolve tg env l t = some i)
    (hj : resolve tg env l (.output l t) = some j) {v : RVal} (hv : t.HasVal tg env v) :
    ∃ o wx wo so, i.asStd v = some o ∧ i.wval tg v = some wx ∧ j.wval tg o = some wo ∧
      j.stdVal tg o = some so ∧
      ∀ {σ ε : Type} (k : Sink σ ε) (w : Writer σ),
        w.write k wx = w.write k wo ∧ w.write k wx = w.writeStd k so := by
  obtain ⟨o, sv, ho, hty, hs, hw, _⟩ := wval_some htg henv h hv
  simp only [resolve, true_or, if_true, h, Option.map_some, Option.some.injEq] at hj
  subst hj
  have hs' : (blanketImpl i.out i.alignment i.outDebug).stdVal tg o = some sv := hs
  have hw' : (blanketImpl i.out i.alignment i.outDebug).wval tg o = some (.std sv) := by
    show (some o).bind (fun o => ((blanketImpl i.out i.alignment i.outDebug).stdVal tg o).map WVal.std) = _
    rw [Option.bind_some, hs']; rfl
  refine ⟨o, _, _, sv, ho, hw, hw', hs', ?_⟩
  intro σ ε k w
  exact ⟨rfl, rfl⟩

example (l : Layout) : ∃ i j, resolve x86_64 Ex.env l Ex.light = some i ∧
    resolve x86_64 Ex.env l (.output l Ex.light) = some j := by
  obtain ⟨i, hi⟩ := Ex.light_resolves x86_64 l
  obtain ⟨j, hj, _⟩ := C35_identity hi
  exact ⟨i, j, hi, hj⟩

/-! ## C36 -/

/-- C36: in the bytes of a converted struct, the bytes each field gives when converted alone stand
at the offset the compiler gives to the field. -/
theorem C36_nesting {tg : Target} (htg : tg.Valid) {env : ForeignEnv} (henv : env.Lawful tg)
    {l : Layout} {name : String} {fs : List (String × Ty)} {i : Impl}
    (h : resolve tg env l (.struct name fs) = some i) {v : RVal}
    (hv : (Ty.struct name fs).HasVal tg env v) :
    ∃ o bs, i.asStd v = some o ∧ bytesOf tg i.out o = some bs ∧
      ∀ f ∈ fs, ∃ j x y bsf off, resolve tg env l f.2 = some j ∧ v.field f.1 = some x ∧
        f.2.HasVal tg env x ∧ j.asStd x = some y ∧ bytesOf tg j.out y = some bsf ∧
        i.out.offsetOf tg [f.1] = some (off, j.out) ∧ off + bsf.length ≤ bs.length ∧
        SliceAt bs off bsf := by
  obtain ⟨o, ho, hty, _⟩ := (conv_resolve henv h).as_ok v hv
  obtain ⟨hb, hl⟩ := outBytes htg h hty
  obtain ⟨ws, hws, _⟩ := struct_image htg henv h hv ho
  refine ⟨o, _, ho, hb, fun f hf => ?_⟩
  obtain ⟨w, _, j, x, y, hj, hx, hxv, hy, hyt, _, hoy⟩ := hws.mem_left hf
  obtain ⟨hbf, hlf⟩ := outBytes htg hj hyt
  have hgi := good_resolve htg h
  obtain ⟨is, his, hok, rfl⟩ := resolve_struct h
  have ha := resolveFields_all2 his
  have hg : ∀ f ∈ is, Good f.2 := ha.forall_right fun a _ b _ hr => good_resolve htg hr.2
  obtain ⟨jj, hjj, hn, hr⟩ := ha.mem_left hf
  rw [hj, Option.some.injEq] at hr
  have hm : (f.1, j) ∈ is := by rw [hn, hr]; exact hjj
  obtain ⟨k, hk⟩ := implOffs_mem 0 hm
  have hch := derive_offset htg hg hok hm hk
  obtain ⟨y', hy', hyt', hsl⟩ := hch.slice tg.endian hty
  have : o.field f.1 = some y' := hy'
  rw [hoy, Option.some.injEq] at this
  subst this
  have hoff : (recordImpl (genFields tg (structAl l is) 0 0 is) (structAl l is) is).out.offsetOf tg
      [f.1] = some (k, j.out) := by
    show RTy.offsetOf tg (.struct (genFields tg (structAl l is) 0 0 is)) _ = _
    rw [offsetOf_child htg hgi.packed hch]
    simp [RTy.offsetOf]
  refine ⟨j, x, y, _, k, hj, hx, hxv, hy, hbf, hoff, ?_, hsl⟩
  have hin : ∀ {is : List (String × Impl)} {cur : Nat}, (f.1, k) ∈ implOffs cur is →
      (is.map Prod.fst).Nodup → (f.1, j) ∈ is → k + j.out.natSize ≤ implEnd cur is := by
    intro is
    have hmono : ∀ (is : List (String × Impl)) (cur : Nat), cur ≤ implEnd cur is := by
      intro is
      induction is with
      | nil => intro cur; exact Nat.le_refl _
      | cons a r ih =>
        obtain ⟨n, a⟩ := a
        intro cur
        have := le_nextOffset cur a.alignment
        have := ih (nextOffset cur a.alignment + a.out.natSize)
        simp only [implEnd]; omega
    induction is with
    | nil => intro cur h; simp [implOffs] at h
    | cons a r ih =>
      obtain ⟨n, a⟩ := a
      intro cur h1 h2 h3
      simp only [implOffs, List.mem_cons] at h1
      simp only [List.map_cons, List.nodup_cons] at h2
      rcases h1 with h1 | h1
      · simp only [Prod.mk.injEq] at h1
        obtain ⟨e1, e2⟩ := h1
        rcases List.mem_cons.1 h3 with h3 | h3
        · simp only [Prod.mk.injEq] at h3
          rw [h3.2, e2]
          exact hmono _ _
        · exact absurd (List.mem_map.2 ⟨_, h3, e1⟩) h2.1
      · have hnn : f.1 ∈ r.map Prod.fst := by
          rw [← implOffs_names]; exact List.mem_map.2 ⟨_, h1, rfl⟩
        rcases List.mem_cons.1 h3 with h3 | h3
        · simp only [Prod.mk.injEq] at h3
          rw [h3.1] at hnn
          exact absurd hnn h2.1
        · exact ih h1 h2.2 h3
  have h5 := hin hk hok.fnodup hm
  rw [hl, hlf, size_eq_natSize htg hgi.packed, size_eq_natSize htg (good_resolve htg hj).packed]
  show _ ≤ natSizeFields (genFields tg (structAl l is) 0 0 is)
  rw [derive_size htg hg]
  exact Nat.le_trans h5 (le_nextOffset _ _)

example : ∃ i, resolve i686 Ex.env .std430 Ex.light = some i ∧
    Ex.light.HasVal i686 Ex.env Ex.lightVal := by
  obtain ⟨i, hi⟩ := Ex.light_resolves i686 .std430
  exact ⟨i, hi, Ex.light_hasVal _⟩

/-! ## C37 -/

theorem map_some_inj {α : Type} : ∀ {l m : List α}, l.map some = m.map some → l = m
  | [], [], _ => rfl
  | [], _ :: _, h => by simp at h
  | _ :: _, [], h => by simp at h
  | a :: l, b :: m, h => by
    simp only [List.map_cons, List.cons.injEq, Option.some.injEq] at h
    rw [h.1, map_some_inj h.2]

theorem Placed.prefix_eq {cur : Nat} {xs ys : List (Nat × Nat)} {os os' : List Nat} {e e' : Nat}
    (h : Placed cur xs os e) (h' : Placed cur (xs ++ ys) os' e') :
    ∀ k (h1 : k < os.length) (h2 : k < os'.length), os[k] = os'[k] := by
  induction h generalizing os' e' with
  | nil => intro k h1; simp at h1
  | cons hn _ ih =>
    cases h' with
    | cons hn' hp' =>
      obtain rfl := hn.unique hn'
      intro k h1 h2
      cases k with
      | zero => rfl
      | succ k => exact ih hp' k _ _

/-- C37: if the field types of one struct are a prefix of the field types of another (whatever the
names of structs and fields), the common fields are at the same offsets: appending fields never
moves earlier ones. -/
theorem C37_prefix {tg : Target} (htg : tg.Valid) {env : ForeignEnv} {l : Layout} {n n' : String}
    {fs gs : List (String × Ty)} {i j : Impl} (hi : resolve tg env l (.struct n fs) = some i)
    (hj : resolve tg env l (.struct n' gs) = some j)
    (hpre : fs.map Prod.snd <+: gs.map Prod.snd) {k : Nat} (hk : k < fs.length)
    (hk' : k < gs.length) :
    ∃ off ty, i.out.offsetOf tg [fs[k].1] = some (off, ty) ∧
      j.out.offsetOf tg [gs[k].1] = some (off, ty) := by
  obtain ⟨is, offs, fin, a1, a2, _, a4⟩ := C03_placement htg hi
  obtain ⟨js, offs', fin', b1, b2, _, b4⟩ := C03_placement htg hj
  have hli : is.length = fs.length := by simpa using (congrArg List.length a1).symm
  have hlj : js.length = gs.length := by simpa using (congrArg List.length b1).symm
  have hlo : offs.length = fs.length := by rw [a2.length]; simpa using hli
  have hlo' : offs'.length = gs.length := by rw [b2.length]; simpa using hlj
  obtain ⟨rest, hrest⟩ := hpre
  obtain ⟨js', hjs⟩ : ∃ js', js = is ++ js' := by
    refine ⟨js.drop fs.length, ?_⟩
    have h1 : js.take fs.length = is := by
      apply map_some_inj
      rw [List.map_take, ← b1, ← a1]
      have : gs.map (fun f => resolve tg env l f.2) =
          (gs.map Prod.snd).map (resolve tg env l) := by rw [List.map_map]; rfl
      rw [this, ← hrest, List.map_append, List.take_append_of_le_length (by simp)]
      rw [List.take_of_length_le (by simp), List.map_map]; rfl
    rw [← h1, List.take_append_drop]
  have hoff : offs[k]'(by omega) = offs'[k]'(by omega) := by
    rw [hjs, List.map_append] at b2
    exact a2.prefix_eq b2 k _ _
  refine ⟨_, _, a4 k hk (by omega) (by omega), ?_⟩
  rw [b4 k hk' (by omega) (by omega), hoff]
  simp only [hjs]
  rw [List.getElem_append_left (by omega)]

/-- C37: renaming structs and fields at any depth changes neither ALIGNMENT nor size. -/
theorem C37_rename_layout {tg : Target} (htg : tg.Valid) {env : ForeignEnv} {l : Layout} {t u : Ty}
    (hr : t.Renamed u) {i j : Impl} (hi : resolve tg env l t = some i)
    (hj : resolve tg env l u = some j) :
    i.alignment = j.alignment ∧ i.out.size tg = j.out.size tg := rename_layout htg hr hi hj

/-- C37: renaming structs and fields at any depth moves no field of the outer struct (hence, with
`C36_nesting`, of any inner one). -/
theorem C37_rename_offsets {tg : Target} (htg : tg.Valid) {env : ForeignEnv} {l : Layout}
    {n n' : String} {fs gs : List (String × Ty)} (hr : (Ty.struct n fs).Renamed (.struct n' gs))
    {i j : Impl} (hi : resolve tg env l (.struct n fs) = some i)
    (hj : resolve tg env l (.struct n' gs) = some j) {k : Nat} (hk : k < fs.length) :
    ∃ (hk' : k < gs.length) (off : Nat) (ty ty' : RTy),
      i.out.offsetOf tg [fs[k].1] = some (off, ty) ∧
      j.out.offsetOf tg [gs[k].1] = some (off, ty') ∧ ty.size tg = ty'.size tg := by
  obtain ⟨is, offs, fin, a1, a2, _, a4⟩ := C03_placement htg hi
  obtain ⟨js, offs', fin', b1, b2, _, b4⟩ := C03_placement htg hj
  have hli : is.length = fs.length := by simpa using (congrArg List.length a1).symm
  have hlj : js.length = gs.length := by simpa using (congrArg List.length b1).symm
  have hlo : offs.length = fs.length := by rw [a2.length]; simpa using hli
  have hlo' : offs'.length = gs.length := by rw [b2.length]; simpa using hlj
  simp only [Ty.Renamed] at hr
  rw [RenamedFields_iff] at hr
  have hlen := hr.length
  have hk' : k < gs.length := by omega
  have hres : ∀ m (h1 : m < fs.length), resolve tg env l fs[m].2 = some (is[m]'(by omega)) := by
    intro m h1
    have := congrArg (fun x => x[m]?) a1
    simpa [h1, show m < is.length by omega] using this
  have hres' : ∀ m (h1 : m < gs.length), resolve tg env l gs[m].2 = some (js[m]'(by omega)) := by
    intro m h1
    have := congrArg (fun x => x[m]?) b1
    simpa [h1, show m < js.length by omega] using this
  have heq : is.map (fun j => (j.alignment, j.out.size tg)) =
      js.map fun j => (j.alignment, j.out.size tg) := by
    apply List.ext_getElem
    · simp; omega
    · intro m m1 m2
      simp only [List.length_map] at m1 m2
      obtain ⟨e1, e2⟩ := rename_layout htg (hr.get m (by omega) (by omega)) (hres m (by omega))
        (hres' m (by omega))
      simp only [List.getElem_map, e1, e2]
  rw [heq] at a2
  obtain ⟨rfl, rfl⟩ := a2.unique b2
  obtain ⟨_, e2⟩ := rename_layout htg (hr.get k hk hk') (hres k hk) (hres' k hk')
  exact ⟨hk', _, _, _, a4 k hk (by omega) (by omega), b4 k hk' (by omega) (by omega), e2⟩

/-- C37: renaming structs and fields at any depth, in the type and in the value, changes no byte. -/
theorem C37_rename_bytes {tg : Target} (htg : tg.Valid) {env : ForeignEnv} (henv : env.Lawful tg)
    {l : Layout} {t u : Ty} (hr : t.Renamed u) {i j : Impl} (hi : resolve tg env l t = some i)
    (hj : resolve tg env l u = some j) {v w : RVal} (hv : t.HasVal tg env v)
    (hw : u.HasVal tg env w) (hvw : t.RenamedVal v w) :
    ∃ o p bs, i.asStd v = some o ∧ j.asStd w = some p ∧ bytesOf tg i.out o = some bs ∧
      bytesOf tg j.out p = some bs := by
  obtain ⟨o, ho, hty, _⟩ := (conv_resolve henv hi).as_ok v hv
  obtain ⟨p, hp, hpty, _⟩ := (conv_resolve henv hj).as_ok w hw
  have he := rename_bytes htg henv hr hi hj hv hw hvw ho hp
  exact ⟨o, p, _, ho, hp, (outBytes htg hi hty).1, by rw [(outBytes htg hj hpty).1, he]⟩

/-- `struct A { a: f32, b: In { c: bool } }` and `struct B { x: f32, y: Out { z: bool } }`. -/
example : ∃ (t u : Ty) (i j : Impl) (v w : RVal), t.Renamed u ∧ t ≠ u ∧
    resolve x86_64 Ex.env .std140 t = some i ∧ resolve x86_64 Ex.env .std140 u = some j ∧
    t.HasVal x86_64 Ex.env v ∧ u.HasVal x86_64 Ex.env w ∧ t.RenamedVal v w := by
  refine ⟨.struct "A" [("a", Ex.f32), ("b", .struct "In" [("c", .bool)])],
    .struct "B" [("x", Ex.f32), ("y", .struct "Out" [("z", .bool)])], _, _,
    .struct [("a", Ex.flt 1), ("b", .struct [("c", .bool true)])],
    .struct [("x", Ex.flt 1), ("y", .struct [("z", .bool true)])], ?_, ?_, rfl, rfl, ?_, ?_, ?_⟩
  · simp [Ty.Renamed, RenamedFields]
  · simp
  · exact ⟨_, rfl, rfl, ⟨_, rfl⟩, rfl, ⟨_, rfl, rfl, ⟨_, rfl⟩, trivial⟩, trivial⟩
  · exact ⟨_, rfl, rfl, ⟨_, rfl⟩, rfl, ⟨_, rfl, rfl, ⟨_, rfl⟩, trivial⟩, trivial⟩
  · simp [Ty.RenamedVal, RenamedVals]

/-! ## C38 -/

/-- C38: take any value `o` of the Output type (for instance read from a GPU buffer with garbage in
the padding), convert it back and forth to get `o'`. Then `o'` has zero padding and only 0/1 words
for bools, a shader sees the same in `o` and `o'`, converting `o'` back and forth again gives `o'`,
and any `o₂` that looks the same to a shader gives the same `o'`. -/
theorem C38_normalise {tg : Target} (htg : tg.Valid) {env : ForeignEnv} (henv : env.Lawful tg)
    (hex : env.Exact tg)
    {l : Layout} {t : Ty} {i : Impl} (h : resolve tg env l t = some i) {g : Glsl.Ty}
    (hg : t.glsl = some g) (hpl : t.plain = true) {o : RVal} (ho : RVal.HasTy i.out o) :
    ∃ v o' bs bs', i.fromStd o = some v ∧ i.asStd v = some o' ∧ RVal.HasTy i.out o' ∧
      bytesOf tg i.out o = some bs ∧ bytesOf tg i.out o' = some bs' ∧
      (∀ k (hk : k < bs'.length), ¬ Glsl.Occupied l g k → bs'[k] = 0) ∧
      (∀ p k, g.offsetOf l p = some (k, .scalar .bool) →
        ∃ word, Glsl.wordAt tg.endian bs' k 4 = some word ∧ (word = 0 ∨ word = 1)) ∧
      Glsl.read tg.endian l g bs' 0 = Glsl.read tg.endian l g bs 0 ∧
      (i.fromStd o').bind i.asStd = some o' ∧
      (∀ o₂ bs₂, RVal.HasTy i.out o₂ → bytesOf tg i.out o₂ = some bs₂ →
        Glsl.read tg.endian l g bs₂ 0 = Glsl.read tg.endian l g bs 0 →
        (i.fromStd o₂).bind i.asStd = some o') := by
  obtain ⟨v, hf, hv⟩ := (conv_resolve henv h).from_ok o ho
  obtain ⟨o', ho', hty', hback⟩ := (conv_resolve henv h).as_ok v hv
  obtain ⟨hb, _⟩ := outBytes htg h ho
  obtain ⟨hb', _⟩ := outBytes htg h hty'
  have hr := (read_resolve htg tg.endian h hg ho (sliceAt_self (enc tg.endian o))).1
  have hr' := (read_resolve htg tg.endian h hg hty' (sliceAt_self (enc tg.endian o'))).1
  have hd := denote_from henv hex h ho hf
  have hd' := denote_from henv hex h hty' hback
  refine ⟨v, o', _, _, hf, ho', hty', hb, hb', ?_, ?_, ?_, ?_, ?_⟩
  · intro k hk hno
    apply Classical.byContradiction
    intro hne
    exact hno (nonzero_resolve htg tg.endian h hg hpl ho' hty' (List.getElem?_eq_getElem hk) hne)
  · intro p k hp
    obtain ⟨w, hw, hle⟩ := bool_word htg tg.endian h hg hpl ho' hty' hp
      (sliceAt_self (enc tg.endian o'))
    rw [Nat.zero_add] at hw
    exact ⟨w, hw, by omega⟩
  · rw [hr, hr', ← hd, ← hd']
  · rw [hback]; exact ho'
  · intro o₂ bs₂ hty₂ hb₂ hsame
    obtain ⟨v₂, hf₂, hv₂⟩ := (conv_resolve henv h).from_ok o₂ hty₂
    rw [(outBytes htg h hty₂).1, Option.some.injEq] at hb₂
    subst hb₂
    obtain ⟨hr₂, x, hx⟩ := read_resolve htg tg.endian h hg hty₂ (sliceAt_self (enc tg.endian o₂))
    have hd₂ := denote_from henv hex h hty₂ hf₂
    have h1 : t.denote env v₂ = some x := by rw [hd₂, hx]
    have h2 : t.denote env v = some x := by rw [hd, ← hr, ← hsame, hr₂, hx]
    have := denote_inj henv h hpl hv₂ hv h1 h2
    subst this
    rw [hf₂]; exact ho'

/-- A `Bool` word other than 0 and 1 is really changed. -/
example : ∃ (i : Impl) (o o' : RVal), resolve x86_64 Ex.env .std430 (.struct "S" [("b", .bool)]) = some i ∧
    RVal.HasTy i.out o ∧ (i.fromStd o).bind i.asStd = some o' ∧
    bytesOf x86_64 i.out o = some [7, 0, 0, 0] ∧ bytesOf x86_64 i.out o' = some [1, 0, 0, 0] := by
  refine ⟨_, .struct [("b", .newtype (.scalar .u32 (7 : BitVec 32))), ("_pad0", .array [])], _, rfl, ?_, rfl, rfl, rfl⟩
  show RVal.HasTy (.struct [("b", .newtype (.scalar .u32)), ("_pad0", .array (.scalar .u8) 0)]) _
  simp [RVal.HasTy, HasTys]

end Crevice
