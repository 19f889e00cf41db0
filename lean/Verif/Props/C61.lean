import Verif.Props.C06_C12
import Verif.Props.C15_C38
import Verif.Props.C41_C42
/-
C61: reading a struct is reading its fields; changing a struct over time.
-/
namespace Crevice

variable {tg : Target} {env : ForeignEnv} {l : Layout}

/-- The offset of a field, from the placement of the fields. -/
theorem struct_field_offset (htg : tg.Valid) {is : List (String × Impl)} (hg : ∀ f ∈ is, Good f.2)
    (hok : RecordOk (genFields tg (structAl l is) 0 0 is) is)
    (hp : (RTy.struct (genFields tg (structAl l is) 0 0 is)).packed = true)
    {n : String} {j : Impl} (hm : (n, j) ∈ is) {k : Nat} (hk : (n, k) ∈ implOffs 0 is) :
    (recordImpl (genFields tg (structAl l is) 0 0 is) (structAl l is) is).out.offsetOf tg [n] =
      some (k, j.out) := by
  show RTy.offsetOf tg (.struct (genFields tg (structAl l is) 0 0 is)) _ = _
  rw [offsetOf_child htg hp (derive_offset htg hg hok hm hk)]
  simp [RTy.offsetOf]

/-- C61: reading a struct from any bytes is reading each field, with its own type, from the bytes at
the field's offset. -/
theorem C61_read_fields (htg : tg.Valid) (henv : env.Lawful tg) {name : String}
    {fs : List (String × Ty)} {i : Impl} (h : resolve tg env l (.struct name fs) = some i)
    {bs : List Byte} (hl : bs.length = i.out.size tg) :
    ∃ o v, decode tg i.out bs = some o ∧ i.fromStd o = some v ∧
      (Ty.struct name fs).HasVal tg env v ∧
      ∀ f ∈ fs, ∃ j off part y x, resolve tg env l f.2 = some j ∧
        i.out.offsetOf tg [f.1] = some (off, j.out) ∧ part.length = j.out.size tg ∧
        off + part.length ≤ bs.length ∧
        SliceAt bs off part ∧ decode tg j.out part = some y ∧ j.fromStd y = some x ∧
        v.field f.1 = some x := by
  obtain ⟨o, hty, hb, hd, -⟩ := C08_pod htg h hl
  obtain ⟨v, hf, hv⟩ := (conv_resolve henv h).from_ok o hty
  have he : enc tg.endian o = bs := by
    rw [(outBytes htg h hty).1, Option.some.injEq] at hb; exact hb
  refine ⟨o, v, hd, hf, hv, fun f hfm => ?_⟩
  have hgi := good_resolve htg h
  obtain ⟨is, his, hok, rfl⟩ := resolve_struct h
  have ha := resolveFields_all2 his
  have hg : ∀ f ∈ is, Good f.2 := ha.forall_right fun a _ b _ hr => good_resolve htg hr.2
  obtain ⟨j, hj, hn, hr⟩ := ha.mem_left hfm
  have hm : (f.1, j.2) ∈ is := by rw [hn]; exact hj
  obtain ⟨k, hk⟩ := implOffs_mem 0 hm
  obtain ⟨y, hy, hyt, hsl⟩ := (derive_offset htg hg hok hm hk).slice tg.endian hty
  obtain ⟨y', x, h1, h2, h3⟩ := recordImpl_from_field hok hf hm
  have : o.field f.1 = some y := hy
  rw [this, Option.some.injEq] at h1
  subst h1
  have hlen := (outBytes htg hr hyt).2
  have hoff := struct_field_offset htg hg hok hgi.packed hm hk
  rw [he] at hsl
  refine ⟨j.2, k, enc tg.endian y, y, x, hr, hoff, hlen, ?_, hsl,
    decode_enc htg (good_resolve htg hr).packed hyt, h2, h3⟩
  obtain ⟨q, hq1, hq2⟩ := List.getElem_of_mem hfm
  obtain ⟨is', offs, fin, a1, a2, a3, a4⟩ := C03_placement htg h
  have hli : is'.length = fs.length := by simpa using (congrArg List.length a1).symm
  have hlo : offs.length = fs.length := by rw [a2.length]; simpa using hli
  have h4 := a4 q hq1 (by omega) (by omega)
  rw [hq2, hoff, Option.some.injEq, Prod.mk.injEq] at h4
  have h5 := (a2.bounds.2 q (by simpa using (by omega : q < is'.length)) (by omega)).2
  have h6 := a3.1
  rw [hlen, hl, h4.1, h4.2]
  simp only [List.getElem_map] at h5
  omega

/-! ### Adding and removing fields -/

theorem resolveFields_sublist {fs gs : List (String × Ty)} (hs : List.Sublist fs gs)
    {is js : List (String × Impl)}
    (hi : All2 (fun (f : String × Ty) (i : String × Impl) => f.1 = i.1 ∧ resolve tg env l f.2 = some i.2)
      fs is)
    (hj : All2 (fun (f : String × Ty) (i : String × Impl) => f.1 = i.1 ∧ resolve tg env l f.2 = some i.2)
      gs js) : List.Sublist is js := by
  induction hs generalizing is js with
  | slnil => cases hi; cases hj; exact .slnil
  | cons a _ ih =>
    cases hj with
    | cons h1 h2 => exact (ih hi h2).cons _
  | cons_cons a _ ih =>
    cases hi with
    | @cons _ x _ _ h1 h2 =>
      cases hj with
      | @cons _ y _ _ h3 h4 =>
        have : x = y := by
          obtain ⟨n, x⟩ := x
          obtain ⟨m, y⟩ := y
          have e1 := h1.1.symm.trans h3.1
          have e2 := h1.2.symm.trans h3.2
          simp only [Option.some.injEq] at e1 e2
          rw [e1, e2]
        subst this
        exact (ih h2 h4).cons_cons _

theorem nextOffset_le {a x y : Nat} (h : x ≤ y) : nextOffset x a ≤ nextOffset y a :=
  (isNext_nextOffset x a).mono (isNext_nextOffset y a) h

theorem implEnd_mono {is js : List (String × Impl)} (hs : List.Sublist is js) {cur cur' : Nat}
    (hc : cur ≤ cur') : implEnd cur is ≤ implEnd cur' js := by
  induction hs generalizing cur cur' with
  | slnil => exact hc
  | cons a _ ih =>
    obtain ⟨n, a⟩ := a
    have := le_nextOffset cur' a.alignment
    exact ih (by omega)
  | cons_cons a _ ih =>
    obtain ⟨n, a⟩ := a
    have := nextOffset_le (a := a.alignment) hc
    exact ih (by omega)

theorem implOffs_mono {is js : List (String × Impl)} (hs : List.Sublist is js) {cur cur' : Nat}
    (hc : cur ≤ cur') {n : String} {k : Nat} (hk : (n, k) ∈ implOffs cur is) :
    ∃ k', (n, k') ∈ implOffs cur' js ∧ k ≤ k' := by
  induction hs generalizing cur cur' with
  | slnil => simp [implOffs] at hk
  | cons a _ ih =>
    obtain ⟨m, a⟩ := a
    have := le_nextOffset cur' a.alignment
    obtain ⟨k', h1, h2⟩ := ih (cur' := nextOffset cur' a.alignment + a.out.natSize) (by omega) hk
    exact ⟨k', List.mem_cons_of_mem _ h1, h2⟩
  | cons_cons a _ ih =>
    obtain ⟨m, a⟩ := a
    have hle := nextOffset_le (a := a.alignment) hc
    rcases List.mem_cons.1 hk with h | h
    · simp only [Prod.mk.injEq] at h
      obtain ⟨rfl, rfl⟩ := h
      exact ⟨_, List.mem_cons_self, hle⟩
    · obtain ⟨k', h1, h2⟩ := ih (cur' := nextOffset cur' a.alignment + a.out.natSize) (by omega) h
      exact ⟨k', List.mem_cons_of_mem _ h1, h2⟩

/-- C61: removing fields from a struct, wherever they are, moves no other field to a later offset and
makes neither the size nor ALIGNMENT larger (so inserting fields moves none to an earlier offset and
makes neither smaller). -/
theorem C61_monotone (htg : tg.Valid) {n n' : String} {fs gs : List (String × Ty)}
    (hsub : List.Sublist fs gs) {i j : Impl} (hi : resolve tg env l (.struct n fs) = some i)
    (hj : resolve tg env l (.struct n' gs) = some j) :
    i.alignment ≤ j.alignment ∧ i.out.size tg ≤ j.out.size tg ∧
      ∀ f ∈ fs, ∃ o o' t, i.out.offsetOf tg [f.1] = some (o, t) ∧
        j.out.offsetOf tg [f.1] = some (o', t) ∧ o ≤ o' := by
  have hgi := good_resolve htg hi
  have hgj := good_resolve htg hj
  obtain ⟨-, b2, b3⟩ := C02_struct_alignment hi
  obtain ⟨c1, c2, -⟩ := C02_struct_alignment hj
  have hal : i.alignment ≤ j.alignment := by
    rcases b3 with b3 | ⟨f, hf, x, hx, he⟩
    · rw [b3]; exact c1
    · obtain ⟨y, hy, hle⟩ := c2 f (hsub.subset hf)
      rw [hx, Option.some.injEq] at hy
      rw [he, hy]
      exact hle
  obtain ⟨is, his, hoki, rfl⟩ := resolve_struct hi
  obtain ⟨js, hjs, hokj, rfl⟩ := resolve_struct hj
  have hai := resolveFields_all2 his
  have haj := resolveFields_all2 hjs
  have hgi' : ∀ f ∈ is, Good f.2 := hai.forall_right fun a _ b _ hr => good_resolve htg hr.2
  have hgj' : ∀ f ∈ js, Good f.2 := haj.forall_right fun a _ b _ hr => good_resolve htg hr.2
  have hss := resolveFields_sublist hsub hai haj
  refine ⟨hal, ?_, ?_⟩
  · rw [size_eq_natSize htg hgi.packed, size_eq_natSize htg hgj.packed]
    show natSizeFields (genFields tg (structAl l is) 0 0 is) ≤
      natSizeFields (genFields tg (structAl l js) 0 0 js)
    rw [derive_size htg hgi', derive_size htg hgj']
    have hend := implEnd_mono hss (Nat.le_refl 0)
    have h1 := isNext_nextOffset (implEnd 0 is) (structAl l is)
    have h2 := isNext_nextOffset (implEnd 0 js) (structAl l js)
    have hal' : structAl l is ≤ structAl l js := hal
    by_cases h0 : structAl l is = 0
    · rw [h1.2.1 h0]
      exact Nat.le_trans hend h2.1
    · have hp : 0 < structAl l is := by omega
      refine (h1.2.2 hp).2 _ ?_ (Nat.le_trans hend h2.1)
      refine Nat.dvd_trans ?_ (h2.2.2 (by omega)).1
      have pi : ∃ a, structAl l is = 2 ^ a := by
        rcases hgi.al with h | h
        · exact h.1
        · exact absurd h.1 h0
      have pj : ∃ b, structAl l js = 2 ^ b := by
        rcases hgj.al with h | h
        · exact h.1
        · have : structAl l js = 0 := h.1
          omega
      obtain ⟨a, ha⟩ := pi
      obtain ⟨b, hb⟩ := pj
      rw [ha, hb] at hal' ⊢
      exact Nat.pow_dvd_pow 2 ((Nat.pow_le_pow_iff_right (by decide)).1 hal')
  · intro f hf
    obtain ⟨x, hx, hn, hr⟩ := hai.mem_left hf
    have hm : (f.1, x.2) ∈ is := by rw [hn]; exact hx
    have hm' : (f.1, x.2) ∈ js := hss.subset hm
    obtain ⟨k, hk⟩ := implOffs_mem 0 hm
    obtain ⟨k', hk', hle⟩ := implOffs_mono hss (Nat.le_refl 0) hk
    exact ⟨k, k', x.2.out, struct_field_offset htg hgi' hoki hgi.packed hm hk,
      struct_field_offset htg hgj' hokj hgj.packed hm' hk', hle⟩

theorem sliceAt_take {buf part : List Byte} {n off : Nat} (h : SliceAt (buf.take n) off part)
    (hle : off + part.length ≤ (buf.take n).length) : SliceAt buf off part := by
  have hn : off + part.length ≤ n := by
    rw [List.length_take] at hle; omega
  unfold SliceAt at h ⊢
  rw [List.drop_take, List.take_take] at h
  rw [Nat.min_eq_left (by omega)] at h
  exact h

/-- C61: appending fields to a struct is compatible both ways: reading the old and the new struct from
the start of the same buffer, whatever it contains, gives the same values of the common fields. -/
theorem C61_compatible (htg : tg.Valid) (henv : env.Lawful tg) {n n' : String}
    {fs more : List (String × Ty)} {i j : Impl} (hi : resolve tg env l (.struct n fs) = some i)
    (hj : resolve tg env l (.struct n' (fs ++ more)) = some j) {buf : List Byte}
    (hb : j.out.size tg ≤ buf.length) :
    ∃ o v o' v', i.out.size tg ≤ buf.length ∧
      decode tg i.out (buf.take (i.out.size tg)) = some o ∧ i.fromStd o = some v ∧
      decode tg j.out (buf.take (j.out.size tg)) = some o' ∧ j.fromStd o' = some v' ∧
      ∀ f ∈ fs, ∃ x, v.field f.1 = some x ∧ v'.field f.1 = some x := by
  have hle : i.out.size tg ≤ j.out.size tg :=
    (C61_monotone htg (List.sublist_append_left fs more) hi hj).2.1
  obtain ⟨o, v, a1, a2, -, a3⟩ := C61_read_fields htg henv hi
    (bs := buf.take (i.out.size tg)) (by rw [List.length_take]; omega)
  obtain ⟨o', v', b1, b2, -, b3⟩ := C61_read_fields htg henv hj
    (bs := buf.take (j.out.size tg)) (by rw [List.length_take]; omega)
  refine ⟨o, v, o', v', by omega, a1, a2, b1, b2, fun f hf => ?_⟩
  obtain ⟨q, hq, rfl⟩ := List.getElem_of_mem hf
  obtain ⟨x, off, part, y, z, c1, c2, c3, c4, c5, c6, c7, c8⟩ := a3 _ hf
  obtain ⟨x', off', part', y', z', d1, d2, d3, d4, d5, d6, d7, d8⟩ :=
    b3 _ (List.mem_append_left more hf)
  rw [c1, Option.some.injEq] at d1
  subst d1
  obtain ⟨off'', ty, e1, e2⟩ := C37_prefix htg hi hj (by rw [List.map_append]; exact List.prefix_append _ _)
    hq (by rw [List.length_append]; omega)
  rw [c2, Option.some.injEq, Prod.mk.injEq] at e1
  rw [List.getElem_append_left hq, d2, Option.some.injEq, Prod.mk.injEq] at e2
  have hoff : off' = off := e2.1.trans e1.1.symm
  subst hoff
  have hpart : part = part' := by
    have s1 := sliceAt_take c5 c4
    have s2 := sliceAt_take d5 d4
    unfold SliceAt at s1 s2
    rw [← s1, ← s2, c3, d3]
  subst hpart
  rw [c6, Option.some.injEq] at d6
  subst d6
  rw [c7, Option.some.injEq] at d7
  subst d7
  exact ⟨z, c8, d8⟩

/-- C61: a program that knows only the old struct reads the old fields from a buffer written with the
new one. -/
theorem C61_old_reads_new (htg : tg.Valid) (henv : env.Lawful tg) {n n' : String}
    {fs more : List (String × Ty)} {i j : Impl} (hi : resolve tg env l (.struct n fs) = some i)
    (hj : resolve tg env l (.struct n' (fs ++ more)) = some j) {w : RVal}
    (hw : (Ty.struct n' (fs ++ more)).HasVal tg env w) :
    ∃ p bs o v, j.asStd w = some p ∧ bytesOf tg j.out p = some bs ∧
      decode tg i.out (bs.take (i.out.size tg)) = some o ∧ i.fromStd o = some v ∧
      ∀ f ∈ fs, ∃ x, v.field f.1 = some x ∧ w.field f.1 = some x := by
  obtain ⟨p, bs, h1, h2, h3, h4⟩ := C11_byte_round_trip htg henv hj hw
  obtain ⟨p', hp', hty, -⟩ := (conv_resolve henv hj).as_ok w hw
  rw [h1, Option.some.injEq] at hp'
  subst hp'
  obtain ⟨e1, e2⟩ := outBytes htg hj hty
  rw [h2, Option.some.injEq] at e1
  rw [← e1] at e2
  obtain ⟨o, v, o', v', -, a2, a3, a4, a5, a6⟩ := C61_compatible htg henv hi hj (buf := bs) (by omega)
  rw [← e2, List.take_length, h3, Option.some.injEq] at a4
  subst a4
  rw [h4, Option.some.injEq] at a5
  subst a5
  exact ⟨p, bs, o, v, h1, h2, a2, a3, a6⟩

/-- `{ a: f32, b: vec3, c: f32 }`, without `b`, and extended by a `mat3`: sizes in std430. -/
example : ∃ i j k, resolve x86_64 Ex.env .std430 (.struct "S" [("a", Ex.f32), ("c", Ex.f32)]) = some i ∧
    resolve x86_64 Ex.env .std430 (.struct "S" [("a", Ex.f32), ("b", Ex.vec3), ("c", Ex.f32)]) = some j ∧
    resolve x86_64 Ex.env .std430
      (.struct "S" ([("a", Ex.f32), ("b", Ex.vec3), ("c", Ex.f32)] ++ [("d", Ex.mat3)])) = some k ∧
    i.out.size x86_64 = 8 ∧ j.out.size x86_64 = 32 ∧ k.out.size x86_64 = 80 := by
  refine ⟨_, _, _, rfl, rfl, rfl, ?_, ?_, ?_⟩ <;> with_unfolding_all rfl

end Crevice
