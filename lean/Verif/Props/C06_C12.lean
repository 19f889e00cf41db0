import Verif.Proof.Congr
import Verif.Proof.FromCongr
import Verif.Proof.Denote
import Verif.Props.C04_C16
/-
C06 shader view of converted values, C07 no uninitialised bytes, C08 every byte string is a value,
C09 zero padding, C10/C11 round trips, C12 reading arbitrary buffers.
-/
namespace Crevice

/-- The byte image of an Output value. -/
theorem outBytes {tg : Target} (htg : tg.Valid) {env : ForeignEnv} {l : Layout} {t : Ty} {i : Impl}
    (h : resolve tg env l t = some i) {o : RVal} (ho : RVal.HasTy i.out o) :
    bytesOf tg i.out o = some (enc tg.endian o) ∧ (enc tg.endian o).length = i.out.size tg := by
  have hg := good_resolve htg h
  refine ⟨bytesOf_eq_enc htg hg.packed ho, ?_⟩
  rw [enc_length _ ho, size_eq_natSize htg hg.packed]

/-! ## C06 -/

/-- C06: converting any value and reading the bytes by the GLSL rules gives the value back. -/
theorem C06_shader_reads_value {tg : Target} (htg : tg.Valid) {env : ForeignEnv} (henv : env.Lawful tg)
    {l : Layout} {t : Ty} {i : Impl} (h : resolve tg env l t = some i) {g : Glsl.Ty}
    (hg : t.glsl = some g) {v : RVal} (hv : t.HasVal tg env v) :
    ∃ o bs x, i.asStd v = some o ∧ bytesOf tg i.out o = some bs ∧ t.denote env v = some x ∧
      Glsl.read tg.endian l g bs 0 = some x := by
  obtain ⟨o, ho, hty, _⟩ := (conv_resolve henv h).as_ok v hv
  obtain ⟨hb, _⟩ := outBytes htg h hty
  obtain ⟨hr, x, hx⟩ := read_resolve htg tg.endian h hg hty (sliceAt_self (enc tg.endian o))
  have hd := denote_as henv h hv ho
  exact ⟨o, _, x, ho, hb, by rw [← hd, hx], by rw [hr, hx]⟩

/-- C06: the shader's view determines the value (for types without raw layout-typed parts, whose
padding bytes are part of the Rust value but not of the GLSL one). -/
theorem C06_view_determines_value {tg : Target} {env : ForeignEnv} (henv : env.Lawful tg) {l : Layout}
    {t : Ty} {i : Impl} (h : resolve tg env l t = some i) (hpl : t.plain = true) {v w : RVal}
    (hv : t.HasVal tg env v) (hw : t.HasVal tg env w) {x : Glsl.Val}
    (hx : t.denote env v = some x) (hx' : t.denote env w = some x) : v = w :=
  denote_inj henv h hpl hv hw hx hx'

/-- The value `lightVal` of the concrete struct means what it should. -/
example : Ex.light.denote Ex.env Ex.lightVal = some (.struct
    [("position", .vec [.float 0x3f800000, .float 0x40000000, .float 0x40400000]),
     ("intensity", .float 0xbf800000), ("enabled", .bool true),
     ("basis", .mat [[.float 1, .float 2, .float 3], [.float 4, .float 5, .float 6],
       [.float 7, .float 8, .float 9]]),
     ("inner", .struct [("k", .double 0x3ff0000000000000), ("v", .vec [.float 5, .float 6])])]) := by
  rfl

example (l : Layout) : ∃ i o bs x g, resolve x86_64 Ex.env l Ex.light = some i ∧
    Ex.light.glsl = some g ∧ i.asStd Ex.lightVal = some o ∧ bytesOf x86_64 i.out o = some bs ∧
    Ex.light.denote Ex.env Ex.lightVal = some x ∧
    Glsl.read .little l g bs 0 = some x := by
  obtain ⟨i, hi⟩ := Ex.light_resolves x86_64 l
  obtain ⟨o, bs, x, h1, h2, h3, h4⟩ :=
    C06_shader_reads_value Ex.x86_64_valid Ex.env_lawful hi Ex.light_glsl (Ex.light_hasVal _)
  exact ⟨i, o, bs, x, _, hi, Ex.light_glsl, h1, h2, h3, h4⟩

/-! ## C07 -/

/-- C07: the memory of every value of an Output type consists of initialised bytes only, as many as
`size_of` says; `bytes_of` therefore is defined and returns them. -/
theorem C07_no_uninit {tg : Target} (htg : tg.Valid) {env : ForeignEnv} {l : Layout} {t : Ty}
    {i : Impl} (h : resolve tg env l t = some i) {o : RVal} (ho : RVal.HasTy i.out o) :
    ∃ img bs, encode tg i.out o = some img ∧ img.length = i.out.size tg ∧ (none ∉ img) ∧
      bytesOf tg i.out o = some bs ∧ bs.map some = img := by
  have hg := good_resolve htg h
  have he := encode_eq_enc htg hg.packed ho
  obtain ⟨hb, hl⟩ := outBytes htg h ho
  exact ⟨_, _, he, by simpa using hl, by simp, hb, rfl⟩

/-- C07 is not trivially true of `repr(C)` structs: `struct { u8, f32 }` has uninitialised bytes. -/
example : encode x86_64 (.struct [("a", .scalar .u8), ("b", .scalar .f32)])
      (.struct [("a", .scalar .u8 1), ("b", .scalar .f32 2)]) =
        some [some 1, none, none, none, some 2, some 0, some 0, some 0] ∧
    bytesOf x86_64 (.struct [("a", .scalar .u8), ("b", .scalar .f32)])
      (.struct [("a", .scalar .u8 1), ("b", .scalar .f32 2)]) = none := by
  constructor <;> rfl

/-- Values of Output types exist. -/
example (l : Layout) : ∃ i o, resolve x86_64 Ex.env l Ex.light = some i ∧ RVal.HasTy i.out o := by
  obtain ⟨i, hi⟩ := Ex.light_resolves x86_64 l
  exact ⟨i, zeroed i.out, hi, hasTy_zeroed _⟩

/-! ## C08 -/

/-- C08: every byte string of length `size_of::<Output>()` is the image of exactly one value, and
`from_bytes` finds it. -/
theorem C08_pod {tg : Target} (htg : tg.Valid) {env : ForeignEnv} {l : Layout} {t : Ty} {i : Impl}
    (h : resolve tg env l t = some i) {bs : List Byte} (hl : bs.length = i.out.size tg) :
    ∃ o, RVal.HasTy i.out o ∧ bytesOf tg i.out o = some bs ∧ decode tg i.out bs = some o ∧
      ∀ o', RVal.HasTy i.out o' → bytesOf tg i.out o' = some bs → o' = o := by
  have hg := good_resolve htg h
  rw [size_eq_natSize htg hg.packed] at hl
  obtain ⟨o, hd, hty, he⟩ := decode_exists htg hg.packed hg.noBool bs hl
  refine ⟨o, hty, by rw [bytesOf_eq_enc htg hg.packed hty, he], hd, ?_⟩
  intro o' ho' hb
  rw [bytesOf_eq_enc htg hg.packed ho', Option.some.injEq] at hb
  exact enc_injective htg hg.packed ho' hty (by rw [hb, he])

/-- C08: byte strings of any other length are images of no value. -/
theorem C08_length {tg : Target} (htg : tg.Valid) {env : ForeignEnv} {l : Layout} {t : Ty} {i : Impl}
    (h : resolve tg env l t = some i) {o : RVal} (ho : RVal.HasTy i.out o) {bs : List Byte}
    (hb : bytesOf tg i.out o = some bs) : bs.length = i.out.size tg := by
  obtain ⟨h1, h2⟩ := outBytes htg h ho
  rw [h1, Option.some.injEq] at hb
  rw [← hb, h2]

/-- C08, Zeroable: `zeroed()` is a value of the type and its image is all zeros. -/
theorem C08_zeroed {tg : Target} (htg : tg.Valid) {env : ForeignEnv} {l : Layout} {t : Ty} {i : Impl}
    (h : resolve tg env l t = some i) :
    RVal.HasTy i.out (zeroed i.out) ∧
      bytesOf tg i.out (zeroed i.out) = some (List.replicate (i.out.size tg) 0) := by
  have hg := good_resolve htg h
  refine ⟨hasTy_zeroed _, ?_⟩
  rw [bytesOf_eq_enc htg hg.packed (hasTy_zeroed _), enc_zeroed, size_eq_natSize htg hg.packed]

/-- C08 is not trivially true of Rust types: not every byte is a `bool`. -/
example : decode x86_64 .bool [2] = none := rfl

/-! ## C09 -/

/-- C09: in the bytes of a converted value, every byte that belongs to no scalar component of the
GLSL type is zero. -/
theorem C09_padding_zero {tg : Target} (htg : tg.Valid) {env : ForeignEnv} (henv : env.Lawful tg)
    {l : Layout} {t : Ty} {i : Impl} (h : resolve tg env l t = some i) {g : Glsl.Ty}
    (hg : t.glsl = some g) (hpl : t.plain = true) {v : RVal} (hv : t.HasVal tg env v) :
    ∃ o bs, i.asStd v = some o ∧ bytesOf tg i.out o = some bs ∧
      ∀ k (hk : k < bs.length), ¬ Glsl.Occupied l g k → bs[k] = 0 := by
  obtain ⟨o, ho, hty, _⟩ := (conv_resolve henv h).as_ok v hv
  obtain ⟨hb, _⟩ := outBytes htg h hty
  refine ⟨o, _, ho, hb, fun k hk hno => ?_⟩
  apply Classical.byContradiction
  intro hne
  exact hno (nonzero_resolve htg tg.endian h hg hpl ho hty (List.getElem?_eq_getElem hk) hne)

/-- There is padding in the concrete struct: bytes 20 to 31 belong to no component. -/
example : Ex.light.plain = true ∧ ∃ g, Ex.light.glsl = some g ∧ ¬ Glsl.Occupied .std140 g 20 := by
  refine ⟨rfl, _, Ex.light_glsl, ?_⟩
  rintro ⟨c, hc, h1, h2⟩
  revert h1 h2
  have : ∀ c ∈ Glsl.cells .std140 (.struct "Light"
    [("position", .vec .float 3), ("intensity", .scalar .float), ("enabled", .scalar .bool),
     ("basis", .mat .float 3 3),
     ("inner", .struct "Attenuation" [("k", .scalar .double), ("v", .vec .float 2)])]) 0,
     ¬ (c.1 ≤ 20 ∧ 20 < c.1 + c.2) := by decide
  exact fun h1 h2 => this c hc ⟨h1, h2⟩

/-- The exception named in C09: a struct with a raw `std140::Mat3` field passes the field's public
`_pad_x` through, so a padding byte of the GLSL layout can be non-zero. -/
theorem C09_exception : ∃ (t : Ty) (i : Impl) (g : Glsl.Ty) (v o : RVal) (bs : List Byte) (k : Nat)
    (hk : k < bs.length), resolve x86_64 Ex.env .std140 t = some i ∧ t.glsl = some g ∧
      t.HasVal x86_64 Ex.env v ∧ i.asStd v = some o ∧ bytesOf x86_64 i.out o = some bs ∧
      ¬ Glsl.Occupied .std140 g k ∧ bs[k] ≠ 0 := by
  let col : RVal := Ex.v3 (Ex.flt 0) (Ex.flt 0) (Ex.flt 0)
  let m : RVal := .struct [("x", col), ("_pad_x", Ex.flt 7), ("y", col), ("_pad_y", Ex.flt 0),
    ("z", col), ("_pad_z", Ex.flt 0)]
  have hty : ∀ i, resolve x86_64 Ex.env .std140 Ex.mat3 = some i → RVal.HasTy i.out m := by
    intro i hi
    have : (resolve x86_64 Ex.env .std140 Ex.mat3).map Impl.out = some (.struct
      [("x", .struct [("x", .scalar .f32), ("y", .scalar .f32), ("z", .scalar .f32)]),
       ("_pad_x", .scalar .f32),
       ("y", .struct [("x", .scalar .f32), ("y", .scalar .f32), ("z", .scalar .f32)]),
       ("_pad_y", .scalar .f32),
       ("z", .struct [("x", .scalar .f32), ("y", .scalar .f32), ("z", .scalar .f32)]),
       ("_pad_z", .scalar .f32)]) := rfl
    rw [hi] at this
    simp only [Option.map_some, Option.some.injEq] at this
    rw [this]
    simp [RVal.HasTy, HasTys, m, col, Ex.v3, Ex.flt]
  obtain ⟨mi, hmi⟩ : ∃ i, resolve x86_64 Ex.env .std140 Ex.mat3 = some i := ⟨_, rfl⟩
  refine ⟨.struct "S" [("m", .output .std140 Ex.mat3)], _, _, .struct [("m", m)], _, _, 12, ?_,
    rfl, rfl, ⟨_, rfl, rfl, ⟨mi, hmi, hty mi hmi⟩, trivial⟩, rfl, rfl, ?_, ?_⟩
  · decide
  · rintro ⟨c, hc, h1, h2⟩
    revert h1 h2
    have : ∀ c ∈ Glsl.cells .std140 (.struct "S" [("m", .mat .float 3 3)]) 0,
      ¬ (c.1 ≤ 12 ∧ 12 < c.1 + c.2) := by decide
    exact fun h1 h2 => this c hc ⟨h1, h2⟩
  · decide

/-! ## C10, C11 -/

/-- C10: `from_stdN(as_stdN(x)) == x`, and `as_stdN` yields a value of the Output type. -/
theorem C10_round_trip {tg : Target} {env : ForeignEnv} (henv : env.Lawful tg) {l : Layout} {t : Ty}
    {i : Impl} (h : resolve tg env l t = some i) {v : RVal} (hv : t.HasVal tg env v) :
    ∃ o, i.asStd v = some o ∧ RVal.HasTy i.out o ∧ i.fromStd o = some v :=
  (conv_resolve henv h).as_ok v hv

/-- C11: reinterpreting the bytes as the Output type and converting back gives the value. -/
theorem C11_byte_round_trip {tg : Target} (htg : tg.Valid) {env : ForeignEnv} (henv : env.Lawful tg)
    {l : Layout} {t : Ty} {i : Impl} (h : resolve tg env l t = some i) {v : RVal}
    (hv : t.HasVal tg env v) :
    ∃ o bs, i.asStd v = some o ∧ bytesOf tg i.out o = some bs ∧ decode tg i.out bs = some o ∧
      i.fromStd o = some v := by
  obtain ⟨o, ho, hty, hf⟩ := (conv_resolve henv h).as_ok v hv
  exact ⟨o, _, ho, (outBytes htg h hty).1, decode_enc htg (good_resolve htg h).packed hty, hf⟩

/-- C11: `as_bytes` of converted values is injective. -/
theorem C11_injective {tg : Target} (htg : tg.Valid) {env : ForeignEnv} (henv : env.Lawful tg)
    {l : Layout} {t : Ty} {i : Impl} (h : resolve tg env l t = some i) {v w o o' : RVal}
    (hv : t.HasVal tg env v) (hw : t.HasVal tg env w) (ho : i.asStd v = some o)
    (ho' : i.asStd w = some o') (hb : bytesOf tg i.out o = bytesOf tg i.out o') : v = w := by
  obtain ⟨p, hp, hty, hf⟩ := (conv_resolve henv h).as_ok v hv
  obtain ⟨p', hp', hty', hf'⟩ := (conv_resolve henv h).as_ok w hw
  rw [ho, Option.some.injEq] at hp; subst hp
  rw [ho', Option.some.injEq] at hp'; subst hp'
  rw [(outBytes htg h hty).1, (outBytes htg h hty').1, Option.some.injEq] at hb
  have := enc_injective htg (good_resolve htg h).packed hty hty' hb
  subst this
  rw [hf] at hf'
  exact Option.some.inj hf'

example (tg : Target) (l : Layout) : ∃ i, resolve tg Ex.env l Ex.light = some i ∧
    Ex.light.HasVal tg Ex.env Ex.lightVal ∧ Ex.env.Lawful x86_64 := by
  obtain ⟨i, hi⟩ := Ex.light_resolves tg l
  exact ⟨i, hi, Ex.light_hasVal _, Ex.env_lawful⟩

/-! ## C12 -/

/-- C12: any buffer of the right length, whatever its contents, converts to a value, and that value
is what a shader sees in the buffer (if hand-written conversions lose nothing). -/
theorem C12_read_back {tg : Target} (htg : tg.Valid) {env : ForeignEnv} (henv : env.Lawful tg)
    (hex : env.Exact tg)
    {l : Layout} {t : Ty} {i : Impl} (h : resolve tg env l t = some i) {g : Glsl.Ty}
    (hg : t.glsl = some g) {bs : List Byte} (hl : bs.length = i.out.size tg) :
    ∃ o v x, decode tg i.out bs = some o ∧ i.fromStd o = some v ∧ t.HasVal tg env v ∧
      t.denote env v = some x ∧ Glsl.read tg.endian l g bs 0 = some x := by
  obtain ⟨o, hty, hb, hd, _⟩ := C08_pod htg h hl
  obtain ⟨v, hf, hv⟩ := (conv_resolve henv h).from_ok o hty
  have he : enc tg.endian o = bs := by
    rw [(outBytes htg h hty).1, Option.some.injEq] at hb; exact hb
  obtain ⟨hr, x, hx⟩ := read_resolve htg tg.endian h hg hty (sliceAt_self (enc tg.endian o))
  rw [he] at hr
  have hdn := denote_from henv hex h hty hf
  exact ⟨o, v, x, hd, hf, hv, by rw [hdn, hx], by rw [hr, hx]⟩

/-- C12: two buffers that agree on all bytes of scalar components convert to the same value (for
types without raw layout-typed parts). -/
theorem C12_padding_ignored {tg : Target} (htg : tg.Valid) {env : ForeignEnv} (henv : env.Lawful tg)
    {l : Layout} {t : Ty} {i : Impl} (h : resolve tg env l t = some i) {g : Glsl.Ty}
    (hg : t.glsl = some g) (hpl : t.plain = true) {bs bs' : List Byte}
    (hl : bs.length = i.out.size tg) (hl' : bs'.length = i.out.size tg)
    (hsame : ∀ k, Glsl.Occupied l g k → bs[k]? = bs'[k]?) :
    ∃ o o' v, decode tg i.out bs = some o ∧ decode tg i.out bs' = some o' ∧
      i.fromStd o = some v ∧ i.fromStd o' = some v := by
  obtain ⟨o, hty, hb, hd, _⟩ := C08_pod htg h hl
  obtain ⟨o', hty', hb', hd', _⟩ := C08_pod htg h hl'
  have hc : Glsl.SameCells bs bs' (Glsl.cells l g 0) := by
    intro c hc k hk1 hk2
    exact hsame k ⟨c, hc, hk1, hk2⟩
  have hr := Glsl.read_congr tg.endian l (by rw [hl, hl']) g 0 hc
  have he : enc tg.endian o = bs := by
    rw [(outBytes htg h hty).1, Option.some.injEq] at hb; exact hb
  have he' : enc tg.endian o' = bs' := by
    rw [(outBytes htg h hty').1, Option.some.injEq] at hb'; exact hb'
  obtain ⟨h1, x, hx⟩ := read_resolve htg tg.endian h hg hty (sliceAt_self (enc tg.endian o))
  obtain ⟨h2, -⟩ := read_resolve htg tg.endian h hg hty' (sliceAt_self (enc tg.endian o'))
  rw [he] at h1
  rw [he'] at h2
  obtain ⟨v, hf, -⟩ := (conv_resolve henv h).from_ok o hty
  refine ⟨o, o', v, hd, hd', hf, ?_⟩
  rw [← hf]
  exact (from_congr h hpl hty hty' hx (by rw [← h2, ← hr, h1, hx])).symm

/-- C12 for all types: the GLSL views agree. -/
theorem C12_padding_ignored_view {tg : Target} (htg : tg.Valid) {env : ForeignEnv}
    (henv : env.Lawful tg) (hex : env.Exact tg) {l : Layout} {t : Ty} {i : Impl} (h : resolve tg env l t = some i)
    {g : Glsl.Ty} (hg : t.glsl = some g) {bs bs' : List Byte}
    (hl : bs.length = i.out.size tg) (hl' : bs'.length = i.out.size tg)
    (hsame : ∀ k, Glsl.Occupied l g k → bs[k]? = bs'[k]?) :
    ∃ o o' v v', decode tg i.out bs = some o ∧ decode tg i.out bs' = some o' ∧
      i.fromStd o = some v ∧ i.fromStd o' = some v' ∧ t.denote env v = t.denote env v' := by
  obtain ⟨o, v, x, h1, h2, h3, h4, h5⟩ := C12_read_back htg henv hex h hg hl
  obtain ⟨o', v', x', h1', h2', h3', h4', h5'⟩ := C12_read_back htg henv hex h hg hl'
  have hc : Glsl.SameCells bs bs' (Glsl.cells l g 0) := by
    intro c hc k hk1 hk2
    exact hsame k ⟨c, hc, hk1, hk2⟩
  have hr := Glsl.read_congr tg.endian l (by rw [hl, hl']) g 0 hc
  rw [h5, h5'] at hr
  exact ⟨o, o', v, v', h1, h1', h2, h2', by rw [h4, h4', hr]⟩

/-- Garbage in the padding: two different buffers that satisfy the hypotheses of C12. -/
example : ∃ (i : Impl) (g : Glsl.Ty) (bs bs' : List Byte),
    resolve x86_64 Ex.env .std140 (.struct "S" [("a", Ex.f32)]) = some i ∧
    (Ty.struct "S" [("a", Ex.f32)]).glsl = some g ∧ bs.length = i.out.size x86_64 ∧
    bs'.length = i.out.size x86_64 ∧ bs ≠ bs' ∧
    ∀ k, Glsl.Occupied .std140 g k → bs[k]? = bs'[k]? := by
  refine ⟨_, _, (List.replicate 4 1 ++ List.replicate 12 0 : List Byte), List.replicate 16 1,
    rfl, rfl, by decide, by decide, by decide, ?_⟩
  rintro k ⟨c, hc, h1, h2⟩
  have hcs : Glsl.cells .std140 (.struct "S" [("a", .scalar .float)]) 0 = [(0, 4)] := by decide
  rw [hcs] at hc
  simp only [List.mem_cons, List.not_mem_nil, or_false] at hc
  subst hc
  have : k < 4 := h2
  match k, this with
  | 0, _ => rfl
  | 1, _ => rfl
  | 2, _ => rfl
  | 3, _ => rfl

end Crevice
