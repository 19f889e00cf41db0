import Verif.Proof.EncodeBool
import Verif.Props.C06_C12
/-
C54: the bytes of a converted value are exactly the reference encoding of the GLSL value.
-/
namespace Crevice

variable {tg : Target} {env : ForeignEnv} {l : Layout}

/-- C54: for every supported type with a GLSL equivalent (and no raw layout-typed part), the bytes
of `v.as_stdN().as_bytes()` are, byte by byte, what the reference encoder of `Spec/Encode.lean`
writes for the GLSL value that `v` stands for. -/
theorem C54_as_bytes (htg : tg.Valid) (henv : env.Lawful tg) {t : Ty} {i : Impl}
    (h : resolve tg env l t = some i) {g : Glsl.Ty} (hg : t.glsl = some g) (hpl : t.plain = true)
    {v : RVal} (hv : t.HasVal tg env v) :
    ∃ o bs x, i.asStd v = some o ∧ bytesOf tg i.out o = some bs ∧ t.denote env v = some x ∧
      Glsl.store tg.endian l g x = some bs := by
  obtain ⟨o, ho, hty, _⟩ := (conv_resolve henv h).as_ok v hv
  obtain ⟨hb, hl⟩ := outBytes htg h hty
  obtain ⟨hr, x, hx⟩ := read_resolve htg tg.endian h hg hty (sliceAt_self (enc tg.endian o))
  have hd := denote_as henv h hv ho
  refine ⟨o, _, x, ho, hb, by rw [← hd, hx], (Glsl.store_iff (glsl_wf hg)).2 ⟨?_, by rw [hr, hx], ?_, ?_⟩⟩
  · rw [enc_length _ hty, (agrees_resolve htg h hg).size]
  · exact bool_words htg tg.endian h hg hpl ho hty (sliceAt_self _)
  · intro k hk hno
    apply Classical.byContradiction
    intro hne
    exact hno (nonzero_resolve htg tg.endian h hg hpl ho hty (List.getElem?_eq_getElem hk) hne)

/-- C54: the reference encoder writes every GLSL value that fits the type, and its result is the one
byte string of the size of the type that a shader reads as the value, has zeros in all padding and
stores every `bool` as 0 or 1. -/
theorem C54_reference {e : Endian} {g : Glsl.Ty} (hwf : g.Wf) {x : Glsl.Val} {bs : List Byte} :
    Glsl.store e l g x = some bs ↔ bs.length = g.size l ∧ Glsl.read e l g bs 0 = some x ∧
      Glsl.CanonicalBools e l g bs ∧ Glsl.ZeroPadding l g bs :=
  Glsl.store_iff hwf

/-- C54: so the bytes of a converted value are characterised completely: a byte string equals them
iff it has the size of the GLSL type, reads as the value, has zero padding and canonical bools. -/
theorem C54_characterisation (htg : tg.Valid) (henv : env.Lawful tg) {t : Ty} {i : Impl}
    (h : resolve tg env l t = some i) {g : Glsl.Ty} (hg : t.glsl = some g) (hpl : t.plain = true)
    {v : RVal} (hv : t.HasVal tg env v) :
    ∃ o bs x, i.asStd v = some o ∧ bytesOf tg i.out o = some bs ∧ t.denote env v = some x ∧
      ∀ bs', bs' = bs ↔ bs'.length = g.size l ∧ Glsl.read tg.endian l g bs' 0 = some x ∧
        Glsl.CanonicalBools tg.endian l g bs' ∧ Glsl.ZeroPadding l g bs' := by
  obtain ⟨o, bs, x, h1, h2, h3, h4⟩ := C54_as_bytes htg henv h hg hpl hv
  refine ⟨o, bs, x, h1, h2, h3, fun bs' => ?_⟩
  rw [← Glsl.store_iff (glsl_wf hg), h4, Option.some.injEq, eq_comm]

/-- C54: the bytes depend on the GLSL type and value only: two types with the same GLSL equivalent,
however they are written in Rust, give the same bytes for values that mean the same; and for any two
values of such types, equal bytes mean equal GLSL values. -/
theorem C54_meaning_only (htg : tg.Valid) {env env' : ForeignEnv} (henv : env.Lawful tg)
    (henv' : env'.Lawful tg) {t t' : Ty} {i i' : Impl}
    (h : resolve tg env l t = some i) (h' : resolve tg env' l t' = some i') {g : Glsl.Ty}
    (hg : t.glsl = some g) (hg' : t'.glsl = some g) (hpl : t.plain = true) (hpl' : t'.plain = true)
    {v v' : RVal} (hv : t.HasVal tg env v) (hv' : t'.HasVal tg env' v') :
    ∃ o o' bs bs', i.asStd v = some o ∧ i'.asStd v' = some o' ∧ bytesOf tg i.out o = some bs ∧
      bytesOf tg i'.out o' = some bs' ∧ (bs = bs' ↔ t.denote env v = t'.denote env' v') := by
  obtain ⟨o, bs, x, h1, h2, h3, h4⟩ := C54_as_bytes htg henv h hg hpl hv
  obtain ⟨o', bs', x', h1', h2', h3', h4'⟩ := C54_as_bytes htg henv' h' hg' hpl' hv'
  refine ⟨o, o', bs, bs', h1, h1', h2, h2', ?_⟩
  rw [h3, h3', Option.some.injEq]
  constructor
  · rintro rfl
    have a := ((Glsl.store_iff (glsl_wf hg)).1 h4).2.1
    have b := ((Glsl.store_iff (glsl_wf hg)).1 h4').2.1
    rw [a] at b
    exact Option.some.inj b
  · rintro rfl
    rw [h4] at h4'
    exact Option.some.inj h4'

/-- The concrete struct and value meet the hypotheses, and the reference bytes are not trivial: the
std430 image of `lightVal` starts with the three floats of `position` and the one of `intensity`. -/
example (l : Layout) : ∃ i, resolve x86_64 Ex.env l Ex.light = some i ∧ Ex.light.plain = true ∧
    Ex.light.HasVal x86_64 Ex.env Ex.lightVal := by
  obtain ⟨i, hi⟩ := Ex.light_resolves x86_64 l
  exact ⟨i, hi, rfl, Ex.light_hasVal x86_64⟩

/-- The reference encoder on a structure with all kinds of padding. -/
example : Glsl.store .little .std140
    (.struct "S" [("a", .scalar .bool), ("b", .vec .float 3), ("c", .mat .float 2 2),
      ("d", .array (.scalar .uint) 2)])
    (.struct [("a", .bool true), ("b", .vec [.float 1, .float 2, .float 3]),
      ("c", .mat [[.float 4, .float 5], [.float 6, .float 7]]), ("d", .array [.uint 8, .uint 0x0a0b0c0d])]) =
    some [1,0,0,0, 0,0,0,0, 0,0,0,0, 0,0,0,0,
      1,0,0,0, 2,0,0,0, 3,0,0,0, 0,0,0,0,
      4,0,0,0, 5,0,0,0, 0,0,0,0, 0,0,0,0, 6,0,0,0, 7,0,0,0, 0,0,0,0, 0,0,0,0,
      8,0,0,0, 0,0,0,0, 0,0,0,0, 0,0,0,0, 0x0d,0x0c,0x0b,0x0a, 0,0,0,0, 0,0,0,0, 0,0,0,0] := by
  decide +kernel

/-- The same in std430 and big-endian. -/
example : Glsl.store .big .std430
    (.struct "S" [("a", .scalar .bool), ("b", .vec .float 3), ("c", .mat .float 2 2),
      ("d", .array (.scalar .uint) 2)])
    (.struct [("a", .bool true), ("b", .vec [.float 1, .float 2, .float 3]),
      ("c", .mat [[.float 4, .float 5], [.float 6, .float 7]]), ("d", .array [.uint 8, .uint 0x0a0b0c0d])]) =
    some [0,0,0,1, 0,0,0,0, 0,0,0,0, 0,0,0,0,
      0,0,0,1, 0,0,0,2, 0,0,0,3, 0,0,0,0,
      0,0,0,4, 0,0,0,5, 0,0,0,6, 0,0,0,7, 0,0,0,8, 0x0a,0x0b,0x0c,0x0d, 0,0,0,0, 0,0,0,0] := by
  decide +kernel

/-- Canonical bools are needed: the word 2 reads as `true` too, but `as_stdN` never writes it. -/
example : Glsl.read .little .std140 (.scalar .bool) [2, 0, 0, 0] 0 = some (.bool true) ∧
    ¬ Glsl.CanonicalBools .little .std140 (.scalar .bool) [2, 0, 0, 0] := by
  refine ⟨rfl, fun h => ?_⟩
  obtain ⟨w, hw, h2⟩ := h 0 (by decide)
  have : w = 2 := by
    have : Glsl.wordAt .little [2, 0, 0, 0] 0 4 = some 2 := by decide +kernel
    rw [this] at hw
    exact (Option.some.inj hw).symm
  omega

/-- `plain` is needed in C54: see `C09_exception` (raw layout-typed parts keep their padding bytes). -/
example : ∃ (t : Ty) (i : Impl) (g : Glsl.Ty) (v o : RVal) (bs : List Byte) (k : Nat)
    (hk : k < bs.length), resolve x86_64 Ex.env .std140 t = some i ∧ t.glsl = some g ∧
      t.HasVal x86_64 Ex.env v ∧ i.asStd v = some o ∧ bytesOf x86_64 i.out o = some bs ∧
      ¬ Glsl.Occupied .std140 g k ∧ bs[k] ≠ 0 := C09_exception

end Crevice
