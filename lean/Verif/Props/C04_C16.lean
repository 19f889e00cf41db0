import Verif.Proof.Empty
import Verif.Proof.Factor
import Verif.Props.C01_C03
/-
C04 std140, C05 std430, C13 powers of two, C14 hereditary alignment, C16 std430 ≤ std140.
-/
namespace Crevice

/-! ## C04, C05 -/

/-- `i` lays a type out as the GLSL rules of layout `l` lay out `g`: same base alignment, same size,
and every member at every depth at the same offset and with the same size. -/
structure LaidOutAs (tg : Target) (l : Layout) (i : Impl) (g : Glsl.Ty) : Prop where
  alignment : i.alignment = g.align l
  size : i.out.size tg = g.size l
  offsets : ∀ p k g', g.offsetOf l p = some (k, g') →
    ∃ t', i.out.offsetOf tg p = some (k, t') ∧ t'.size tg = g'.size l

theorem laidOut {tg : Target} (htg : tg.Valid) {env : ForeignEnv} {l : Layout} {t : Ty} {i : Impl}
    (h : resolve tg env l t = some i) {g : Glsl.Ty} (hg : t.glsl = some g) : LaidOutAs tg l i g :=
  { alignment := (agrees_resolve htg h hg).align
    size := by rw [size_eq_natSize htg (good_resolve htg h).packed]; exact (agrees_resolve htg h hg).size
    offsets := fun _ _ _ hp => offset_resolve htg h hg hp }

/-- C04: every type convertible to std140 is laid out by the std140 rules. -/
theorem C04_std140 {tg : Target} (htg : tg.Valid) {env : ForeignEnv} {t : Ty} {i : Impl}
    (h : resolve tg env .std140 t = some i) {g : Glsl.Ty} (hg : t.glsl = some g) :
    LaidOutAs tg .std140 i g := laidOut htg h hg

/-- C05: every type convertible to std430 is laid out by the std430 rules. -/
theorem C05_std430 {tg : Target} (htg : tg.Valid) {env : ForeignEnv} {t : Ty} {i : Impl}
    (h : resolve tg env .std430 t = some i) {g : Glsl.Ty} (hg : t.glsl = some g) :
    LaidOutAs tg .std430 i g := laidOut htg h hg

/-- C04/C05, completeness: every convertible type without empty structs has a GLSL counterpart, so
the two theorems above apply to it. -/
theorem C04_C05_counterpart {tg : Target} {env : ForeignEnv} {l : Layout} {t : Ty} {i : Impl}
    (h : resolve tg env l t = some i) (hne : t.noEmptyStruct = true) : ∃ g, t.glsl = some g :=
  glsl_isSome h hne

example (l : Layout) : ∃ i g, resolve i686 Ex.env l Ex.light = some i ∧ Ex.light.glsl = some g ∧
    LaidOutAs i686 l i g := by
  obtain ⟨i, hi⟩ := Ex.light_resolves i686 l
  exact ⟨i, _, hi, Ex.light_glsl, laidOut Ex.i686_valid hi Ex.light_glsl⟩

/-- Offsets are really exercised: paths into nested structs and matrices exist. -/
example : ∃ g, Ex.light.glsl = some g ∧
    (g.offsetOf .std140 ["inner", "v", "y"]).map Prod.fst = some 92 ∧
    (g.offsetOf .std140 ["basis", "z", "y"]).map Prod.fst = some 68 := by
  refine ⟨_, Ex.light_glsl, ?_, ?_⟩ <;> decide

/-! ## C13 -/

/-- C13: ALIGNMENT is a power of two, except for std430 types that contain no scalar at all. -/
theorem C13_pow2 {tg : Target} (htg : tg.Valid) {env : ForeignEnv} {l : Layout} {t : Ty} {i : Impl}
    (h : resolve tg env l t = some i) (hex : ¬ (l = .std430 ∧ t.scalarFree = true)) :
    ∃ k, i.alignment = 2 ^ k := by
  rcases (good_resolve htg h).al with hp | ⟨h0, _⟩
  · exact hp.1
  · exact absurd ((alignment_zero_iff htg h).1 h0) hex

/-- C13, the exception: for those types ALIGNMENT is 0, which is no power of two. -/
theorem C13_exception {tg : Target} (htg : tg.Valid) {env : ForeignEnv} {t : Ty} {i : Impl}
    (h : resolve tg env .std430 t = some i) (hs : t.scalarFree = true) :
    i.alignment = 0 ∧ ¬ ∃ k, i.alignment = 2 ^ k := by
  have h0 := (alignment_zero_iff htg h).2 ⟨rfl, hs⟩
  refine ⟨h0, ?_⟩
  rintro ⟨k, hk⟩
  have := Nat.two_pow_pos k
  omega

/-- The exception is reachable. -/
example : ∃ i, resolve x86_64 Ex.env .std430 (.struct "Outer" [("e", .struct "Empty" [])]) = some i ∧
    i.alignment = 0 := ⟨_, rfl, rfl⟩

example : Ex.light.scalarFree = false := by decide

/-! ## C14 -/

/-- C14: if a value is placed at a multiple of its ALIGNMENT, every part of it at every depth lies
at a multiple of its own GLSL base alignment. -/
theorem C14_hereditary {tg : Target} (htg : tg.Valid) {env : ForeignEnv} {l : Layout} {t : Ty}
    {i : Impl} (h : resolve tg env l t = some i) {g : Glsl.Ty} (hg : t.glsl = some g) {base : Nat}
    (hb : i.alignment ∣ base) {p : List String} {k : Nat} {g' : Glsl.Ty}
    (hp : g.offsetOf l p = some (k, g')) :
    ∃ t', i.out.offsetOf tg p = some (k, t') ∧ g'.align l ∣ base + k := by
  obtain ⟨t', ht, _⟩ := offset_resolve htg h hg hp
  rw [(agrees_resolve htg h hg).align] at hb
  exact ⟨t', ht, Glsl.offsetOf_dvd (glsl_wf hg) hb hp⟩

/-- C14: the size of a derived struct is a multiple of its ALIGNMENT. -/
theorem C14_size {tg : Target} (htg : tg.Valid) {env : ForeignEnv} {l : Layout} {name : String}
    {fs : List (String × Ty)} {i : Impl} (h : resolve tg env l (.struct name fs) = some i) :
    i.alignment ∣ i.out.size tg := by
  obtain ⟨_, _, _, _, _, hn, _⟩ := C03_placement htg h
  rcases (good_resolve htg h).al with hp | ⟨_, _, h0⟩
  · exact (hn.2.2 hp.1.pos).1
  · rw [size_eq_natSize htg (good_resolve htg h).packed, h0]; exact Nat.dvd_zero _

/-- C14: elements of an array of derived structs placed back to back are all aligned, at every
depth. -/
theorem C14_array {tg : Target} (htg : tg.Valid) {env : ForeignEnv} {l : Layout} {name : String}
    {fs : List (String × Ty)} {i : Impl} (h : resolve tg env l (.struct name fs) = some i)
    {g : Glsl.Ty} (hg : (Ty.struct name fs).glsl = some g) {base : Nat} (hb : i.alignment ∣ base)
    (n : Nat) {p : List String} {k : Nat} {g' : Glsl.Ty} (hp : g.offsetOf l p = some (k, g')) :
    g'.align l ∣ base + n * i.out.size tg + k := by
  obtain ⟨_, _, hd⟩ := C14_hereditary htg h hg
    (Nat.dvd_add hb (Nat.dvd_trans (C14_size htg h) (Nat.dvd_mul_left _ n))) hp
  exact hd

example : ∃ i, resolve x86_64 Ex.env .std430 Ex.light = some i ∧ i.alignment = 16 ∧
    i.out.size x86_64 = 96 := by
  refine ⟨_, rfl, ?_, ?_⟩ <;> decide

/-! ## C16 -/

/-- C16: for any type convertible to both layouts, std430 alignment, size and member offsets at
every depth are at most the std140 ones. -/
theorem C16_std430_le_std140 {tg : Target} (htg : tg.Valid) {env : ForeignEnv} {t : Ty}
    {i430 i140 : Impl} (h430 : resolve tg env .std430 t = some i430)
    (h140 : resolve tg env .std140 t = some i140) {g : Glsl.Ty} (hg : t.glsl = some g) :
    i430.alignment ≤ i140.alignment ∧ i430.out.size tg ≤ i140.out.size tg ∧
      ∀ p k g', g.offsetOf .std430 p = some (k, g') → ∃ t' k' t'',
        i430.out.offsetOf tg p = some (k, t') ∧ i140.out.offsetOf tg p = some (k', t'') ∧ k ≤ k' := by
  have a430 := laidOut htg h430 hg
  have a140 := laidOut htg h140 hg
  have hwf := glsl_wf hg
  refine ⟨?_, ?_, ?_⟩
  · rw [a430.alignment, a140.alignment]; exact Glsl.align_mono g
  · rw [a430.size, a140.size]; exact Glsl.size_mono g hwf
  · intro p k g' hp
    obtain ⟨t', ht', _⟩ := a430.offsets _ _ _ hp
    obtain ⟨k', hk', hle⟩ := Glsl.offsetOf_mono g hwf hp
    obtain ⟨t'', ht'', _⟩ := a140.offsets _ _ _ hk'
    exact ⟨t', k', t'', ht', ht'', hle⟩

/-- The bound is not always attained: `struct { f32; mat2 }` takes 48 bytes in std140, 24 in std430. -/
example : ∃ i j, resolve x86_64 Ex.env .std430 (.struct "S"
      [("a", .scalar .f32), ("m", .math ⟨.mint, .matrix, .f32, 2⟩)]) = some i ∧
    resolve x86_64 Ex.env .std140 (.struct "S"
      [("a", .scalar .f32), ("m", .math ⟨.mint, .matrix, .f32, 2⟩)]) = some j ∧
    i.out.size x86_64 = 24 ∧ j.out.size x86_64 = 48 := by
  refine ⟨_, _, rfl, rfl, ?_, ?_⟩ <;> decide

/-- C16, the other side: std140 alignment, size and member offsets are at most four times the std430
ones. -/
theorem C16_factor {tg : Target} (htg : tg.Valid) {env : ForeignEnv} {t : Ty}
    {i430 i140 : Impl} (h430 : resolve tg env .std430 t = some i430)
    (h140 : resolve tg env .std140 t = some i140) {g : Glsl.Ty} (hg : t.glsl = some g) :
    i140.alignment ≤ 4 * i430.alignment ∧ i140.out.size tg ≤ 4 * i430.out.size tg ∧
      ∀ p k g', g.offsetOf .std430 p = some (k, g') → ∃ t' k' t'',
        i430.out.offsetOf tg p = some (k, t') ∧ i140.out.offsetOf tg p = some (k', t'') ∧ k' ≤ 4 * k := by
  have a430 := laidOut htg h430 hg
  have a140 := laidOut htg h140 hg
  have hwf := glsl_wf hg
  refine ⟨?_, ?_, ?_⟩
  · rw [a430.alignment, a140.alignment]; exact Glsl.align_four g hwf
  · rw [a430.size, a140.size]; exact Glsl.size_four g hwf
  · intro p k g' hp
    obtain ⟨t', ht', _⟩ := a430.offsets _ _ _ hp
    obtain ⟨k', hk', hle⟩ := Glsl.offsetOf_four g hwf hp
    obtain ⟨t'', ht'', _⟩ := a140.offsets _ _ _ hk'
    exact ⟨t', k', t'', ht', ht'', hle⟩

/-- Four is attained: a struct of one `f32` takes 16 bytes in std140 and 4 in std430, so no smaller
factor would do. -/
example : ∃ i j, resolve x86_64 Ex.env .std430 (.struct "S" [("a", .scalar .f32)]) = some i ∧
    resolve x86_64 Ex.env .std140 (.struct "S" [("a", .scalar .f32)]) = some j ∧
    i.out.size x86_64 = 4 ∧ j.out.size x86_64 = 16 := by
  refine ⟨_, _, rfl, rfl, ?_, ?_⟩ <;> decide

end Crevice
