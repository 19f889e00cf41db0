import Verif.Proof.Stride
/-
C21 stride of slices.
-/
namespace Crevice

/-- C21: a slice of one type, written successfully from any state of the Writer, puts element `m` at
the returned offset plus `m` times the stride, where the stride is the least multiple of the type's
ALIGNMENT that is at least its size. -/
theorem C21_constant_stride {tg : Target} (htg : tg.Valid) {env : ForeignEnv} (henv : env.Lawful tg)
    {l : Layout} {t : Ty} {i : Impl} (h : resolve tg env l t = some i) {S : Nat}
    (hS : IsNext i.alignment (i.out.size tg) S) (xs : List (Item tg env l)) (ht : ∀ x ∈ xs, x.ty = t)
    {σ ε : Type} {k : Sink σ ε} (hk : k.Lawful) {w w' : Writer σ} {o : Nat}
    (hw : w.write k (.slice (xs.map Item.arg)) = (.ok o, w')) :
    w.len ≤ o ∧ ∃ img, k.delivered w'.sink = k.delivered w.sink ++ img ∧
      w.len + img.length = w'.len ∧
      ∀ m (hm : m < xs.length), SliceAt img (o + m * S - w.len) xs[m].bytes := by
  obtain ⟨h1, h2, h3⟩ := write_ok hk (wf_slice (items_wf htg henv xs)) hw
  rw [items_slice_leaves] at h2 h3
  have hh := items_homog htg henv h ht
  obtain rfl : S = nextOffset (i.out.size tg) i.alignment := hS.unique (isNext_nextOffset _ _)
  have ho : xs ≠ [] → o = nextOffset w.offset i.alignment := by
    intro hne
    cases xs with
    | nil => exact absurd rfl hne
    | cons x r =>
      rw [h1, List.map_cons, x.arg_std]
      simp only [WVal.firstOffset]
      rw [(hh x.std (by simp)).1]
  refine ⟨?_, _, h3, ?_, ?_⟩
  · cases xs with
    | nil => rw [h1]; simp [WVal.firstOffset, Writer.len]
    | cons x r => rw [ho (by simp)]; exact le_nextOffset _ _
  · have := image_length w.offset (xs.map Item.std)
    rw [Writer.len, this, ← h2]; rfl
  · intro m hm
    have hm' : m < (xs.map Item.std).length := by simpa using hm
    have := (image_slice w.offset _ m hm').2
    rw [places_homog _ hh _ _ hm'] at this
    rw [ho (by intro h0; simp [h0] at hm)]
    simpa [Item.std, Writer.len] using this

/-- C21, std430: the stride is the GLSL array stride, for every element type. -/
theorem C21_std430 {tg : Target} (htg : tg.Valid) {env : ForeignEnv} {t : Ty} {i : Impl}
    (h : resolve tg env .std430 t = some i) {g : Glsl.Ty} (hg : t.glsl = some g) :
    IsNext i.alignment (i.out.size tg) (Glsl.arrayStride .std430 g) := by
  have hl := laidOut htg h hg
  have hp := (agrees_resolve htg h hg).pow2.pos
  have := isNext_nextOffset (i.out.size tg) i.alignment
  rw [nextOffset, if_neg (by omega)] at this
  simp only [Glsl.arrayStride, Glsl.roundToVec4, ← hl.alignment, ← hl.size]
  exact this

/-- C21, std140: the stride is the GLSL array stride if and only if ALIGNMENT is at least 16, that
is, for all types but scalars and two-component vectors of 4-byte scalars. -/
theorem C21_std140_iff {tg : Target} (htg : tg.Valid) {env : ForeignEnv} {t : Ty} {i : Impl}
    (h : resolve tg env .std140 t = some i) {g : Glsl.Ty} (hg : t.glsl = some g) :
    IsNext i.alignment (i.out.size tg) (Glsl.arrayStride .std140 g) ↔ 16 ≤ i.alignment := by
  have hl := laidOut htg h hg
  have hp := (agrees_resolve htg h hg).pow2
  have hn := isNext_nextOffset (i.out.size tg) i.alignment
  have hpos := hp.pos
  simp only [Glsl.arrayStride, Glsl.roundToVec4, ← hl.alignment, ← hl.size]
  constructor
  · intro hi
    apply Classical.byContradiction
    intro hc
    have hs := small_std140 htg h hg (by rw [← hl.alignment]; omega)
    rw [← hl.alignment, ← hl.size] at hs
    have e := hi.unique hn
    rw [hs, nextOffset_self (.inr (Nat.dvd_refl _))] at e
    have h1 := roundUp_16_ge hpos
    have h2 := le_roundUp i.alignment (Glsl.roundUp i.alignment 16) (by omega)
    have h3 := dvd_roundUp i.alignment (Glsl.roundUp i.alignment 16)
    rw [e] at h3
    have := Nat.le_of_dvd hpos h3
    omega
  · intro h16
    rw [roundUp_16_small hp h16]
    rw [nextOffset, if_neg (by omega)] at hn
    exact hn

/-- C21, std140: derived structs always have the GLSL stride. -/
theorem C21_std140_struct {tg : Target} (htg : tg.Valid) {env : ForeignEnv} {name : String}
    {fs : List (String × Ty)} {i : Impl} (h : resolve tg env .std140 (.struct name fs) = some i)
    {g : Glsl.Ty} (hg : (Ty.struct name fs).glsl = some g) :
    16 ≤ i.alignment ∧ IsNext i.alignment (i.out.size tg) (Glsl.arrayStride .std140 g) ∧
      Glsl.arrayStride .std140 g = i.out.size tg := by
  have h16 : 16 ≤ i.alignment := (C02_struct_alignment h).1
  have hn := (C21_std140_iff htg h hg).2 h16
  refine ⟨h16, hn, ?_⟩
  have := hn.unique (isNext_nextOffset _ _)
  rw [this, nextOffset_self (.inr (C14_size htg h))]

/-- C21 fails in std140 for `f32` and two-component vectors: a slice of two `f32`s takes 8 bytes with
stride 4, while `float a[2]` has stride 16, and a shader that reads the written bytes as `float a[2]`
reads past their end. -/
theorem C21_exception : ∃ (x y : Item x86_64 Ex.env .std140) (w' : Writer (List Byte)),
    x.ty = Ex.f32 ∧ y.ty = Ex.f32 ∧
    (Writer.new []).write (vecSink Unit) (.slice [x.arg, y.arg]) = (.ok 0, w') ∧
    w'.sink = x.bytes ++ y.bytes ∧ w'.sink.length = 8 ∧
    Glsl.arrayStride .std140 (.scalar .float) = 16 ∧
    Glsl.read .little .std140 (.array (.scalar .float) 2) w'.sink 0 = none := by
  refine ⟨⟨Ex.f32, Ex.flt 1, _, _, _, rfl, ⟨_, rfl⟩, rfl, rfl⟩,
    ⟨Ex.f32, Ex.flt 2, _, _, _, rfl, ⟨_, rfl⟩, rfl, rfl⟩, _, rfl, rfl, rfl, rfl, by decide, by decide, by decide⟩

/-- Two-component vectors: stride 8 instead of 16. -/
example : ∃ i, resolve x86_64 Ex.env .std140 Ex.vec2 = some i ∧ i.alignment = 8 ∧
    IsNext i.alignment (i.out.size x86_64) 8 ∧ Glsl.arrayStride .std140 (.vec .float 2) = 16 := by
  refine ⟨_, rfl, rfl, ?_, by decide⟩
  have := isNext_nextOffset 8 8
  exact this

/-- The theorems apply to the concrete struct `Light`, in both layouts, with slices of any length. -/
example (l : Layout) (n : Nat) : ∃ (x : Item x86_64 Ex.env l) (w' : Writer (List Byte)) (o : Nat)
    (g : Glsl.Ty), x.ty = Ex.light ∧ Ex.light.glsl = some g ∧
    (Writer.new []).write (vecSink Unit) (.slice ((List.replicate n x).map Item.arg)) = (.ok o, w') := by
  obtain ⟨i, hi⟩ := Ex.light_resolves x86_64 l
  obtain ⟨x, h1, h2, _⟩ := Item.exists Ex.x86_64_valid Ex.env_lawful hi (Ex.light_hasVal _)
  obtain ⟨w', h, _⟩ := write_infallible (vecSink_infallible Unit) (Writer.new [])
    (wf_slice (items_wf Ex.x86_64_valid Ex.env_lawful (List.replicate n x)))
  exact ⟨x, w', _, _, h1, Ex.light_glsl, h⟩

end Crevice
