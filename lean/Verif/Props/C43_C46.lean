import Verif.Proof.TargetIndep
import Verif.Proof.Coincide
import Verif.Proof.AlignBound
import Verif.Props.C17_C20
import Verif.Props.C30_C31
/-
C43 bound on ALIGNMENT, C44 targets, C45 types laid out the same in both layouts, C46 minimality.
-/
namespace Crevice

/-! ## C43 -/

theorem mscalar_align_le {l : Layout} {s : Scalar} {i : Impl} (h : scalarImpl l s = some i) :
    i.alignment ≤ 32 := by
  cases l <;> cases s <;> simp [scalarImpl, Layout.scalarAlignment, blanketImpl] at h <;>
    subst h <;> decide

/-- C43: ALIGNMENT is at most 32, except for DynamicUniform, for which it is 256. -/
theorem C43_bound {tg : Target} {env : ForeignEnv} {l : Layout} {t : Ty} {i : Impl}
    (h : resolve tg env l t = some i) :
    if t.isDynamic then i.alignment = 256 else i.alignment ≤ 32 := by
  induction t using Ty.ind generalizing i with
  | hs s => exact mscalar_align_le h
  | hb => cases l <;> simp [resolve] at h <;> subst h <;> decide
  | hm m => exact mathImpl_align_le h
  | hf n =>
    simp only [resolve, Option.bind_eq_some_iff, Option.map_eq_some_iff] at h
    obtain ⟨row, -, j, hj, rfl⟩ := h
    exact mathImpl_align_le (i := j) hj
  | hst n fs ih =>
    have hdyn := ((C30_compiles tg env l n fs).1 ⟨i, h⟩).2.1
    obtain ⟨is, hr, hok, rfl⟩ := resolve_struct h
    have ha := resolveFields_all2 hr
    have hall : ∀ g ∈ is, g.2.alignment ≤ 32 := ha.forall_right fun f hf g _ hfg => by
      have := ih f hf hfg.2
      rw [hdyn f hf] at this
      simpa using this
    have hm : structAl l is ∈ l.minStructAlignment :: is.map fun f => f.2.alignment :=
      maxArr_mem (by simp)
    show structAl l is ≤ 32
    rcases List.mem_cons.1 hm with h | h
    · rw [h]; cases l <;> decide
    · obtain ⟨f, hfm, he⟩ := List.mem_map.1 h
      rw [← he]; exact hall f hfm
  | hd t ih =>
    cases l
    · simp only [resolve, Option.map_eq_some_iff] at h
      obtain ⟨j, hj, rfl⟩ := h
      have := align_le_256 hj
      simp only [Ty.isDynamic, if_true, dynamicImpl, constMax_eq]; omega
    · simp [resolve] at h
  | hu n t ih =>
    simp only [resolve, Option.map_eq_some_iff] at h
    obtain ⟨j, hj, rfl⟩ := h
    exact (ih (i := j) hj :)
  | ho l' t ih =>
    simp only [resolve] at h
    split at h
    · simp only [Option.map_eq_some_iff] at h
      obtain ⟨j, hj, rfl⟩ := h
      exact (ih (i := j) hj :)
    · simp at h

/-- C43: hence every offset that is a multiple of 256, and every offset that is a multiple of 32 if
the type is not a DynamicUniform, is an aligned position for the type. -/
theorem C43_any_base {tg : Target} (htg : tg.Valid) {env : ForeignEnv} {l : Layout} {t : Ty} {i : Impl}
    (h : resolve tg env l t = some i) (hpos : 0 < i.alignment) {base : Nat}
    (hb : (if t.isDynamic then 256 else 32) ∣ base) : i.alignment ∣ base := by
  refine Nat.dvd_trans ?_ hb
  have hp : IsPow2 i.alignment := by
    rcases (good_resolve htg h).al with hp | ⟨h0, _⟩
    · exact hp.1
    · omega
  have := C43_bound h
  by_cases hd : t.isDynamic = true
  · rw [if_pos hd] at this ⊢; rw [this]; exact Nat.dvd_refl _
  · rw [if_neg hd] at this ⊢; exact hp.dvd_of_le ⟨5, rfl⟩ this

/-- Both bounds are attained. -/
example : ∃ i j, resolve x86_64 Ex.env .std430 (.struct "S" [("m", .math ⟨.mint, .matrix, .f64, 4⟩)]) =
      some i ∧ i.alignment = 32 ∧
    resolve x86_64 Ex.env .std140 (.dynamic (.scalar .f32)) = some j ∧ j.alignment = 256 := by
  refine ⟨_, _, rfl, ?_, rfl, ?_⟩ <;> decide

/-! ## C44 -/

/-- C44: which types are convertible, their Output types with all paddings, ALIGNMENT, sizes and the
offsets of members at every depth are the same on all targets, whatever the Rust alignment of the
primitives there. -/
theorem C44_layout {tg tg' : Target} (htg : tg.Valid) (htg' : tg'.Valid) {env : ForeignEnv}
    {l : Layout} {t : Ty} {i : Impl} (h : resolve tg env l t = some i) :
    ∃ i', resolve tg' env l t = some i' ∧ i'.alignment = i.alignment ∧
      i'.out.size tg' = i.out.size tg ∧ ∀ p, i'.out.offsetOf tg' p = i.out.offsetOf tg p := by
  have hp := (good_resolve htg h).packed
  refine ⟨i, by rw [← resolve_target htg htg' t]; exact h, rfl, ?_,
    fun p => offsetOf_target htg' htg hp p⟩
  rw [size_eq_natSize htg hp, size_eq_natSize htg' hp]

/-- C44: on targets with the same byte order, values have the same bytes. -/
theorem C44_bytes {tg tg' : Target} (htg : tg.Valid) (htg' : tg'.Valid) (he : tg.endian = tg'.endian)
    {env : ForeignEnv} (henv : env.Lawful tg) {l : Layout} {t : Ty} {i i' : Impl}
    (h : resolve tg env l t = some i) (h' : resolve tg' env l t = some i') {v : RVal}
    (hv : t.HasVal tg env v) :
    ∃ bs, (i.asStd v).bind (bytesOf tg i.out) = some bs ∧
      (i'.asStd v).bind (bytesOf tg' i'.out) = some bs := by
  have hii : i' = i := by
    rw [← resolve_target htg htg' t, h] at h'
    exact (Option.some.inj h').symm
  subst hii
  obtain ⟨o, ho, hty, -⟩ := (conv_resolve henv h).as_ok v hv
  have hp := (good_resolve htg h).packed
  exact ⟨enc tg.endian o, by rw [ho]; exact bytesOf_eq_enc htg hp hty,
    by rw [ho, he]; exact bytesOf_eq_enc htg' hp hty⟩

/-- The two targets really differ: `align_of::<f64>()` is 8 on one and 4 on the other. -/
example : x86_64.Valid ∧ i686.Valid ∧ x86_64.endian = i686.endian ∧
    RTy.align x86_64 (.scalar .f64) = 8 ∧ RTy.align i686 (.scalar .f64) = 4 ∧
    ∃ i, resolve i686 Ex.env .std140 Ex.light = some i ∧ i.out.size i686 = 96 := by
  refine ⟨Ex.x86_64_valid, Ex.i686_valid, rfl, rfl, rfl, _, rfl, ?_⟩
  decide

/-! ## C45 -/

/-- C45: a type without `mat2` in which every struct has a member with std430 alignment 16 or more is
laid out the same in std140 and std430: same ALIGNMENT, size, offsets at every depth, and the same
bytes for every value. -/
theorem C45_coincide {tg : Target} (htg : tg.Valid) {env : ForeignEnv} {t : Ty} {i430 i140 : Impl}
    (h430 : resolve tg env .std430 t = some i430) (h140 : resolve tg env .std140 t = some i140)
    {g : Glsl.Ty} (hg : t.glsl = some g) (hc : g.coincides = true) :
    i430.alignment = i140.alignment ∧ i430.out.size tg = i140.out.size tg ∧
      (∀ p, i430.out.offsetOf tg p = i140.out.offsetOf tg p) ∧
      ∀ v, (i430.asStd v).bind (bytesOf tg i430.out) = (i140.asStd v).bind (bytesOf tg i140.out) := by
  obtain rfl := resolve_coincides htg h430 h140 hg hc
  exact ⟨rfl, rfl, fun _ => rfl, fun _ => rfl⟩

/-- C45, the other way round: a struct without such a member is laid out differently, std140 giving
it ALIGNMENT 16 and std430 less. -/
theorem C45_narrow_struct {tg : Target} {env : ForeignEnv} {name : String}
    {fs : List (String × Ty)} {i430 i140 : Impl}
    (h430 : resolve tg env .std430 (.struct name fs) = some i430)
    (h140 : resolve tg env .std140 (.struct name fs) = some i140)
    (hn : ∀ f ∈ fs, ∀ j, resolve tg env .std430 f.2 = some j → j.alignment < 16) :
    i430.alignment < 16 ∧ 16 ≤ i140.alignment := by
  obtain ⟨is, hr, -, rfl⟩ := resolve_struct h430
  obtain ⟨js, hr', -, rfl⟩ := resolve_struct h140
  refine ⟨?_, le_maxArr (by simp [Layout.minStructAlignment])⟩
  have hm : structAl .std430 is ∈ Layout.std430.minStructAlignment :: is.map fun f => f.2.alignment :=
    maxArr_mem (by simp)
  show structAl .std430 is < 16
  rcases List.mem_cons.1 hm with h | h
  · rw [h]; decide
  · obtain ⟨f, hf, he⟩ := List.mem_map.1 h
    rw [← he]
    exact (resolveFields_all2 hr).forall_right (P := fun g => g.2.alignment < 16)
      (fun a ha b _ hab => hn a ha b.2 hab.2) f hf

/-- `Light` has a nested struct with a `double` only and a `vec2`; with a `vec4` in it the layouts
coincide. -/
example : ∃ g, Ex.light.glsl = some g ∧ g.coincides = false := ⟨_, Ex.light_glsl, by decide⟩

/-- `struct { position: Vec3, inner: struct { color: Vec4, k: f64 }, m: Mat3, d: DMat2 }` -/
example : ∃ i j g, resolve x86_64 Ex.env .std430 (.struct "S" [("position", Ex.vec3),
      ("inner", .struct "I" [("color", .math ⟨.mint, .vector, .f32, 4⟩), ("k", .scalar .f64)]),
      ("m", Ex.mat3), ("d", .math ⟨.mint, .matrix, .f64, 2⟩)]) = some i ∧
    resolve x86_64 Ex.env .std140 (.struct "S" [("position", Ex.vec3),
      ("inner", .struct "I" [("color", .math ⟨.mint, .vector, .f32, 4⟩), ("k", .scalar .f64)]),
      ("m", Ex.mat3), ("d", .math ⟨.mint, .matrix, .f64, 2⟩)]) = some j ∧
    Ty.glsl (.struct "S" [("position", Ex.vec3),
      ("inner", .struct "I" [("color", .math ⟨.mint, .vector, .f32, 4⟩), ("k", .scalar .f64)]),
      ("m", Ex.mat3), ("d", .math ⟨.mint, .matrix, .f64, 2⟩)]) = some g ∧ g.coincides = true ∧
    i.out.size x86_64 = 128 := by
  refine ⟨_, _, _, rfl, rfl, rfl, ?_, ?_⟩ <;> decide

/-! ## C46 -/

/-- C46: no other way to lay the fields of a derived struct out in order, aligned and without
overlap, puts any field at a smaller offset or makes the struct smaller. -/
theorem C46_derive {tg : Target} (htg : tg.Valid) {env : ForeignEnv} {l : Layout} {name : String}
    {fs : List (String × Ty)} {i : Impl} (h : resolve tg env l (.struct name fs) = some i)
    {is : List Impl} (his : fs.map (fun f => resolve tg env l f.2) = is.map some)
    {offs : List Nat} {size : Nat}
    (hadm : Admissible 0 (is.map fun j => (j.alignment, j.out.size tg)) offs size)
    (hsz : i.alignment ∣ size) :
    i.out.size tg ≤ size ∧ ∀ k (hk : k < fs.length) (hk' : k < offs.length),
      ∃ o t', i.out.offsetOf tg [fs[k].1] = some (o, t') ∧ o ≤ offs[k] := by
  obtain ⟨is', offs', fin, h1, h2, h3, h4⟩ := C03_placement htg h
  obtain rfl : is = is' := by
    have := his.symm.trans h1
    exact (List.map_inj_right (fun _ _ => Option.some.inj)).1 this
  obtain ⟨m1, m2⟩ := h2.minimal hadm (Nat.le_refl 0)
  have hl : is.length = fs.length := by simpa using (congrArg List.length h1).symm
  have hlo : offs'.length = fs.length := by rw [h2.length]; simpa using hl
  refine ⟨?_, fun k hk hk' => ?_⟩
  · rcases Nat.eq_zero_or_pos i.alignment with h0 | h0
    · rw [h3.2.1 h0]; exact m1
    · exact (h3.2.2 h0).2 _ hsz m1
  · exact ⟨_, _, h4 k hk (by omega) (by omega), m2 k (by omega) hk'⟩

/-- C46: no other way to put the values a Writer has written into a buffer in order, aligned and
without overlap, puts any of them at a smaller offset or makes the buffer shorter. -/
theorem C46_writer {tg : Target} (htg : tg.Valid) {env : ForeignEnv} (henv : env.Lawful tg) {l : Layout}
    (xs : List (Item tg env l)) {σ ε : Type} {k : Sink σ ε} (hk : k.Lawful) {s : σ}
    {os : List Nat} {w' : Writer σ}
    (h : (Writer.new s).history k (xs.map Item.arg) = (os.map .ok, w'))
    {offs : List Nat} {size : Nat}
    (hadm : Admissible 0 (xs.map fun x => (x.impl.alignment, x.bytes.length)) offs size) :
    w'.len ≤ size ∧ ∀ m (hm : m < os.length) (hm' : m < offs.length), os[m] ≤ offs[m] := by
  obtain ⟨hp, -⟩ := C18_history htg henv xs hk h
  exact hp.minimal hadm (Nat.le_refl 0)

theorem next_le {a off o : Nat} (h : IsNext a off o) : o ≤ off + (a - 1) := by
  obtain ⟨-, h1, h2⟩ := h
  rcases Nat.eq_zero_or_pos a with h0 | h0
  · omega
  · refine Nat.le_trans ((h2 h0).2 (a * ((off + (a - 1)) / a)) (Nat.dvd_mul_right ..) ?_) (Nat.mul_div_le ..)
    have := Nat.div_add_mod (off + (a - 1)) a
    have := Nat.mod_lt (off + (a - 1)) h0
    omega

theorem placed_le {b cur : Nat} {items : List (Nat × Nat)} {os : List Nat} {e : Nat} (h : Placed cur items os e)
    (hb : ∀ x ∈ items, x.1 ≤ b) : e ≤ cur + (items.map Prod.snd).sum + items.length * (b - 1) := by
  induction h with
  | nil => simp
  | cons hn _ ih =>
    have h1 := next_le hn
    have h2 := hb _ (List.mem_cons_self ..)
    have h3 := ih fun x hx => hb x (List.mem_cons_of_mem _ hx)
    simp only [List.map_cons, List.sum_cons, List.length_cons, Nat.succ_mul] at h2 ⊢
    omega

theorem placed_ge {cur : Nat} {items : List (Nat × Nat)} {os : List Nat} {e : Nat} (h : Placed cur items os e) :
    cur + (items.map Prod.snd).sum ≤ e := by
  induction h with
  | nil => simp
  | cons hn _ ih =>
    have := hn.1
    simp only [List.map_cons, List.sum_cons]
    omega

/-- C46: a derived struct is larger than its fields together by at most 31 bytes for each field and 31 at the end. -/
theorem C46_overhead {tg : Target} (htg : tg.Valid) {env : ForeignEnv} {l : Layout} {name : String}
    {fs : List (String × Ty)} {i : Impl} (h : resolve tg env l (.struct name fs) = some i)
    {is : List Impl} (his : fs.map (fun f => resolve tg env l f.2) = is.map some) :
    (is.map fun j => j.out.size tg).sum ≤ i.out.size tg ∧
      i.out.size tg ≤ (is.map fun j => j.out.size tg).sum + 31 * (fs.length + 1) := by
  obtain ⟨is', offs', fin, h1, h2, h3, -⟩ := C03_placement htg h
  obtain rfl : is = is' := by
    have := his.symm.trans h1
    exact (List.map_inj_right (fun _ _ => Option.some.inj)).1 this
  have hdyn := ((C30_compiles tg env l name fs).1 ⟨i, h⟩).2.1
  have hl : is.length = fs.length := by simpa using (congrArg List.length h1).symm
  have hb : ∀ x ∈ is.map fun j => (j.alignment, j.out.size tg), x.1 ≤ 32 := by
    intro x hx
    obtain ⟨j, hj, rfl⟩ := List.mem_map.1 hx
    have : some j ∈ fs.map fun f => resolve tg env l f.2 := h1 ▸ List.mem_map.2 ⟨j, hj, rfl⟩
    obtain ⟨f, hf, hr⟩ := List.mem_map.1 this
    have hd := C43_bound hr
    rw [if_neg (by simp [hdyn f hf])] at hd
    exact hd
  have hs := C43_bound h
  simp only [Ty.isDynamic, Bool.false_eq_true, if_false] at hs
  have a1 := placed_le h2 hb
  have a2 := placed_ge h2
  have a3 := next_le h3
  have a4 := h3.1
  have e1 : (is.map fun j => (j.alignment, j.out.size tg)).map Prod.snd = is.map fun j => j.out.size tg := by simp
  have e2 : (is.map fun j => (j.alignment, j.out.size tg)).length = fs.length := by simpa using hl
  rw [e1] at a1 a2
  rw [e2] at a1
  omega

/-- C46: a buffer is longer than what has been written to it by at most 255 bytes for each value, and by at most 31 if there is no
`DynamicUniform`. -/
theorem C46_writer_overhead {tg : Target} (htg : tg.Valid) {env : ForeignEnv} (henv : env.Lawful tg) {l : Layout}
    (xs : List (Item tg env l)) {σ ε : Type} {k : Sink σ ε} (hk : k.Lawful) {s : σ} {os : List Nat} {w' : Writer σ}
    (h : (Writer.new s).history k (xs.map Item.arg) = (os.map .ok, w')) :
    (xs.map fun x => x.bytes.length).sum ≤ w'.len ∧ w'.len ≤ (xs.map fun x => x.bytes.length).sum + 255 * xs.length ∧
      ((∀ x ∈ xs, x.ty.isDynamic = false) → w'.len ≤ (xs.map fun x => x.bytes.length).sum + 31 * xs.length) := by
  obtain ⟨hp, -⟩ := C18_history htg henv xs hk h
  have hb : ∀ x : Item tg env l, if x.ty.isDynamic then x.impl.alignment = 256 else x.impl.alignment ≤ 32 := fun x =>
    C43_bound x.resolves
  have e1 : (xs.map fun x => (x.impl.alignment, x.bytes.length)).map Prod.snd = xs.map fun x => x.bytes.length := by simp
  have a2 := placed_ge hp
  rw [e1] at a2
  refine ⟨by omega, ?_, fun hd => ?_⟩
  · have a1 := placed_le (b := 256) hp fun y hy => by
      obtain ⟨x, -, rfl⟩ := List.mem_map.1 hy
      have := hb x
      split at this <;> simp only <;> omega
    rw [e1, List.length_map] at a1
    omega
  · have a1 := placed_le (b := 32) hp fun y hy => by
      obtain ⟨x, hx, rfl⟩ := List.mem_map.1 hy
      have := hb x
      rw [if_neg (by simp [hd x hx])] at this
      exact this
    rw [e1, List.length_map] at a1
    omega

/-- Admissible layouts exist, also ones that waste space. -/
example : Admissible 0 [(16, 12), (4, 4), (16, 16)] [16, 32, 64] 96 := by
  refine .cons ?_ ?_ (.cons ?_ ?_ (.cons ?_ ?_ (.nil ?_))) <;> omega

end Crevice
