import Verif.Proof.Block
import Verif.Proof.AlignBound
import Verif.Props.C17_C20
/-
C41 buffers written by a Writer read back, C42 written bytes can be cast in place.
-/
namespace Crevice

variable {tg : Target} {env : ForeignEnv} {l : Layout}

/-! ## C41 -/

/-- `T::from_stdN(*bytemuck::from_bytes(&buf[off..off + size_of::<T::Output>()]))`. -/
def readAt (tg : Target) (i : Impl) (buf : List Byte) (off : Nat) : Option RVal :=
  (decode tg i.out ((buf.drop off).take (i.out.size tg))).bind i.fromStd

theorem Item.readAt (htg : tg.Valid) (henv : env.Lawful tg) (x : Item tg env l) {buf : List Byte}
    {off : Nat} (hs : SliceAt buf off x.bytes) : readAt tg x.impl buf off = some x.val := by
  obtain ⟨o, bs, h1, h2, h3, h4⟩ := C11_byte_round_trip htg henv x.resolves x.hasVal
  have hb := x.bytes_eq
  rw [h1, Option.bind_some, h2, Option.some.injEq] at hb
  subst hb
  rw [Crevice.readAt, ← x.length htg henv, hs, h3, Option.bind_some, h4]

/-- C41: after any sequence of successful writes, reading the buffer back in Rust at the offsets that
`write` returned gives the written values, and so does a shader reading it there. -/
theorem C41_read_back (htg : tg.Valid) (henv : env.Lawful tg) (xs : List (Item tg env l)) {σ ε : Type}
    {k : Sink σ ε} (hk : k.Lawful) {s : σ} {os : List Nat} {w' : Writer σ}
    (h : (Writer.new s).history k (xs.map Item.arg) = (os.map .ok, w')) :
    ∃ buf, k.delivered w'.sink = k.delivered s ++ buf ∧ buf.length = w'.len ∧
      os.length = xs.length ∧
      ∀ m (hm : m < xs.length) (hm' : m < os.length),
        readAt tg xs[m].impl buf os[m] = some xs[m].val ∧
        ∀ g, xs[m].ty.glsl = some g → ∃ d, xs[m].ty.denote env xs[m].val = some d ∧
          Glsl.read tg.endian l g buf os[m] = some d := by
  obtain ⟨hp, buf, h1, h2, h3, -⟩ := C18_history htg henv xs hk h
  refine ⟨buf, h1, h2, by simpa using hp.length, fun m hm hm' => ⟨?_, fun g hg => ?_⟩⟩
  · exact xs[m].readAt htg henv (h3 m hm hm')
  · obtain ⟨hr, d, hd⟩ := xs[m].read htg henv hg (h3 m hm hm')
    exact ⟨d, hd, by rw [hr, hd]⟩

/-- C41 for slices, from any state of the Writer: every element can be read back, at the offsets of
an array laid out from `len()` on. -/
theorem C41_slice_read_back (htg : tg.Valid) (henv : env.Lawful tg) (xs : List (Item tg env l))
    {σ ε : Type} {k : Sink σ ε} (hk : k.Lawful) {w w' : Writer σ} {o : Nat}
    (h : w.write k (.slice (xs.map Item.arg)) = (.ok o, w')) :
    ∃ offs buf, Placed w.len (xs.map fun x => (x.impl.alignment, x.impl.out.size tg)) offs w'.len ∧
      k.delivered w'.sink = k.delivered w.sink ++ buf ∧ w.len + buf.length = w'.len ∧
      offs.headD w.len = o ∧
      ∀ m (hm : m < xs.length) (hm' : m < offs.length), w.len ≤ offs[m] ∧
        readAt tg xs[m].impl buf (offs[m] - w.len) = some xs[m].val := by
  obtain ⟨offs, buf, hp, h1, h2, h3, -⟩ := C20_each_once hk (items_wf htg henv xs) h
  rw [items_leaves, List.map_map] at hp
  have hp' : Placed w.len (xs.map fun x => (x.impl.alignment, x.impl.out.size tg)) offs w'.len := by
    have he : (xs.map fun x => (x.impl.alignment, x.impl.out.size tg)) =
        xs.map ((fun x => (x.alignment, x.bytes.length)) ∘ Item.std) :=
      List.map_congr_left fun x _ => by rw [← x.length htg henv]; rfl
    rw [he]; exact hp
  refine ⟨offs, buf, hp', h1, h2, ?_, ?_⟩
  · obtain ⟨os, hos, ho⟩ := (C20_elementwise k w w' _ o).1 h
    obtain ⟨hr, -, -⟩ := history_ok hk (items_wf htg henv xs) hos
    rw [items_returned] at hr
    have := (placed_places w.offset (xs.map Item.std)).unique (by rw [List.map_map]; exact hp)
    rw [ho, hr, ← this.1]
  · intro m hm hm'
    have hl : (leavesList (xs.map Item.arg)).length = xs.length := by simp [items_leaves]
    obtain ⟨a, b⟩ := h3 m (by omega) hm'
    refine ⟨a, xs[m].readAt htg henv ?_⟩
    have he : (leavesList (xs.map Item.arg))[m]'(by omega) = xs[m].std := by
      simp [items_leaves]
    rw [he] at b
    exact b

/-- The hypotheses of C41 can be met, and the values are not at offset 0: three `Light`s. -/
example : ∃ (x : Item x86_64 Ex.env .std140) (w' : Writer (List Byte)), x.val = Ex.lightVal ∧
    (Writer.new []).history (vecSink Unit) ([x, x, x].map Item.arg) =
      ([0, 96, 192].map .ok, w') := by
  obtain ⟨i, hi⟩ := Ex.light_resolves x86_64 .std140
  obtain ⟨x, h1, h2, h3⟩ := Item.exists Ex.x86_64_valid Ex.env_lawful hi (Ex.light_hasVal _)
  obtain ⟨w', h, _⟩ := history_infallible (vecSink_infallible Unit) (Writer.new [])
    (items_wf Ex.x86_64_valid Ex.env_lawful [x, x, x])
  refine ⟨x, w', h2, ?_⟩
  rw [h, items_returned]
  have ha : x.impl.alignment = 16 ∧ x.impl.out.size x86_64 = 96 := by
    have : (resolve x86_64 Ex.env .std140 Ex.light).map
      (fun i => (i.alignment, i.out.size x86_64)) = some (16, 96) := by decide
    rw [hi] at this
    rw [h3]
    simpa using this
  have hb := x.length Ex.x86_64_valid Ex.env_lawful
  rw [ha.2] at hb
  simp [places, nextOffset, Item.std, ha.1, hb, Writer.new, Glsl.roundUp]

/-! ## C42 -/

theorem natAlign_le_8 (t : RTy) : t.natAlign ≤ 8 := by
  induction t using RTy.ind with
  | hs s => cases s <;> decide
  | hb => decide
  | ha t n ih => simpa [RTy.natAlign] using ih
  | hn t ih => simpa [RTy.natAlign] using ih
  | hst fs ih =>
    simp only [RTy.natAlign]
    induction fs with
    | nil => decide
    | cons f r ihr =>
      obtain ⟨n, t⟩ := f
      have h1 := ih (n, t) (by simp)
      have h2 := ihr fun g hg => ih g (List.mem_cons_of_mem _ hg)
      simp only [natAlignFields]
      simp only at h1
      omega

/-- C42: the Rust alignment (`align_of`) of an Output type divides its ALIGNMENT, and divides 8. -/
theorem C42_align_of (htg : tg.Valid) {t : Ty} {i : Impl} (h : resolve tg env l t = some i) :
    i.out.align tg ∣ i.alignment ∧ i.out.align tg ∣ 8 := by
  have h1 := align_dvd_natAlign htg i.out
  refine ⟨?_, Nat.dvd_trans h1 ((isPow2_natAlign _).dvd_of_le isPow2_8 (natAlign_le_8 _))⟩
  rcases (good_resolve htg h).al with ⟨-, h2⟩ | ⟨h2, -, -⟩
  · exact Nat.dvd_trans h1 h2
  · rw [h2]; exact Nat.dvd_zero _

/-- `bytemuck::try_from_bytes::<T>` on the bytes `bs` at the address `addr`: fails unless the address
is aligned for `T` and the length is `size_of::<T>()`. -/
def tryFromBytes (tg : Target) (t : RTy) (addr : Nat) (bs : List Byte) : Option RVal :=
  if addr % t.align tg = 0 ∧ bs.length = t.size tg then decode tg t bs else none

/-- C42: in a buffer whose address is a multiple of 8, the values that a Writer has written can be
viewed in place as values of the Output types, at the offsets that `write` returned: the view is
neither misaligned nor of the wrong length, and it is the converted value. -/
theorem C42_cast_in_place (htg : tg.Valid) (henv : env.Lawful tg) (xs : List (Item tg env l))
    {σ ε : Type} {k : Sink σ ε} (hk : k.Lawful) {s : σ} {os : List Nat} {w' : Writer σ}
    (h : (Writer.new s).history k (xs.map Item.arg) = (os.map .ok, w')) {base : Nat}
    (hbase : 8 ∣ base) :
    ∃ buf, k.delivered w'.sink = k.delivered s ++ buf ∧
      ∀ m (hm : m < xs.length) (hm' : m < os.length), ∃ o,
        xs[m].impl.asStd xs[m].val = some o ∧
        tryFromBytes tg xs[m].impl.out (base + os[m])
          ((buf.drop os[m]).take (xs[m].impl.out.size tg)) = some o := by
  obtain ⟨hp, buf, h1, h2, h3, -⟩ := C18_history htg henv xs hk h
  refine ⟨buf, h1, fun m hm hm' => ?_⟩
  obtain ⟨o, bs, g1, g2, g3, -⟩ := C11_byte_round_trip htg henv xs[m].resolves xs[m].hasVal
  have hb := xs[m].bytes_eq
  rw [g1, Option.bind_some, g2, Option.some.injEq] at hb
  subst hb
  refine ⟨o, g1, ?_⟩
  have hs := h3 m hm hm'
  rw [SliceAt, xs[m].length htg henv] at hs
  have hd : xs[m].impl.out.align tg ∣ base + os[m] := by
    obtain ⟨a1, a2⟩ := C42_align_of htg xs[m].resolves
    refine Nat.dvd_add (Nat.dvd_trans a2 hbase) ?_
    rcases (good_resolve htg xs[m].resolves).al with ⟨g4, -⟩ | ⟨-, g5, -⟩
    · have := hp.aligned m (by simpa using hm) hm' (by simpa using g4.pos)
      simp only [List.getElem_map] at this
      exact Nat.dvd_trans a1 this
    · have := align_dvd_natAlign htg xs[m].impl.out
      rw [g5] at this
      exact Nat.dvd_trans this (Nat.one_dvd _)
  rw [tryFromBytes, hs, if_pos ⟨Nat.mod_eq_zero_of_dvd hd, xs[m].length htg henv⟩, g3]

/-- The alignments differ: `std430::DVec3` has ALIGNMENT 32, `align_of` 8 on x86_64 and 4 on i686; and
a misaligned view is refused. -/
example : ∃ i, resolve x86_64 Ex.env .std430 (.math ⟨.mint, .vector, .f64, 3⟩) = some i ∧
    i.alignment = 32 ∧ i.out.align x86_64 = 8 ∧ i.out.align i686 = 4 ∧
    (tryFromBytes x86_64 i.out 64 (List.replicate 24 0)).isSome = true ∧
    (tryFromBytes x86_64 i.out 68 (List.replicate 24 0)).isSome = false := by
  refine ⟨_, rfl, ?_, ?_, ?_, ?_, ?_⟩ <;> decide

end Crevice
