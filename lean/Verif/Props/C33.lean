import Verif.Proof.Usize
import Verif.Proof.AlignBound
import Verif.Proof.Item
import Verif.Props.Examples
/-
C33: machine words. The other files compute in `Nat`; here the same functions compute in `w`-bit
words, with overflow checks (`Checks.on`, a panic is `none`) and without (`Checks.off`, wrapping).
-/
namespace Crevice

/-- C33, `align_offset`: it never panics (no division by zero, no underflow), with or without
overflow checks, and its result is the distance to the next multiple of the alignment. -/
theorem C33_align_offset {w : Nat} (m : Checks) (o a : BitVec w) :
    ∃ r, alignOffsetU m o a = some r ∧ IsNext a.toNat o.toNat (o.toNat + r.toNat) := by
  refine ⟨_, alignOffsetU_eq m o a, ?_⟩
  rw [toNat_ofNat_lt (alignOffset_lt_of a.isLt), ← nextOffset_eq]
  exact isNext_nextOffset _ _

/-- Non-trivial at the edge: the distance from 2^16 - 1 to the next multiple of 256. -/
example : alignOffsetU .on (65535 : BitVec 16) 256 = some 1 := by decide

/-- C33, `max`: the larger of the two. -/
theorem C33_max {w : Nat} (a b : BitVec w) : (constMaxU a b).toNat = max a.toNat b.toNat := by
  unfold constMaxU
  split
  · rename_i h; have := BitVec.lt_def.1 h; omega
  · rename_i h
    have : ¬ b.toNat < a.toNat := fun h' => h (BitVec.lt_def.2 h')
    omega

/-- C33, `max_arr`: the loop ends, never panics and returns the greatest element, or 0 for an empty
array. (An array has less than `2 ^ w` elements.) -/
theorem C33_max_arr {w : Nat} (m : Checks) (input : List (BitVec w)) (hlen : input.length < 2 ^ w) :
    ∃ r, maxArrU m input = some r ∧ (∀ x ∈ input, x.toNat ≤ r.toNat) ∧
      (r ∈ input ∨ (input = [] ∧ r = 0)) := by
  refine ⟨_, maxArrU_eq m input hlen, ?_⟩
  have hcases : maxArr (input.map BitVec.toNat) ∈ input.map BitVec.toNat ∨ input = [] := by
    by_cases h : input = []
    · exact .inr h
    · exact .inl (maxArr_mem (by simpa using h))
  rcases hcases with h | h
  · obtain ⟨y, hy, he⟩ := List.mem_map.1 h
    have hr : BitVec.ofNat w (maxArr (input.map BitVec.toNat)) = y := by rw [← he]; simp
    refine ⟨?_, .inl (by rw [hr]; exact hy)⟩
    intro x hx
    rw [hr, he]
    exact le_maxArr (List.mem_map.2 ⟨x, hx, rfl⟩)
  · subst h
    refine ⟨by simp, .inr ⟨rfl, rfl⟩⟩

example : maxArrU .on [3, 200, 7, (16 : BitVec 8)] = some 200 := by decide

/-! ### Writer -/

/-- C33, Writer with overflow checks: a whole history of writes to any lawful sink, in which some
writes may fail. If the mathematical `len()` at the end fits into a word, there is no panic, all
results are the mathematical ones and so are sink and `len()`. Otherwise the program panics, having
delivered a prefix of the bytes. -/
theorem C33_writer_checked {w : Nat} {σ ε : Type} {k : Sink σ ε} (hk : k.Lawful) (s : σ)
    (vs : List WVal) (hf : ∀ v ∈ vs, ∀ x ∈ v.leaves, x.alignment < 2 ^ w ∧ x.size < 2 ^ w) :
    (((Writer.new s).history k vs).2.len < 2 ^ w →
      ((WriterU.new w s).history .on k vs).1 =
        some (((Writer.new s).history k vs).1.map (Except.map (BitVec.ofNat w))) ∧
      ((WriterU.new w s).history .on k vs).2.sink = ((Writer.new s).history k vs).2.sink ∧
      ((WriterU.new w s).history .on k vs).2.offset.toNat = ((Writer.new s).history k vs).2.len) ∧
    (2 ^ w ≤ ((Writer.new s).history k vs).2.len →
      ((WriterU.new w s).history .on k vs).1 = none ∧
      k.delivered ((WriterU.new w s).history .on k vs).2.sink <+:
        k.delivered ((Writer.new s).history k vs).2.sink) := by
  have hpos : 0 < 2 ^ w := Nat.two_pow_pos w
  have h := history_on hk vs hf (u := WriterU.new w s) (x := Writer.new s) ⟨rfl, rfl⟩ hpos
  constructor
  · intro hlt
    rw [if_pos (show ((Writer.new s).history k vs).2.offset < 2 ^ w from hlt)] at h
    exact ⟨h.1, h.2.1, by rw [h.2.2]; exact toNat_ofNat_lt hlt⟩
  · intro hle
    rw [if_neg (show ¬ ((Writer.new s).history k vs).2.offset < 2 ^ w from Nat.not_lt.2 hle)] at h
    exact h

/-- C33: when nothing overflows, overflow checks make no difference. -/
theorem C33_writer_unchecked {w : Nat} {σ ε : Type} {k : Sink σ ε} (hk : k.Lawful) (s : σ)
    (vs : List WVal) (hf : ∀ v ∈ vs, ∀ x ∈ v.leaves, x.alignment < 2 ^ w ∧ x.size < 2 ^ w)
    (hfit : ((Writer.new s).history k vs).2.len < 2 ^ w) :
    (WriterU.new w s).history .off k vs = (WriterU.new w s).history .on k vs := by
  apply history_mode
  rw [((C33_writer_checked hk s vs hf).1 hfit).1]
  simp

/-- C33, Writer without overflow checks and alignments that are powers of two (or 0): even when
`len()` overflows, the sink receives exactly what it would receive mathematically, and all offsets
and `len()` are the mathematical ones modulo `2 ^ w`. -/
theorem C33_writer_wrapping {w : Nat} {σ ε : Type} (k : Sink σ ε) (s : σ) (vs : List WVal)
    (hf : ∀ v ∈ vs, ∀ x ∈ v.leaves, ((∃ j, x.alignment = 2 ^ j) ∨ x.alignment = 0) ∧
      x.alignment < 2 ^ w ∧ x.size < 2 ^ w) :
    ((WriterU.new w s).history .off k vs).1 =
      some (((Writer.new s).history k vs).1.map (Except.map (BitVec.ofNat w))) ∧
    ((WriterU.new w s).history .off k vs).2.sink = ((Writer.new s).history k vs).2.sink ∧
    ((WriterU.new w s).history .off k vs).2.offset.toNat =
      ((Writer.new s).history k vs).2.len % 2 ^ w := by
  have h := history_off (w := w) k vs ?_ (u := WriterU.new w s) (x := Writer.new s) ⟨rfl, rfl⟩
  · exact ⟨h.1, h.2.1, by rw [h.2.2, BitVec.toNat_ofNat]; rfl⟩
  · intro v hv x hx
    obtain ⟨h1, h2, h3⟩ := hf v hv x hx
    refine ⟨⟨h2, h3⟩, ?_⟩
    rcases h1 with h1 | h1
    · exact .inl (IsPow2.dvd_of_le h1 ⟨w, rfl⟩ (Nat.le_of_lt h2))
    · exact .inr h1

/-- C33: the conditions on alignments hold for every convertible type when addresses have at least 9
bits: ALIGNMENT is a power of two (or 0) and at most 256. -/
theorem C33_alignments {tg : Target} (htg : tg.Valid) {env : ForeignEnv} {l : Layout} {t : Ty}
    {i : Impl} (h : resolve tg env l t = some i) :
    ((∃ j, i.alignment = 2 ^ j) ∨ i.alignment = 0) ∧ i.alignment ≤ 256 := by
  refine ⟨?_, align_le_256 h⟩
  rcases (good_resolve htg h).al with hp | ⟨h0, _⟩
  · exact .inl hp.1
  · exact .inr h0

/-- C33 for values of convertible types: with sizes that exist on the target, both theorems above
apply. -/
theorem C33_items {tg : Target} (htg : tg.Valid) {env : ForeignEnv} {l : Layout}
    (xs : List (Item tg env l)) {w : Nat} (hw : 256 < 2 ^ w)
    (hs : ∀ x ∈ xs, x.impl.out.size tg < 2 ^ w) :
    ∀ v ∈ xs.map Item.arg, ∀ x ∈ v.leaves, ((∃ j, x.alignment = 2 ^ j) ∨ x.alignment = 0) ∧
      x.alignment < 2 ^ w ∧ x.size < 2 ^ w := by
  intro v hv x hx
  obtain ⟨y, hy, rfl⟩ := List.mem_map.1 hv
  rw [y.arg_std] at hx
  simp only [WVal.leaves, List.mem_singleton] at hx
  subst hx
  obtain ⟨h1, h2⟩ := C33_alignments htg y.resolves
  exact ⟨h1, Nat.lt_of_le_of_lt h2 hw, hs y hy⟩

/-- Both cases occur: on a machine with 8-bit addresses, the third write of a 100-byte value panics
with overflow checks, and goes to offset 224 and wraps `len()` to 68 without. -/
example : ∀ v : StdVal, v = ⟨16, 100, List.replicate 100 7⟩ →
    ((WriterU.new 8 []).history .on (vecSink Unit) [.std v, .std v]).1 = some [.ok 0, .ok 112] ∧
    ((WriterU.new 8 []).history .on (vecSink Unit) [.std v, .std v, .std v]).1 = none ∧
    ((WriterU.new 8 []).history .off (vecSink Unit) [.std v, .std v, .std v]).1 =
      some [.ok 0, .ok 112, .ok 224] ∧
    ((WriterU.new 8 []).history .off (vecSink Unit) [.std v, .std v, .std v]).2.offset = 68 := by
  rintro v rfl
  exact ⟨rfl, rfl, rfl, rfl⟩

/-! ### Sizer -/

/-- C33, Sizer with overflow checks: the mathematical offsets if the total fits into a word, a panic
otherwise. -/
theorem C33_sizer_checked {w : Nat} (tg : Target) (is : List Impl)
    (hf : ∀ i ∈ is, i.alignment < 2 ^ w ∧ i.out.size tg < 2 ^ w) :
    ((Sizer.new.addAll tg is).2.len < 2 ^ w →
      ∃ u : SizerU w, (SizerU.new w).addAll .on tg is =
        some ((Sizer.new.addAll tg is).1.map (BitVec.ofNat w), u) ∧
        u.offset.toNat = (Sizer.new.addAll tg is).2.len ∧
        (SizerU.new w).addAll .off tg is = (SizerU.new w).addAll .on tg is) ∧
    (2 ^ w ≤ (Sizer.new.addAll tg is).2.len → (SizerU.new w).addAll .on tg is = none) := by
  have hpos : 0 < 2 ^ w := Nat.two_pow_pos w
  have h := sizerAddAll_on tg is hf (u := SizerU.new w) (x := Sizer.new) rfl hpos
  constructor
  · intro hlt
    rw [if_pos (show (Sizer.new.addAll tg is).2.offset < 2 ^ w from hlt)] at h
    exact ⟨_, h, toNat_ofNat_lt hlt, by rw [sizerAddAll_mode tg is _ h, h]⟩
  · intro hle
    rw [if_neg (show ¬ (Sizer.new.addAll tg is).2.offset < 2 ^ w from Nat.not_lt.2 hle)] at h
    exact h

/-- C33, Sizer without overflow checks: everything modulo `2 ^ w`. -/
theorem C33_sizer_wrapping {w : Nat} {tg : Target} (is : List Impl)
    (hf : ∀ i ∈ is, ((∃ j, i.alignment = 2 ^ j) ∨ i.alignment = 0) ∧ i.alignment < 2 ^ w ∧
      i.out.size tg < 2 ^ w) :
    ∃ u : SizerU w, (SizerU.new w).addAll .off tg is =
        some ((Sizer.new.addAll tg is).1.map (BitVec.ofNat w), u) ∧
      u.offset.toNat = (Sizer.new.addAll tg is).2.len % 2 ^ w := by
  have h := sizerAddAll_off (w := w) tg is ?_ (u := SizerU.new w) (x := Sizer.new) rfl
  · exact ⟨_, h, by rw [BitVec.toNat_ofNat]; rfl⟩
  · intro i hi
    obtain ⟨h1, h2, h3⟩ := hf i hi
    refine ⟨⟨h2, h3⟩, ?_⟩
    rcases h1 with h1 | h1
    · exact .inl (IsPow2.dvd_of_le h1 ⟨w, rfl⟩ (Nat.le_of_lt h2))
    · exact .inr h1

/-! ### Constants of derived structs -/

theorem natSize_gen {tg : Target} (htg : tg.Valid) {sal : Nat} {fs : List (String × Impl)}
    (hg : ∀ f ∈ fs, Good f.2) (k : Nat) (hk : k ≤ fs.length) :
    offs tg sal fs k + natSizeFields (genFields tg sal k (offs tg sal fs k) (fs.drop k)) =
      offs tg sal fs fs.length := by
  have : ∀ m k, m + k = fs.length →
      offs tg sal fs k + natSizeFields (genFields tg sal k (offs tg sal fs k) (fs.drop k)) =
        offs tg sal fs fs.length := by
    intro m
    induction m with
    | zero =>
      intro k hk
      have hk : k = fs.length := by omega
      rw [List.drop_eq_nil_of_le (by omega), hk]
      simp [genFields, natSizeFields]
    | succ m ih =>
      intro k hk
      have hlt : k < fs.length := by omega
      have h := ih (k + 1) (by omega)
      rw [← h, List.drop_eq_getElem_cons hlt, genFields, offs_succ hlt]
      simp only [natSizeFields, RTy.natSize, Scalar.size, Nat.one_mul,
        ← size_eq_natSize htg (hg fs[k] (List.getElem_mem hlt)).packed, padAt,
        List.getElem?_eq_getElem hlt]
      omega
  exact this (fs.length - k) k (by omega)

/-- C33, constants of a derived struct: if the generated struct's size fits into a word, the padding
functions and ALIGNMENT computed in words (with or without overflow checks, so also at compile time)
are the mathematical ones, and none of the computations panics. -/
theorem C33_consts {tg : Target} (htg : tg.Valid) {env : ForeignEnv} {l : Layout} {name : String}
    {fs : List (String × Ty)} {i : Impl} (h : resolve tg env l (.struct name fs) = some i)
    {is : List (String × Impl)} (hr : resolveFields tg env l fs = some is) {g : Generated Impl}
    (hg : emitLayout l { ident := name, data := .structNamed is } = .ok g)
    {w : Nat} (hw : 256 < 2 ^ w) (hsz : i.out.size tg < 2 ^ w) (hlen : fs.length + 1 < 2 ^ w)
    (m : Checks) :
    (∀ p ∈ g.padFns, ∃ n, g.call tg p.1 = some n ∧ n < 2 ^ w ∧
      g.callU m tg p.1 = some (BitVec.ofNat w n)) ∧
    i.alignment < 2 ^ w ∧
    g.alignment.evalWithU m tg (g.callU m tg) = some (BitVec.ofNat w i.alignment) := by
  obtain ⟨is', hr', hok, rfl⟩ := resolve_struct h
  rw [hr] at hr'; cases hr'
  have ha := resolveFields_all2 hr
  have hgood : ∀ f ∈ is, Good f.2 := ha.forall_right fun f hf g _ hfg => good_resolve htg hfg.2
  have h256 : ∀ f ∈ is, f.2.alignment ≤ 256 :=
    ha.forall_right fun f hf g _ hfg => align_le_256 hfg.2
  have hislen : is.length = fs.length := ha.length.symm
  have hpk := (good_record htg (l := l) hgood).packed
  have htot : (recordImpl (genFields tg (structAl l is) 0 0 is) (structAl l is) is).out.size tg =
      offs tg (structAl l is) is is.length := by
    rw [size_eq_natSize htg hpk, ← natSize_gen htg hgood 0 (by omega)]
    simp [recordImpl, RTy.natSize, offs]
  rw [htot] at hsz
  have h16 : 16 < 2 ^ w := by omega
  have hfit : FieldsFit w tg is := by
    refine ⟨by omega, ?_⟩
    intro f hf
    refine ⟨Nat.lt_of_le_of_lt (h256 f hf) hw, ?_⟩
    obtain ⟨k, hk, rfl⟩ := List.getElem_of_mem hf
    have hle := offs_mono (tg := tg) (sal := structAl l is) (fs := is) (j := k + 1)
      (k := is.length) (by omega) (Nat.le_refl _)
    rw [offs_succ hk] at hle
    omega
  obtain ⟨g', hg', -, hpf, -, hal, -, -⟩ := emitLayout_ok l name is
  rw [hg] at hg'; cases hg'
  have hplen : g.padFns.length = is.length := by simp [hpf]
  have hl : ∀ j (hj : j < is.length), g.padFns.lookup (padFnName l name j) =
      some (padBody l is (padFnNames l name is.length) j hj) := by
    intro j hj
    rw [hpf, lookup_padFns hj, dif_pos hj]
  refine ⟨?_, structAl_lt h16 hfit, ?_⟩
  · intro p hp
    rw [hpf] at hp
    obtain ⟨j, hj, rfl⟩ := List.mem_map.1 hp
    have hj : j < is.length := List.mem_range.1 hj
    have hle := offs_mono (tg := tg) (sal := structAl l is) (fs := is) (j := j + 1)
      (k := is.length) (by omega) (Nat.le_refl _)
    rw [offs_succ hj] at hle
    refine ⟨padAt tg (structAl l is) is j, ?_, by omega, ?_⟩
    · rw [Generated.call, hplen]
      exact evalFn_pad hl hj hj
    · rw [Generated.callU, hplen]
      exact evalFnU_pad h16 hfit hsz hl hj hj
  · rw [hal]
    exact evalU_structAlignment m tg _ l is h16 hfit

/-- The hypotheses hold for `Light` on a 16-bit target. -/
example : ∃ is i g, resolveFields x86_64 Ex.env .std140
      [("position", Ex.vec3), ("intensity", Ex.f32), ("enabled", .bool), ("basis", Ex.mat3)] = some is ∧
    resolve x86_64 Ex.env .std140 (.struct "L"
      [("position", Ex.vec3), ("intensity", Ex.f32), ("enabled", .bool), ("basis", Ex.mat3)]) = some i ∧
    emitLayout .std140 { ident := "L", data := .structNamed is } = .ok g ∧
    i.out.size x86_64 < 2 ^ 16 ∧
    (g.padFns.map fun p => g.callU (w := 16) .on x86_64 p.1) =
      [some 0, some 0, some 12, some 0] := by
  exact ⟨_, _, _, rfl, rfl, rfl, by decide, by decide⟩

/-! ### stdN_size -/

theorem leavesList_mem {xs : List WVal} {v : WVal} {x : StdVal} (hv : v ∈ xs) (hx : x ∈ v.leaves) :
    x ∈ leavesList xs := by
  induction xs with
  | nil => simp at hv
  | cons y r ih =>
    simp only [leavesList, List.mem_append]
    rcases List.mem_cons.1 hv with rfl | hv
    · exact .inl hx
    · exact .inr (ih hv)

theorem size_slice {w : Nat} {xs : List WVal} (hwf : ∀ x ∈ xs, x.Wf)
    (hf : ∀ v ∈ xs, ∀ x ∈ v.leaves, ((∃ j, x.alignment = 2 ^ j) ∨ x.alignment = 0) ∧
      x.alignment < 2 ^ w ∧ x.size < 2 ^ w) :
    ∃ n, (WVal.slice xs).stdSize = some n ∧
      (n < 2 ^ w → ∃ r, (WVal.slice xs).stdSizeU w .on = some r ∧ r.toNat = n) ∧
      (2 ^ w ≤ n → (WVal.slice xs).stdSizeU w .on = none) ∧
      ∃ r, (WVal.slice xs).stdSizeU w .off = some r ∧ r.toNat = n % 2 ^ w := by
  have hk := nullSink_lawful Unit
  obtain ⟨w', hw, -⟩ := write_infallible (nullSink_infallible Unit) (Writer.new []) (wf_slice hwf)
  have hist : (Writer.new []).history (nullSink Unit) [.slice xs] =
      ([.ok ((WVal.slice xs).firstOffset 0)], w') := by
    simp only [Writer.history, hw]; rfl
  have hf' : ∀ v ∈ [WVal.slice xs], ∀ x ∈ v.leaves, ((∃ j, x.alignment = 2 ^ j) ∨ x.alignment = 0) ∧
      x.alignment < 2 ^ w ∧ x.size < 2 ^ w := by
    intro v hv x hx
    rw [List.mem_singleton] at hv
    subst hv
    rw [WVal.leaves] at hx
    obtain ⟨v, hv, hx⟩ := mem_leavesList hx
    exact hf v hv x hx
  have single : ∀ m : Checks, (WVal.slice xs).stdSizeU w m =
      match (WriterU.new w []).history m (nullSink Unit) [.slice xs] with
      | (some [.ok _], u) => some u.offset
      | _ => none := by
    intro m
    simp only [WVal.stdSizeU, WriterU.history]
    rcases (WriterU.new w []).write m (nullSink Unit) (.slice xs) with ⟨_ | (e | o), u⟩ <;> rfl
  obtain ⟨c1, c2⟩ := C33_writer_checked (w := w) hk [] [.slice xs] fun v hv x hx => (hf' v hv x hx).2
  obtain ⟨d1, -, d3⟩ := C33_writer_wrapping (w := w) (nullSink Unit) [] [.slice xs] hf'
  rw [hist] at c1 c2 d1 d3
  refine ⟨w'.len, by simp only [WVal.stdSize, hw], fun h => ?_, fun h => ?_, ?_⟩
  · obtain ⟨e1, -, e3⟩ := c1 h
    refine ⟨_, ?_, e3⟩
    rw [single]
    rcases hh : (WriterU.new w []).history .on (nullSink Unit) [.slice xs] with ⟨r, u⟩
    rw [hh] at e1
    simp only at e1
    subst e1
    rfl
  · obtain ⟨e1, -⟩ := c2 h
    rw [single]
    rcases hh : (WriterU.new w []).history .on (nullSink Unit) [.slice xs] with ⟨r, u⟩
    rw [hh] at e1
    simp only at e1
    subst e1
    rfl
  · refine ⟨_, ?_, d3⟩
    rw [single]
    rcases hh : (WriterU.new w []).history .off (nullSink Unit) [.slice xs] with ⟨r, u⟩
    rw [hh] at d1
    simp only at d1
    subst d1
    rfl

/-- C33, `stdN_size`: with overflow checks it is the mathematical size if that fits into a word and a
panic otherwise; without them it is the mathematical size modulo `2 ^ w`. (So with the checks off a
wrapped size of a slice may be smaller than what a Writer then delivers.) -/
theorem C33_size {w : Nat} {v : WVal} (hwf : v.Wf)
    (hf : ∀ x ∈ v.leaves, ((∃ j, x.alignment = 2 ^ j) ∨ x.alignment = 0) ∧
      x.alignment < 2 ^ w ∧ x.size < 2 ^ w) :
    ∃ n, v.stdSize = some n ∧
      (n < 2 ^ w → ∃ r, v.stdSizeU w .on = some r ∧ r.toNat = n) ∧
      (2 ^ w ≤ n → v.stdSizeU w .on = none) ∧
      ∃ r, v.stdSizeU w .off = some r ∧ r.toNat = n % 2 ^ w := by
  cases v with
  | std x =>
    have hx := (hf x (by simp [WVal.leaves])).2.2
    refine ⟨x.size, rfl, fun h => ⟨_, rfl, toNat_ofNat_lt h⟩, fun h => by omega, _, rfl, ?_⟩
    rw [BitVec.toNat_ofNat]
  | slice xs =>
    refine size_slice ?_ ?_
    · intro v hv x hx
      exact hwf x (by rw [WVal.leaves]; exact leavesList_mem hv hx)
    · intro v hv x hx
      exact hf x (by rw [WVal.leaves]; exact leavesList_mem hv hx)

/-- With 8-bit words: 70 elements of 4 bytes need 280 bytes; a build without overflow checks says
24, one with them panics. -/
example : (WVal.slice (List.replicate 70 (.std ⟨4, 4, [1, 2, 3, 4]⟩))).stdSizeU 8 .off = some 24 ∧
    (WVal.slice (List.replicate 70 (.std ⟨4, 4, [1, 2, 3, 4]⟩))).stdSizeU 8 .on = none ∧
    (WVal.slice (List.replicate 60 (.std ⟨4, 4, [1, 2, 3, 4]⟩))).stdSizeU 8 .on = some 240 := by
  decide +kernel

end Crevice
