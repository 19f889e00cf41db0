import Verif.Proof.PlaceSpec
import Verif.Props.Examples
/-
C01 padding, C02 struct alignment, C03 field placement.
-/
namespace Crevice

/-! ## C01 -/

/-- C01: for every offset and alignment the padding brings the offset to the least multiple of the
alignment (none for alignment 0) and is smaller than a non-zero alignment. -/
theorem C01_padding (offset alignment : Nat) :
    IsNext alignment offset (offset + alignOffset offset alignment) ∧
      (0 < alignment → alignOffset offset alignment < alignment) :=
  ⟨isNext_alignOffset _ _, alignOffset_lt _ _⟩

/-- C01, read as a characterisation: any padding with these properties is the one inserted. -/
theorem C01_padding_unique (offset alignment p : Nat) (h : IsNext alignment offset (offset + p)) :
    p = alignOffset offset alignment := by
  have := h.unique (isNext_alignOffset offset alignment)
  omega

example : IsNext 16 20 32 ∧ alignOffset 20 16 = 12 ∧ ¬ IsNext 16 20 48 := by
  refine ⟨⟨by omega, by omega, fun _ => ⟨⟨2, rfl⟩, ?_⟩⟩, by decide, fun h => ?_⟩
  · rintro m ⟨k, rfl⟩ h; omega
  · have := (h.2.2 (by omega)).2 32 ⟨2, rfl⟩ (by omega); omega

/-! ## C02 -/

/-- The minimum ALIGNMENT of a struct that the layouts document. -/
def structMinimum : Layout → Nat
  | .std140 => 16
  | .std430 => 0

/-- C02 for the macro applied to fields with arbitrary implementations: ALIGNMENT is an upper bound
of the minimum and of all fields' ALIGNMENTs, and is one of them. -/
theorem C02_derive {tg : Target} {l : Layout} {name : String} {fields : List (String × Impl)}
    {i : Impl} (h : deriveImpl tg l name fields = some i) :
    structMinimum l ≤ i.alignment ∧ (∀ f ∈ fields, f.2.alignment ≤ i.alignment) ∧
      (i.alignment = structMinimum l ∨ ∃ f ∈ fields, i.alignment = f.2.alignment) := by
  have hm : structMinimum l = l.minStructAlignment := by cases l <;> rfl
  rw [deriveImpl_eq] at h
  split at h
  · simp only [Option.some.injEq] at h
    subst h
    rw [hm]
    have hal : (recordImpl (genFields tg (structAl l fields) 0 0 fields) (structAl l fields)
      fields).alignment = structAl l fields := rfl
    rw [hal]
    refine ⟨le_maxArr (by simp), fun f hf => le_structAl hf, ?_⟩
    have := maxArr_mem (l := l.minStructAlignment :: fields.map fun f => f.2.alignment) (by simp)
    rcases List.mem_cons.1 this with h | h
    · exact .inl h
    · obtain ⟨f, hf, he⟩ := List.mem_map.1 h
      exact .inr ⟨f, hf, he.symm⟩
  · simp at h

/-- C02: the same for every struct whose derive compiles. -/
theorem C02_struct_alignment {tg : Target} {env : ForeignEnv} {l : Layout} {name : String}
    {fs : List (String × Ty)} {i : Impl} (h : resolve tg env l (.struct name fs) = some i) :
    structMinimum l ≤ i.alignment ∧
      (∀ f ∈ fs, ∃ j, resolve tg env l f.2 = some j ∧ j.alignment ≤ i.alignment) ∧
      (i.alignment = structMinimum l ∨
        ∃ f ∈ fs, ∃ j, resolve tg env l f.2 = some j ∧ i.alignment = j.alignment) := by
  simp only [resolve, Option.bind_eq_some_iff] at h
  obtain ⟨is, his, h⟩ := h
  obtain ⟨h1, h2, h3⟩ := C02_derive h
  have ha := resolveFields_all2 his
  refine ⟨h1, fun f hf => ?_, ?_⟩
  · obtain ⟨j, hj, he, hr⟩ := ha.mem_left hf
    exact ⟨j.2, hr, h2 j hj⟩
  · rcases h3 with h3 | ⟨j, hj, he⟩
    · exact .inl h3
    · obtain ⟨f, hf, _, hr⟩ := ha.mem_right hj
      exact .inr ⟨f, hf, j.2, hr, he⟩

example (l : Layout) : ∃ i, resolve x86_64 Ex.env l Ex.light = some i := Ex.light_resolves _ _

/-- The alignment of the empty struct is the minimum, and that of a struct with a `dvec3` 32. -/
example : (∃ i, resolve x86_64 Ex.env .std140 (.struct "E" []) = some i ∧ i.alignment = 16) ∧
    (∃ i, resolve x86_64 Ex.env .std430 (.struct "D"
      [("a", .scalar .f32), ("b", .math ⟨.mint, .vector, .f64, 3⟩)]) = some i ∧ i.alignment = 32) := by
  refine ⟨⟨_, rfl, rfl⟩, ⟨_, rfl, rfl⟩⟩

/-! ## C03 -/

/-- C03 for the macro applied to fields with arbitrary implementations whose ALIGNMENT is a power of
two and a multiple of their Rust alignment (`Good`): the offsets rustc gives to the fields of the
generated `repr(C)` struct are the ones obtained by laying the fields out in order, each at the
least multiple of its ALIGNMENT, and the size is the next multiple of the struct's ALIGNMENT. -/
theorem C03_derive {tg : Target} (htg : tg.Valid) {l : Layout} {name : String}
    {fields : List (String × Impl)} (hgood : ∀ f ∈ fields, Good f.2) {i : Impl}
    (h : deriveImpl tg l name fields = some i) :
    ∃ offs fin, Placed 0 (fields.map fun f => (f.2.alignment, f.2.out.size tg)) offs fin ∧
      IsNext i.alignment fin (i.out.size tg) ∧
      ∀ k (hk : k < fields.length) (hk' : k < offs.length),
        i.out.offsetOf tg [fields[k].1] = some (offs[k], fields[k].2.out) := by
  have hgi := good_deriveImpl htg hgood h
  rw [deriveImpl_eq] at h
  split at h
  · rename_i hn
    simp only [Option.some.injEq] at h
    have hok := recordOk_gen hn.1
    refine ⟨(implOffs 0 fields).map Prod.snd, implEnd 0 fields, ?_, ?_, ?_⟩
    · have hp := placed_impl 0 fields
      have he : (fields.map fun f => (f.2.alignment, f.2.out.natSize)) =
          fields.map fun f => (f.2.alignment, f.2.out.size tg) :=
        List.map_congr_left fun f hf => by rw [size_eq_natSize htg (hgood f hf).packed]
      rw [he] at hp
      exact hp
    · rw [size_eq_natSize htg hgi.packed, ← h]
      show IsNext (structAl l fields) (implEnd 0 fields)
        (natSizeFields (genFields tg (structAl l fields) 0 0 fields))
      rw [derive_size htg hgood]
      exact isNext_nextOffset _ _
    · intro k hk hk'
      have hl : k < (implOffs 0 fields).length := by simpa using hk'
      have hmem : (fields[k].1, (implOffs 0 fields)[k].2) ∈ implOffs 0 fields := by
        rw [← implOffs_fst 0 fields k hl hk]
        exact List.getElem_mem hl
      have hch : Child (genFields tg (structAl l fields) 0 0 fields) fields[k].1
          (implOffs 0 fields)[k].2 fields[k].2.out :=
        derive_offset htg hgood hok (List.getElem_mem hk) hmem
      have hp : (RTy.struct (genFields tg (structAl l fields) 0 0 fields)).packed = true := by
        rw [← h] at hgi; exact hgi.packed
      rw [← h]
      show RTy.offsetOf tg (.struct (genFields tg (structAl l fields) 0 0 fields)) _ = _
      rw [offsetOf_child htg hp hch]
      simp [RTy.offsetOf]
  · simp at h

/-- C03: for every struct whose derive compiles, rustc's offsets of its fields are the ones obtained
by laying the fields out in order, the first from offset 0 on, each at the least multiple of its
ALIGNMENT not before the end of the previous one; the size is the least multiple of the struct's
ALIGNMENT not before the end of the last field. -/
theorem C03_placement {tg : Target} (htg : tg.Valid) {env : ForeignEnv} {l : Layout} {name : String}
    {fs : List (String × Ty)} {i : Impl} (h : resolve tg env l (.struct name fs) = some i) :
    ∃ (is : List Impl) (offs : List Nat) (fin : Nat),
      fs.map (fun f => resolve tg env l f.2) = is.map some ∧
      Placed 0 (is.map fun j => (j.alignment, j.out.size tg)) offs fin ∧
      IsNext i.alignment fin (i.out.size tg) ∧
      ∀ k (hk : k < fs.length) (hk' : k < offs.length) (hk'' : k < is.length),
        i.out.offsetOf tg [fs[k].1] = some (offs[k], is[k].out) := by
  simp only [resolve, Option.bind_eq_some_iff] at h
  obtain ⟨is, his, h⟩ := h
  have ha := resolveFields_all2 his
  have hnm := resolveFields_names his
  have hg : ∀ f ∈ is, Good f.2 :=
    ha.forall_right fun a _ b _ hr => good_resolve htg hr.2
  obtain ⟨offs, fin, h1, h2, h3⟩ := C03_derive htg hg h
  refine ⟨is.map Prod.snd, offs, fin, ?_, by rw [List.map_map]; exact h1, h2, ?_⟩
  · clear h1 h2 h3 h hg hnm his
    induction ha with
    | nil => rfl
    | cons hr _ ih => simp only [List.map_cons, hr.2, ih]
  · intro k hk hk' hk''
    have hk3 : k < is.length := by simpa using hk''
    have hname : is[k].1 = fs[k].1 := by
      have h1 : (is.map Prod.fst)[k]? = (fs.map Prod.fst)[k]? := by rw [hnm]
      simpa [hk, hk3] using h1
    have := h3 k hk3 hk'
    rw [hname] at this
    simpa using this

/-- C03: fields start at offset 0, are in declaration order, do not overlap, and lie within the
struct. -/
theorem C03_disjoint {tg : Target} (htg : tg.Valid) {env : ForeignEnv} {l : Layout} {name : String}
    {fs : List (String × Ty)} {i : Impl} (h : resolve tg env l (.struct name fs) = some i)
    {j k : Nat} (hjk : j < k) (hk : k < fs.length) :
    ∃ oj ok tj tk, i.out.offsetOf tg [fs[j].1] = some (oj, tj) ∧
      i.out.offsetOf tg [fs[k].1] = some (ok, tk) ∧
      (j = 0 → oj = 0) ∧ oj + tj.size tg ≤ ok ∧ ok + tk.size tg ≤ i.out.size tg := by
  obtain ⟨is, offs, fin, h1, h2, h3, h4⟩ := C03_placement htg h
  have hl : is.length = fs.length := by simpa using (congrArg List.length h1).symm
  have hlo : offs.length = fs.length := by rw [h2.length]; simpa using hl
  refine ⟨_, _, _, _, h4 j (by omega) (by omega) (by omega), h4 k hk (by omega) (by omega), ?_, ?_, ?_⟩
  · intro hj
    subst hj
    cases is with
    | nil => simp at hl; omega
    | cons x r =>
      cases h2 with
      | cons hn _ =>
        show _ = 0
        have h0 : IsNext x.alignment 0 0 := by
          refine ⟨Nat.le_refl _, fun _ => rfl, fun _ => ⟨Nat.dvd_zero _, fun m _ _ => Nat.zero_le _⟩⟩
        exact hn.unique h0
  · have := h2.disjoint j k hjk (by simp [hl, hk]) (by omega)
    simpa using this
  · have := (h2.bounds.2 k (by simp [hl, hk]) (by omega)).2
    have h5 := h3.1
    simp only [List.getElem_map] at this
    omega

/-- The concrete struct `Light`: offsets 0, 12, 16, 32, 80 and size 96 in std140. -/
example : ∃ i, resolve x86_64 Ex.env .std140 Ex.light = some i ∧
    (i.out.offsetOf x86_64 ["basis"]).map Prod.fst = some 32 ∧
    (i.out.offsetOf x86_64 ["inner"]).map Prod.fst = some 80 ∧ i.out.size x86_64 = 96 := by
  refine ⟨_, rfl, ?_, ?_, ?_⟩ <;> decide

end Crevice
