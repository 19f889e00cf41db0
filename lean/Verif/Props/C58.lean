import Verif.Proof.Contract
import Verif.Props.C01_C03
import Verif.Props.C30_C31
/-
C58: the derives applied to fields whose traits were implemented outside the crate. A field is any
dictionary `Impl`; what is asked of it is the contract in `Spec/Contract`, nothing about the crate.
-/
namespace Crevice

theorem derive_inv {tg : Target} {l : Layout} {name : String} {fields : List (String × Impl)}
    {i : Impl} (h : deriveImpl tg l name fields = some i) :
    RecordOk (genFields tg (structAl l fields) 0 0 fields) fields ∧
      i = recordImpl (genFields tg (structAl l fields) 0 0 fields) (structAl l fields) fields := by
  rw [deriveImpl_eq] at h
  split at h
  · rename_i hn
    simp only [Option.some.injEq] at h
    exact ⟨recordOk_gen hn.1, h.symm⟩
  · cases h

/-- C58, acceptance: the derive compiles exactly when the Outputs implement `Debug` and the field
names are distinct and not reserved; nothing else is checked, in particular not the contracts. -/
theorem C58_compiles (tg : Target) (l : Layout) (name : String) (fields : List (String × Impl)) :
    (∃ i, deriveImpl tg l name fields = some i) ↔
      (∀ f ∈ fields, f.2.outDebug = true) ∧ (fields.map fun f => plainName f.1).Nodup ∧
      ∀ f ∈ fields, ∀ k, k < fields.length → plainName f.1 ≠ "_pad" ++ toString k := by
  rw [deriveImpl_eq]
  have hr : (∀ n ∈ (fields.map fun f => plainName f.1), n ∉ reservedNames fields.length) ↔
      ∀ f ∈ fields, ∀ k, k < fields.length → plainName f.1 ≠ "_pad" ++ toString k := by
    simp only [List.forall_mem_map]
    refine ⟨fun h f hf k hk he => h f hf ?_, fun h f hf hm => ?_⟩
    · exact List.mem_map.2 ⟨k, List.mem_range.2 hk, he.symm⟩
    · obtain ⟨k, hk, he⟩ := List.mem_map.1 hm
      exact h f hf k (List.mem_range.1 hk) he.symm
  have hu := gen_unraw_nodup (tg := tg) (sal := structAl l fields) fields
  constructor
  · rintro ⟨i, h⟩
    split at h
    · rename_i h1
      exact ⟨List.all_eq_true.1 h1.2, (hu.1 h1.1).1, hr.1 (hu.1 h1.1).2⟩
    · cases h
  · rintro ⟨h1, h2, h3⟩
    exact ⟨_, if_pos ⟨hu.2 ⟨h2, hr.2 h3⟩, List.all_eq_true.2 h1⟩⟩

/-- C58, the memory layout: rustc's offsets are those obtained by placing the fields in order, each
at the least multiple of its ALIGNMENT; the size is the next multiple of the struct's ALIGNMENT. -/
theorem C58_layout {tg : Target} (htg : tg.Valid) {l : Layout} {name : String}
    {fields : List (String × Impl)} (hc : ∀ f ∈ fields, StdContract f.2) {i : Impl}
    (h : deriveImpl tg l name fields = some i) :
    ∃ offs fin, Placed 0 (fields.map fun f => (f.2.alignment, f.2.out.size tg)) offs fin ∧
      IsNext i.alignment fin (i.out.size tg) ∧
      ∀ k (hk : k < fields.length) (hk' : k < offs.length),
        i.out.offsetOf tg [fields[k].1] = some (offs[k], fields[k].2.out) :=
  C03_derive htg (fun f hf => (hc f hf).good) h

/-- C58, safety: if every field's Output keeps the contract of `unsafe trait StdN`, so does the
generated struct, for which the derive writes `unsafe impl StdN` and `unsafe impl Pod`. (A std430
struct without fields has ALIGNMENT 0 and is left out.) -/
theorem C58_contract {tg : Target} (htg : tg.Valid) {l : Layout} {name : String}
    {fields : List (String × Impl)} (hc : ∀ f ∈ fields, StdContract f.2)
    (hne : l = .std140 ∨ fields ≠ []) {i : Impl} (h : deriveImpl tg l name fields = some i) :
    StdContract i := by
  refine stdContract_iff.2 ⟨good_deriveImpl htg (fun f hf => (hc f hf).good) h, ?_⟩
  obtain ⟨h1, h2, -⟩ := C02_derive h
  rcases hne with rfl | hne
  · simp only [structMinimum] at h1
    omega
  · obtain ⟨f, hf⟩ := List.exists_mem_of_ne_nil _ hne
    have := (stdContract_iff.1 (hc f hf)).2
    have := h2 f hf
    omega

theorem structVal_all2 {fields : List (String × Impl)} {P : String → RVal → Prop}
    {vs : List (String × RVal)} (hn : vs.map Prod.fst = fields.map Prod.fst)
    (hp : ∀ x ∈ vs, P x.1 x.2) :
    All2 (fun (f : String × Impl) (x : String × RVal) => f.1 = x.1 ∧ P f.1 x.2) fields vs := by
  induction fields generalizing vs with
  | nil =>
    simp only [List.map_nil, List.map_eq_nil_iff] at hn
    subst hn
    exact .nil
  | cons f r ih =>
    cases vs with
    | nil => simp at hn
    | cons x s =>
      simp only [List.map_cons, List.cons.injEq] at hn
      refine .cons ⟨hn.1.symm, hn.1 ▸ hp x (by simp)⟩ (ih hn.2 fun y hy => hp y (by simp [hy]))

theorem all2_structVal {fields : List (String × Impl)} {P : String → RVal → Prop}
    {vs : List (String × RVal)}
    (h : All2 (fun (f : String × Impl) (x : String × RVal) => f.1 = x.1 ∧ P f.1 x.2) fields vs) :
    vs.map Prod.fst = fields.map Prod.fst ∧ ∀ x ∈ vs, P x.1 x.2 := by
  induction h with
  | nil => simp
  | cons h1 _ ih =>
    refine ⟨by simp [ih.1, h1.1], ?_⟩
    intro x hx
    rcases List.mem_cons.1 hx with rfl | hx
    · exact h1.1 ▸ h1.2
    · exact ih.2 x hx

/-- C58, conversions: if every field's conversions are total and `from_stdN` undoes `as_stdN`, the
same holds for the struct. -/
theorem C58_conversion {tg : Target} {l : Layout} {name : String} {fields : List (String × Impl)}
    {P : String → RVal → Prop} (hc : ∀ f ∈ fields, AsContract (P f.1) f.2) {i : Impl}
    (h : deriveImpl tg l name fields = some i) :
    AsContract (StructVal (fields.map Prod.fst) P) i := by
  obtain ⟨hok, rfl⟩ := derive_inv h
  refine ⟨?_, ?_⟩
  · rintro v ⟨vs, rfl, hn, hp⟩
    apply recordImpl_as_ok hok
    refine (structVal_all2 hn hp).imp_mem fun f hf x _ hx => ⟨hx.1, ?_⟩
    exact (hc f hf).as_std _ hx.2
  · intro o ho
    obtain ⟨vs, h1, h2⟩ := recordImpl_from_ok hok (structAl l fields) ho
      (P := fun j x => ∀ f ∈ fields, f.2 = j → P f.1 x) (by
        intro n j hm y hy
        obtain ⟨x, hx, -⟩ := (hc _ hm).from_std y hy
        refine ⟨x, hx, ?_⟩
        rintro f hf rfl
        obtain ⟨x', hx', hv⟩ := (hc f hf).from_std y hy
        rw [hx, Option.some.injEq] at hx'
        subst hx'
        exact hv)
    refine ⟨_, h1, vs, rfl, ?_⟩
    exact all2_structVal (h2.imp_mem fun f hf x _ hx => ⟨hx.1, hx.2 f hf rfl⟩)

/-- C58, the bytes: a converted struct consists of the bytes of its converted fields, each at the
offset rustc gives to the field, with zeros between and after them. -/
theorem C58_bytes {tg : Target} (htg : tg.Valid) {l : Layout} {name : String}
    {fields : List (String × Impl)} {P : String → RVal → Prop}
    (hs : ∀ f ∈ fields, StdContract f.2) (hc : ∀ f ∈ fields, AsContract (P f.1) f.2) {i : Impl}
    (h : deriveImpl tg l name fields = some i) {v : RVal}
    (hv : StructVal (fields.map Prod.fst) P v) :
    ∃ (o : RVal) (bs : List Byte) (ws : List StdVal), i.asStd v = some o ∧
      bytesOf tg i.out o = some bs ∧
      All2 (fun (f : String × Impl) (w : StdVal) => ∃ x y off, v.field f.1 = some x ∧
        f.2.asStd x = some y ∧ bytesOf tg f.2.out y = some w.bytes ∧ w.alignment = f.2.alignment ∧
        i.out.offsetOf tg [f.1] = some (off, f.2.out) ∧ SliceAt bs off w.bytes) fields ws ∧
      ∃ z, bs = image 0 ws ++ List.replicate z 0 := by
  have hg : ∀ f ∈ fields, Good f.2 := fun f hf => (hs f hf).good
  have hgi := good_deriveImpl htg hg h
  obtain ⟨o, ho, hty, -⟩ := (C58_conversion hc h).as_std v hv
  obtain ⟨hok, rfl⟩ := derive_inv h
  obtain ⟨vs, rfl, hn, hp⟩ := hv
  have hvs := structVal_all2 hn hp
  have hnod : (vs.map Prod.fst).Nodup := by rw [hn]; exact hok.fnodup
  have hb := bytesOf_eq_enc htg hgi.packed hty
  obtain ⟨inits, hin⟩ : ∃ inits, convFields Impl.asStd fields (.struct vs) = some inits := by
    cases hc : convFields Impl.asStd fields (.struct vs) with
    | none =>
      simp only [recordImpl, hc] at ho
      simp at ho
    | some inits => exact ⟨inits, rfl⟩
  have hnm := convFields_names hin
  have hinod : (inits.map Prod.fst).Nodup := by rw [hnm]; exact hok.fnodup
  have ho' := recordImpl_asStd hok (structAl l fields) hin
  rw [ho, Option.some.injEq] at ho'
  have key : ∀ f ∈ fields, ∃ x y off, (RVal.struct vs).field f.1 = some x ∧ f.2.asStd x = some y ∧
      RVal.HasTy f.2.out y ∧ inits.lookup f.1 = some y ∧
      RTy.offsetOf tg (.struct (genFields tg (structAl l fields) 0 0 fields)) [f.1] =
        some (off, f.2.out) ∧ SliceAt (enc tg.endian o) off (enc tg.endian y) := by
    intro f hf
    obtain ⟨x, hx, hxn, hxv⟩ := hvs.mem_left hf
    obtain ⟨x', y, h1, h2, h3⟩ := convFields_mem hin (n := f.1) (i := f.2) hf
    have hfx : (RVal.struct vs).field f.1 = some x.2 := by
      have : (f.1, x.2) ∈ vs := by rw [hxn]; exact hx
      exact lookup_eq_some_of_mem hnod this
    rw [hfx, Option.some.injEq] at h1
    subst h1
    obtain ⟨y', hy', hyt, -⟩ := (hc f hf).as_std _ hxv
    rw [h2, Option.some.injEq] at hy'
    subst hy'
    have hl := lookup_eq_some_of_mem hinod h3
    obtain ⟨k, hk⟩ := implOffs_mem 0 (show (f.1, f.2) ∈ fields from hf)
    have hch := derive_offset htg hg hok (show (f.1, f.2) ∈ fields from hf) hk
    obtain ⟨y', hy', hyt', hsl⟩ := hch.slice tg.endian hty
    have hof : o.field f.1 = some y := by
      rw [ho']
      show (fill _ inits).lookup f.1 = _
      rw [fill_lookup (hok.sub f.1 f.2 hf), hl]
      rfl
    have : o.field f.1 = some y' := hy'
    rw [hof, Option.some.injEq] at this
    subst this
    refine ⟨x.2, y, k, hfx, h2, hyt, hl, ?_, hsl⟩
    rw [offsetOf_child htg hgi.packed hch]
    simp [RTy.offsetOf]
  refine ⟨o, enc tg.endian o, fields.map (fieldVal tg inits), ho, hb, ?_, ?_⟩
  · have : ∀ gs : List (String × Impl), (∀ f ∈ gs, f ∈ fields) →
        All2 (fun (f : String × Impl) (w : StdVal) => ∃ x y off, (RVal.struct vs).field f.1 = some x ∧
          f.2.asStd x = some y ∧ bytesOf tg f.2.out y = some w.bytes ∧
          w.alignment = f.2.alignment ∧
          RTy.offsetOf tg (.struct (genFields tg (structAl l fields) 0 0 fields)) [f.1] =
            some (off, f.2.out) ∧ SliceAt (enc tg.endian o) off w.bytes) gs
          (gs.map (fieldVal tg inits)) := by
      intro gs
      induction gs with
      | nil => intro _; exact .nil
      | cons g r ih =>
        intro hsub
        refine .cons ?_ (ih fun f hf => hsub f (List.mem_cons_of_mem _ hf))
        obtain ⟨x, y, off, h1, h2, h3, h4, h5, h6⟩ := key g (hsub g (by simp))
        have hby : (fieldVal tg inits g).bytes = enc tg.endian y := by simp [fieldVal, h4]
        refine ⟨x, y, off, h1, h2, ?_, rfl, h5, by rw [hby]; exact h6⟩
        rw [hby]
        exact bytesOf_eq_enc htg (hg g (hsub g (by simp))).packed h3
    exact this fields fun _ h => h
  · have := derive_image htg hg (structAl l fields) hok hnm fun f hf => by
      obtain ⟨x, y, off, -, -, h3, h4, -⟩ := key f hf
      rw [h4]
      exact h3
    rw [ho']
    exact ⟨_, this⟩

/-- C58: the crate's own implementations keep both contracts (except for the structs of ALIGNMENT 0
that std430 has, `C13_exception`), so they can be mixed with others. -/
theorem C58_supported {tg : Target} (htg : tg.Valid) {env : ForeignEnv} (henv : env.Lawful tg)
    {l : Layout} {t : Ty} {i : Impl} (h : resolve tg env l t = some i) :
    AsContract (t.HasVal tg env) i ∧ (StdContract i ↔ i.alignment ≠ 0) := by
  have hc := conv_resolve henv h
  refine ⟨⟨hc.as_ok, hc.from_ok⟩, fun h => ?_, fun h0 => ?_⟩
  · exact Nat.pos_iff_ne_zero.1 (stdContract_iff.1 h).2
  · exact stdContract_iff.2 ⟨good_resolve htg h, Nat.pos_of_ne_zero h0⟩

/-- An implementation of the kind a user can write: an Output of one's own with its own ALIGNMENT,
here two doubles, 32-aligned. -/
def Ex.own : Impl :=
  blanketImpl (.struct [("lo", .scalar .f64), ("hi", .scalar .f64)]) 32 true

theorem Ex.own_std : StdContract Ex.own :=
  stdContract_iff.2 ⟨⟨rfl, rfl, .inl ⟨⟨5, rfl⟩, ⟨4, rfl⟩⟩⟩, by decide⟩

theorem Ex.own_as : AsContract (RVal.HasTy Ex.own.out) Ex.own :=
  ⟨fun v hv => ⟨v, rfl, hv, rfl⟩, fun o ho => ⟨o, rfl, ho⟩⟩

/-- The hypotheses are met by a struct that mixes it with a `vec3`. -/
example (l : Layout) : ∃ j i, resolve x86_64 Ex.env l Ex.vec3 = some j ∧ StdContract j ∧
    deriveImpl x86_64 l "S" [("a", j), ("b", Ex.own)] = some i ∧ i.alignment = 32 := by
  obtain ⟨j, hj⟩ : ∃ j, resolve x86_64 Ex.env l Ex.vec3 = some j := by cases l <;> exact ⟨_, rfl⟩
  have ha : j.alignment = 16 := by
    have : (resolve x86_64 Ex.env l Ex.vec3).map Impl.alignment = some 16 := by cases l <;> rfl
    rw [hj] at this
    simpa using this
  have hd : j.outDebug = true := by
    have : (resolve x86_64 Ex.env l Ex.vec3).map Impl.outDebug = some true := by cases l <;> rfl
    rw [hj] at this
    simpa using this
  obtain ⟨i, hi⟩ := (C58_compiles x86_64 l "S" [("a", j), ("b", Ex.own)]).2
    ⟨by simp [hd, Ex.own, blanketImpl], show (["a", "b"].map plainName).Nodup by decide +kernel, fun f hf k hk => by
      have hk : k = 0 ∨ k = 1 := by simp at hk; omega
      simp only [List.mem_cons, List.not_mem_nil, or_false] at hf
      rcases hf with rfl | rfl
      · show plainName "a" ≠ _
        rcases hk with rfl | rfl <;> decide +kernel
      · show plainName "b" ≠ _
        rcases hk with rfl | rfl <;> decide +kernel⟩
  refine ⟨j, i, hj, ((C58_supported Ex.x86_64_valid Ex.env_lawful hj).2).2 (by omega), hi, ?_⟩
  obtain ⟨-, rfl⟩ := derive_inv hi
  cases l <;> simp [recordImpl, structAl, Layout.minStructAlignment, maxArr, ha, Ex.own,
    blanketImpl]

/-- C58, the contract is needed: with ALIGNMENT smaller than the Rust alignment of the type, reading
the bytes of the generated struct, which is declared `Pod`, reads uninitialised memory, although each
field alone is fine. -/
theorem C58_needs_align : ∃ (a b i : Impl) (o : RVal), StdContract a ∧
    (∃ k, b.alignment = 2 ^ k) ∧
    (∀ o, RVal.HasTy b.out o → ∃ bs, bytesOf x86_64 b.out o = some bs) ∧
    deriveImpl x86_64 .std430 "S" [("a", a), ("b", b)] = some i ∧
    RVal.HasTy i.out o ∧ bytesOf x86_64 i.out o = none := by
  let a : Impl := blanketImpl (.scalar .f32) 4 true
  let b : Impl := blanketImpl (.scalar .f64) 4 true
  have ha : StdContract a := stdContract_iff.2 ⟨⟨rfl, rfl, .inl ⟨⟨2, rfl⟩, ⟨1, rfl⟩⟩⟩, by decide⟩
  let fs : List (String × Impl) := [("a", a), ("b", b)]
  let gs := genFields x86_64 (structAl .std430 fs) 0 0 fs
  refine ⟨a, b, recordImpl gs (structAl .std430 fs) fs, zeroed (.struct gs), ha, ⟨2, rfl⟩,
    fun o ho => ?_, ?_, hasTy_zeroed _, ?_⟩
  · exact ⟨_, bytesOf_eq_enc x86_valid rfl ho⟩
  · rw [deriveImpl_eq, if_pos]
    exact ⟨by decide +kernel, rfl⟩
  · with_unfolding_all rfl

/-- C58: so is that ALIGNMENT be a power of two. 12 is a multiple of the alignment of a float, but the
size of the struct is then rounded up to a multiple of 12 and not of 8, and rustc adds four
uninitialised bytes. -/
theorem C58_needs_pow2 : ∃ (a b i : Impl) (o : RVal), StdContract a ∧
    (∀ tg : Target, tg.Valid → b.out.align tg ∣ b.alignment) ∧
    (∀ o, RVal.HasTy b.out o → ∃ bs, bytesOf x86_64 b.out o = some bs) ∧
    deriveImpl x86_64 .std430 "S" [("a", a), ("b", b)] = some i ∧
    RVal.HasTy i.out o ∧ bytesOf x86_64 i.out o = none := by
  let a : Impl := blanketImpl (.scalar .f64) 8 true
  let b : Impl := blanketImpl (.array (.scalar .f32) 6) 12 true
  have ha : StdContract a := stdContract_iff.2 ⟨⟨rfl, rfl, .inl ⟨⟨3, rfl⟩, ⟨1, rfl⟩⟩⟩, by decide⟩
  let fs : List (String × Impl) := [("a", a), ("b", b)]
  let gs := genFields x86_64 (structAl .std430 fs) 0 0 fs
  refine ⟨a, b, recordImpl gs (structAl .std430 fs) fs, zeroed (.struct gs), ha, fun tg htg => ?_,
    fun o ho => ?_, ?_, hasTy_zeroed _, ?_⟩
  · exact Nat.dvd_trans (htg .f32) ⟨3, rfl⟩
  · exact ⟨_, bytesOf_eq_enc x86_valid rfl ho⟩
  · rw [deriveImpl_eq, if_pos]
    exact ⟨by decide +kernel, rfl⟩
  · cases hb : bytesOf x86_64 (recordImpl gs (structAl .std430 fs) fs).out (zeroed (.struct gs)) with
    | none => rfl
    | some bs =>
      simp only [bytesOf, Option.bind_eq_some_iff] at hb
      obtain ⟨img, h1, h2⟩ := hb
      have h3 : (RTy.struct gs).packed = true := packed_of_encode _ h1 (mapM_id_some h2)
      exact absurd h3 (by decide +kernel)

end Crevice
