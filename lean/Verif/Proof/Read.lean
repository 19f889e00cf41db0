import Verif.Spec.Place
import Verif.Proof.Layout
/-
What a shader reads from the bytes of an Output value is what the value denotes.
-/
namespace Crevice

theorem sliceAt_self (xs : List Byte) : SliceAt xs 0 xs := by simp [SliceAt]

theorem SliceAt.trans {buf : List Byte} {off k : Nat} {xs ys : List Byte} (h1 : SliceAt buf off xs)
    (h2 : SliceAt xs k ys) : SliceAt buf (off + k) ys := by
  unfold SliceAt at *
  have hlen : k + ys.length ≤ xs.length ∨ ys = [] := by
    have := congrArg List.length h2
    simp only [List.length_take, List.length_drop] at this
    by_cases h0 : ys.length = 0
    · exact .inr (List.length_eq_zero_iff.1 h0)
    · left; omega
  rcases hlen with hlen | rfl
  · have e1 : List.take ys.length (List.drop k (List.take xs.length (List.drop off buf))) = ys := by
      rw [h1]; exact h2
    rw [List.drop_take, List.drop_drop, List.take_take] at e1
    rw [Nat.min_eq_left (by omega)] at e1
    exact e1
  · simp

theorem SliceAt.length_le {buf : List Byte} {off : Nat} {xs : List Byte} (h : SliceAt buf off xs)
    (hne : 0 < xs.length) : off + xs.length ≤ buf.length := by
  have := congrArg List.length h
  simp only [List.length_take, List.length_drop] at this
  omega

theorem field_slice (e : Endian) {gs : List (String × RTy)} {os : List (String × RVal)}
    (h : HasTys gs os) (off : Nat) (pre : List Byte) (hpre : pre.length = off) {n : String} {t : RTy}
    {k : Nat} (ht : gs.lookup n = some t) (hk : (natOffsets off gs).lookup n = some k) :
    ∃ v, os.lookup n = some v ∧ RVal.HasTy t v ∧ SliceAt (pre ++ encFields e os) k (enc e v) := by
  induction gs generalizing os off pre with
  | nil => simp at ht
  | cons g r ih =>
    obtain ⟨m, u⟩ := g
    obtain ⟨v, s, rfl, h1, h2⟩ := HasTys_cons h
    simp only [natOffsets] at hk
    rw [lookup_cons_if] at ht hk
    by_cases hm : n = m
    · simp only [hm, if_true, Option.some.injEq] at ht hk
      subst ht hk
      refine ⟨v, by simp [hm], h1, ?_⟩
      simp only [SliceAt, encFields]
      rw [← hpre, List.drop_left, List.take_left]
    · simp only [hm, if_false] at ht hk
      obtain ⟨w, h3, h4, h5⟩ := ih h2 (off + u.natSize) (pre ++ enc e v)
        (by simp [hpre, enc_length e h1]) ht hk
      refine ⟨w, by rw [lookup_cons_if, if_neg hm]; exact h3, h4, ?_⟩
      simpa only [encFields, List.append_assoc] using h5

/-- The bytes of a field are at its offset. -/
theorem Child.slice (e : Endian) {gs : List (String × RTy)} {o : RVal}
    (h : RVal.HasTy (.struct gs) o) {n : String} {t : RTy} {k : Nat} (hc : Child gs n k t) :
    ∃ v, o.field n = some v ∧ RVal.HasTy t v ∧ SliceAt (enc e o) k (enc e v) := by
  cases o <;> simp only [RVal.HasTy] at h
  exact field_slice e h 0 [] rfl hc.ty hc.off

/-! ### Scalars -/

theorem number_little (bs : List Byte) : Glsl.number .little bs = leToNat bs := by
  simp only [Glsl.number]
  induction bs with
  | nil => rfl
  | cons b r ih => simp [leToNat, ih]

theorem number_big (bs : List Byte) : Glsl.number .big bs = leToNat bs.reverse := by
  rw [← number_little]
  simp [Glsl.number, List.foldr_reverse, Nat.add_comm]

theorem number_eq (e : Endian) (s : Scalar) (b : BitVec (8 * s.size)) :
    Glsl.number e (scalarBytes e s b) = b.toNat := by
  have hb : b.toNat < 256 ^ s.size := by rw [pow_256]; exact b.isLt
  cases e
  · rw [number_little]; exact leToNat_natToLE _ _ hb
  · rw [number_big]; simp only [scalarBytes, List.reverse_reverse]; exact leToNat_natToLE _ _ hb

theorem wordAt_slice (e : Endian) {buf : List Byte} {off : Nat} {s : Scalar}
    {b : BitVec (8 * s.size)} (h : SliceAt buf off (scalarBytes e s b)) :
    Glsl.wordAt e buf off s.size = some b.toNat := by
  have hl := scalarBytes_length e s b
  have hpos : 0 < s.size := by cases s <;> simp [Scalar.size]
  have := h.length_le (by rw [hl]; exact hpos)
  rw [hl] at this
  simp only [Glsl.wordAt, this, if_true]
  unfold SliceAt at h
  rw [hl] at h
  rw [h, number_eq]

theorem ofNat_toNat_self (n : Nat) (b : BitVec n) : BitVec.ofNat n b.toNat = b := by simp

theorem toNat_ne_zero (b : BitVec 32) : (b.toNat != 0) = (b != 0) := by
  rw [Bool.eq_iff_iff]
  simp only [bne_iff_ne, ne_eq]
  exact ⟨fun h e => h (by simp [e]), fun h e => h (BitVec.eq_of_toNat_eq (by simpa using e))⟩

theorem readScalar_leaf (e : Endian) {s : MScalar} {v : RVal} (h : RVal.HasTy s.rty v)
    {buf : List Byte} {off : Nat} (hs : SliceAt buf off (enc e v)) :
    Glsl.readScalar e s.glsl buf off = denoteLeaf v ∧ ∃ x, denoteLeaf v = some x := by
  cases s
  all_goals
    simp only [MScalar.rty, boolTy] at h
    cases v <;> simp only [RVal.HasTy] at h
  · subst h
    rename_i b
    have := wordAt_slice e hs
    simp only [Scalar.size] at this
    refine ⟨?_, _, rfl⟩
    simp only [Glsl.readScalar, MScalar.glsl, Glsl.Scalar.size, this, Option.map_some]
    exact congrArg (fun z => some (Glsl.Val.float z)) (ofNat_toNat_self 32 b)
  · subst h
    rename_i b
    have := wordAt_slice e hs
    simp only [Scalar.size] at this
    refine ⟨?_, _, rfl⟩
    simp only [Glsl.readScalar, MScalar.glsl, Glsl.Scalar.size, this, Option.map_some]
    exact congrArg (fun z => some (Glsl.Val.double z)) (ofNat_toNat_self 64 b)
  · subst h
    rename_i b
    have := wordAt_slice e hs
    simp only [Scalar.size] at this
    refine ⟨?_, _, rfl⟩
    simp only [Glsl.readScalar, MScalar.glsl, Glsl.Scalar.size, this, Option.map_some]
    exact congrArg (fun z => some (Glsl.Val.int z)) (ofNat_toNat_self 32 b)
  · subst h
    rename_i b
    have := wordAt_slice e hs
    simp only [Scalar.size] at this
    refine ⟨?_, _, rfl⟩
    simp only [Glsl.readScalar, MScalar.glsl, Glsl.Scalar.size, this, Option.map_some]
    exact congrArg (fun z => some (Glsl.Val.uint z)) (ofNat_toNat_self 32 b)
  · rename_i w
    cases w <;> simp only [RVal.HasTy] at h
    subst h
    rename_i b
    have := wordAt_slice (s := .u32) e hs
    simp only [Scalar.size] at this
    refine ⟨?_, _, rfl⟩
    simp only [Glsl.readScalar, MScalar.glsl, Glsl.Scalar.size, this, Option.map_some]
    exact congrArg (fun z => some (Glsl.Val.bool z)) (toNat_ne_zero b)

/-! ### Vectors and matrices -/

theorem mapM_eq_of_get {α β γ} {f : α → Option γ} {g : β → Option γ} {l : List α} {m : List β}
    (hl : l.length = m.length) (h : ∀ i (h1 : i < l.length) (h2 : i < m.length), f l[i] = g m[i]) :
    l.mapM f = m.mapM g := by
  induction l generalizing m with
  | nil => cases m with
    | nil => simp
    | cons => simp at hl
  | cons a r ih =>
    cases m with
    | nil => simp at hl
    | cons b s =>
      have h0 := h 0 (by simp) (by simp)
      simp only [List.getElem_cons_zero] at h0
      rw [mapM_option_cons, mapM_option_cons, h0, ih (by simpa using hl) fun i h1 h2 => by
        have := h (i + 1) (by simpa using h1) (by simpa using h2)
        simpa using this]

theorem mapM_isSome {α β} {f : α → Option β} {l : List α} (h : ∀ a ∈ l, ∃ b, f a = some b) :
    ∃ r, l.mapM f = some r := by
  induction l with
  | nil => exact ⟨[], by simp⟩
  | cons a r ih =>
    obtain ⟨b, hb⟩ := h a (by simp)
    obtain ⟨bs, hbs⟩ := ih fun c hc => h c (List.mem_cons_of_mem _ hc)
    exact ⟨b :: bs, by rw [mapM_option_cons, hb, hbs]; rfl⟩

theorem read_vec (e : Endian) {l : Layout} {m : MathTy} {i : Impl} (hk : m.kind ≠ .matrix)
    (h : vecImpl l m = some i) {o : RVal} (ho : RVal.HasTy i.out o) {buf : List Byte} {off : Nat}
    (hs : SliceAt buf off (enc e o)) :
    Glsl.readScalars e m.scalar.glsl m.dim buf off = denoteComponents m.fieldNames o ∧
      ∃ x, denoteComponents m.fieldNames o = some x := by
  obtain ⟨c, hc, h2, h4, rfl⟩ := vecImpl_shape hk h
  have hlen := fieldNames_length h4
  have key : ∀ j (hj : j < m.fieldNames.length), ∃ v, o.field m.fieldNames[j] = some v ∧
      Glsl.readScalar e m.scalar.glsl buf (off + j * m.scalar.glsl.size) = denoteLeaf v ∧
      ∃ x, denoteLeaf v = some x := by
    intro j hj
    obtain ⟨v, h5, h6, h7⟩ := (vec_child hj).slice e ho
    exact ⟨v, h5, readScalar_leaf e h6 (hs.trans h7)⟩
  constructor
  · unfold Glsl.readScalars denoteComponents
    apply mapM_eq_of_get
    · simp [hlen]
    · intro j h1 h3
      obtain ⟨v, h5, h6, _⟩ := key j h3
      simp [h5, h6]
  · apply mapM_isSome
    intro n hn
    obtain ⟨j, hj, rfl⟩ := List.mem_iff_getElem.1 hn
    obtain ⟨v, h5, _, x, h7⟩ := key j hj
    exact ⟨x, by simp [h5, h7]⟩

theorem read_math (e : Endian) {l : Layout} {m : MathTy} {i : Impl} (h : mathImpl l m = some i)
    {g : Glsl.Ty} (hg : m.glsl = some g) {o : RVal} (ho : RVal.HasTy i.out o) {buf : List Byte}
    {off : Nat} (hs : SliceAt buf off (enc e o)) :
    Glsl.read e l g buf off = m.denote o ∧ ∃ x, m.denote o = some x := by
  have hm := math_glsl h
  rw [hg] at hm; cases hm
  by_cases hk : m.kind = .matrix
  · rw [if_pos hk]
    obtain ⟨col, gs, hcol, h2, h4, _, hok, rfl⟩ := matImpl_shape hk h
    have hlen := fieldNames_length h4
    have hkc : m.column.kind ≠ .matrix := by simp [MathTy.column]
    have key : ∀ j (hj : j < m.fieldNames.length), ∃ v, o.field m.fieldNames[j] = some v ∧
        Glsl.readScalars e m.scalar.glsl m.dim buf
          (off + j * Glsl.columnStride l m.scalar.glsl m.dim) = denoteComponents m.fieldNames v ∧
        ∃ x, denoteComponents m.fieldNames v = some x := by
      intro j hj
      obtain ⟨v, h5, h6, h7⟩ := (mat_child hok hj).slice e ho
      exact ⟨v, h5, read_vec e (m := m.column) hkc hcol h6 (hs.trans h7)⟩
    simp only [Glsl.read, MathTy.denote, hk]
    constructor
    · congr 1
      apply mapM_eq_of_get
      · simp [hlen]
      · intro j h1 h3
        obtain ⟨v, h5, h6, _⟩ := key j h3
        simp [h5, h6]
    · obtain ⟨r, hr⟩ : ∃ r, (m.fieldNames.mapM fun n =>
          (o.field n).bind (denoteComponents m.fieldNames)) = some r := by
        apply mapM_isSome
        intro n hn
        obtain ⟨j, hj, rfl⟩ := List.mem_iff_getElem.1 hn
        obtain ⟨v, h5, _, x, h7⟩ := key j hj
        exact ⟨x, by simp [h5, h7]⟩
      exact ⟨_, by rw [hr]; rfl⟩
  · rw [if_neg hk]
    rw [mathImpl_vec hk] at h
    obtain ⟨h1, x, h2⟩ := read_vec e hk h ho hs
    have hden : m.denote o = (denoteComponents m.fieldNames o).map .vec := by
      simp only [MathTy.denote]
    rw [hden]
    exact ⟨by simp only [Glsl.read, h1], _, by rw [h2]; rfl⟩

/-! ### Structs -/

theorem readMembers_eq (e : Endian) {l : Layout} {fs : List (String × Ty)}
    {ms : List (String × Glsl.Ty)}
    (hfm : All2 (fun (f : String × Ty) (m : String × Glsl.Ty) => f.1 = m.1 ∧ f.2.glsl = some m.2) fs ms)
    {o : RVal} {buf : List Byte} {base : Nat} (cur : Nat)
    (H : ∀ f ∈ fs, ∀ m ∈ ms, ∀ k, f.1 = m.1 → f.2.glsl = some m.2 →
      (m.1, k) ∈ Glsl.memberOffsets l cur ms →
      Glsl.read e l m.2 buf (base + k) = (o.field f.1).bind f.2.denoteOut ∧
        ∃ x, (o.field f.1).bind f.2.denoteOut = some x) :
    Glsl.readMembers e l ms buf base cur = denoteOutFields fs o ∧
      ∃ x, denoteOutFields fs o = some x := by
  induction hfm generalizing cur with
  | nil => simp [Glsl.readMembers, denoteOutFields]
  | @cons f m r s h1 hr ih =>
    obtain ⟨n, t⟩ := f
    obtain ⟨n', g⟩ := m
    obtain ⟨hn, hg⟩ := h1
    simp only at hn hg
    subst hn
    obtain ⟨h2, x, h3⟩ := H (n, t) (by simp) (n, g) (by simp) (Glsl.roundUp cur (g.align l)) rfl hg
      (by simp [Glsl.memberOffsets])
    obtain ⟨h4, xs, h5⟩ := ih (Glsl.roundUp cur (g.align l) + g.size l)
      (fun f hf m hm k e1 e2 e3 => H f (List.mem_cons_of_mem _ hf) m (List.mem_cons_of_mem _ hm) k e1
        e2 (by simp only [Glsl.memberOffsets]; exact List.mem_cons_of_mem _ e3))
    simp only [Glsl.readMembers, denoteOutFields, h2, h4]
    refine ⟨trivial, ?_⟩
    rw [h3, h5]
    exact ⟨_, rfl⟩

theorem read_resolve {tg : Target} (htg : tg.Valid) (e : Endian) {env : ForeignEnv} {l : Layout} {t : Ty}
    {i : Impl} {g : Glsl.Ty} (h : resolve tg env l t = some i) (hgl : t.glsl = some g)
    {o : RVal} (ho : RVal.HasTy i.out o) {buf : List Byte} {off : Nat}
    (hs : SliceAt buf off (enc e o)) :
    Glsl.read e l g buf off = t.denoteOut o ∧ ∃ x, t.denoteOut o = some x := by
  induction t using Ty.ind generalizing i g o off with
  | hs s =>
    have key : ∀ ms : MScalar, mscalarImpl l ms = some i → 
        Glsl.readScalar e ms.glsl buf off = denoteLeaf o ∧ ∃ x, denoteLeaf o = some x := by
      intro ms hms
      obtain ⟨c, h1, h2, _⟩ := mscalarImpl_some l ms
      rw [hms] at h1; cases h1
      rw [h2] at ho
      exact readScalar_leaf e ho hs
    cases s
    · cases hgl; exact key .f32 h
    · cases hgl; exact key .f64 h
    · cases hgl; exact key .i32 h
    · cases hgl; exact key .u32 h
    · cases hgl
  | hb =>
    cases hgl
    cases h
    exact readScalar_leaf (s := .bool) e ho hs
  | hm m => exact read_math e h hgl ho hs
  | hf n =>
    simp only [resolve] at h
    simp only [Ty.glsl] at hgl
    simp only [Ty.denoteOut]
    cases hr : mintyRow n with
    | none => simp [hr] at h
    | some row =>
      simp only [hr, foreignMath_row hr, Option.bind_some] at h hgl ⊢
      cases hm : mathImpl l row.mint with
      | none => simp [hm] at h
      | some j =>
        simp only [hm, Option.map_some, Option.some.injEq] at h
        subst h
        exact read_math e hm hgl ho hs
  | hst n fs ih =>
    have hagr := agrees_resolve htg h hgl
    obtain ⟨is, hr, hok, rfl⟩ := resolve_struct h
    obtain ⟨ms, rfl, hne, hms⟩ := glsl_struct hgl
    have ha := resolveFields_all2 hr
    have hb := glslMembers_all2 hms
    have hag : AgreesAll l is ms := ha.comp hb fun f hf b c hb hc =>
      ⟨hb.1.symm.trans hc.1, agrees_resolve htg hb.2 hc.2⟩
    have hgd : ∀ f ∈ is, Good f.2 := ha.forall_right fun _ _ _ _ hab => good_resolve htg hab.2
    obtain ⟨h1, x, h2⟩ := readMembers_eq e hb (o := o) (buf := buf) (base := off) (l := l) 0 (by
      intro f hf m hm k hfm hgm hk
      obtain ⟨⟨n', j⟩, hj, hjn, hjr⟩ := ha.mem_left hf
      simp only at hjn hjr
      subst hjn
      rw [← hfm] at hk
      have hch := gen_child htg hag hgd hagr.pow2.pos hok hj hk
      obtain ⟨v, h3, h4, h5⟩ := hch.slice e ho
      have := ih f hf hjr hgm h4 (hs.trans h5)
      rw [h3]
      exact this)
    simp only [Glsl.read, Ty.denoteOut, h1]
    exact ⟨trivial, _, by rw [h2]; rfl⟩
  | hd t ih =>
    simp only [Ty.glsl] at hgl
    cases hgt : t.glsl with
    | none => simp [hgt] at hgl
    | some g'' =>
      simp only [hgt, Option.map_some, Option.some.injEq] at hgl
      subst hgl
      cases l with
      | std430 => simp [resolve] at h
      | std140 =>
        simp only [resolve] at h
        cases hr : resolve tg env .std140 t with
        | none => simp [hr] at h
        | some j =>
          simp only [hr, Option.map_some, Option.some.injEq] at h
          subst h
          simp only [dynamicImpl] at ho
          cases o <;> simp only [RVal.HasTy] at ho
          simp only [Glsl.read, Ty.denoteOut]
          exact ih hr hgt ho hs
  | hu n t ih =>
    simp only [resolve, Option.map_eq_some_iff] at h
    obtain ⟨j, hj, rfl⟩ := h
    simp only [Ty.denoteOut]
    exact ih hj hgl ho hs
  | ho l' t ih =>
    simp only [resolve] at h
    split at h
    · cases hr : resolve tg env l t with
      | none => simp [hr] at h
      | some j =>
        simp only [hr, Option.map_some, Option.some.injEq] at h
        subst h
        simp only [Ty.denoteOut]
        exact ih hr hgl ho hs
    · cases h

end Crevice
