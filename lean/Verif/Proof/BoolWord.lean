import Verif.Proof.Denote
import Verif.Proof.Padding
import Verif.Proof.Read
/-
Every `bool` of a converted value is stored as the word 0 or 1.
-/
namespace Crevice

/-- A converted `bool` is the word 0 or 1. -/
theorem boolImpl_word {l : Layout} {x y : RVal} (h : (boolImpl l).asStd x = some y) (e : Endian)
    {buf : List Byte} {off : Nat} (hs : SliceAt buf off (enc e y)) :
    ∃ w, Glsl.wordAt e buf off 4 = some w ∧ w ≤ 1 := by
  cases x with
  | bool b =>
    simp only [boolImpl, Option.some.injEq] at h
    subst h
    have := wordAt_slice e (s := .u32) (b := (if b then 1 else 0 : BitVec 32)) hs
    refine ⟨_, this, ?_⟩
    cases b <;> decide
  | scalar s b => simp [boolImpl] at h
  | array vs => simp [boolImpl] at h
  | newtype v => simp [boolImpl] at h
  | struct fs => simp [boolImpl] at h

theorem bool_word_vec {l : Layout} {m : MathTy} {i : Impl} (hk : m.kind ≠ .matrix)
    (h : vecImpl l m = some i) {v o : RVal} (ha : i.asStd v = some o) (ho : RVal.HasTy i.out o)
    (e : Endian) {p : List String} {k : Nat}
    (hp : Glsl.Ty.offsetOf l (.vec m.scalar.glsl m.dim) p = some (k, .scalar .bool))
    {buf : List Byte} {off : Nat} (hs : SliceAt buf off (enc e o)) :
    ∃ w, Glsl.wordAt e buf (off + k) 4 = some w ∧ w ≤ 1 := by
  obtain ⟨c, hc, h2, h4, rfl⟩ := vecImpl_shape hk h
  match p with
  | [] => simp [Glsl.Ty.offsetOf] at hp
  | [q] =>
    simp only [Glsl.Ty.offsetOf] at hp
    split at hp
    · rename_i hcn
      simp only [Option.some.injEq, Prod.mk.injEq] at hp
      obtain ⟨rfl, hsc⟩ := hp
      obtain ⟨j, hj, hjc, hidx⟩ := component_index hcn
      have hbool : m.scalar = .bool := by
        cases hms : m.scalar <;> rw [hms] at hsc <;> simp [MScalar.glsl] at hsc
      have hch := vec_child (m := m) hj
      obtain ⟨y, hy, hyt, hsl⟩ := hch.slice e ho
      have hmem : (m.fieldNames[j], c) ∈ m.fieldNames.map fun n => (n, c) :=
        List.mem_map.2 ⟨_, List.getElem_mem hj, rfl⟩
      obtain ⟨x, y', hx, hxy, hoy⟩ := recordImpl_as_field (recordOk_vec hc) ha hmem
      rw [hy, Option.some.injEq] at hoy
      subst hoy
      rw [hbool] at hc
      simp only [mscalarImpl, Option.some.injEq] at hc
      subst hc
      rw [hidx]
      exact boolImpl_word hxy e (hs.trans hsl)
    · simp at hp
  | _ :: _ :: _ => simp [Glsl.Ty.offsetOf] at hp

theorem bool_word_mat {l : Layout} {s : Glsl.Scalar} (hs : s ≠ .bool) {c r k : Nat} {p : List String}
    (hp : Glsl.Ty.offsetOf l (.mat s c r) p = some (k, .scalar .bool)) : False := by
  match p with
  | [] => simp [Glsl.Ty.offsetOf] at hp
  | q :: p =>
    rw [offsetOf_mat_cons] at hp
    split at hp
    · simp only [Option.map_eq_some_iff, Prod.mk.injEq] at hp
      obtain ⟨x, hx, _, hg⟩ := hp
      match p with
      | [] => simp [Glsl.Ty.offsetOf] at hx; rw [← hx] at hg; simp at hg
      | [d] =>
        simp only [Glsl.Ty.offsetOf] at hx
        split at hx
        · simp only [Option.some.injEq] at hx
          rw [← hx] at hg
          simp at hg
          exact hs hg
        · simp at hx
      | _ :: _ :: _ => simp [Glsl.Ty.offsetOf] at hx
    · simp at hp

theorem bool_word_math {l : Layout} {m : MathTy} {i : Impl} (h : mathImpl l m = some i)
    {g : Glsl.Ty} (hgl : m.glsl = some g) {v o : RVal} (ha : i.asStd v = some o)
    (ho : RVal.HasTy i.out o) (e : Endian) {p : List String} {k : Nat}
    (hp : g.offsetOf l p = some (k, .scalar .bool))
    {buf : List Byte} {off : Nat} (hs : SliceAt buf off (enc e o)) :
    ∃ w, Glsl.wordAt e buf (off + k) 4 = some w ∧ w ≤ 1 := by
  have hm := math_glsl h
  rw [hgl] at hm; cases hm
  by_cases hk : m.kind = .matrix
  · rw [if_pos hk] at hp
    obtain ⟨_, _, _, _, _, hsc, _⟩ := matImpl_shape hk h
    refine absurd hp fun hp => bool_word_mat ?_ hp
    rcases hsc with hsc | hsc <;> rw [hsc] <;> simp [MScalar.glsl]
  · rw [if_neg hk] at hp
    rw [mathImpl_vec hk] at h
    exact bool_word_vec hk h ha ho e hp hs

/-- Every `bool` inside a converted value (at any depth) is stored as 0 or 1. -/
theorem bool_word {tg : Target} (htg : tg.Valid) (e : Endian) {env : ForeignEnv} {l : Layout}
    {t : Ty} {i : Impl} {g : Glsl.Ty} (h : resolve tg env l t = some i) (hgl : t.glsl = some g)
    (hpl : t.plain = true) {v o : RVal} (ha : i.asStd v = some o) (ho : RVal.HasTy i.out o)
    {p : List String} {k : Nat} (hp : g.offsetOf l p = some (k, .scalar .bool))
    {buf : List Byte} {off : Nat} (hs : SliceAt buf off (enc e o)) :
    ∃ w, Glsl.wordAt e buf (off + k) 4 = some w ∧ w ≤ 1 := by
  induction t using Ty.ind generalizing i g p k v o off with
  | hs s =>
    cases p with
    | nil => cases s <;> cases hgl <;> simp [Glsl.Ty.offsetOf] at hp
    | cons c p => cases s <;> cases hgl <;> simp [Glsl.Ty.offsetOf] at hp
  | hb =>
    cases p with
    | nil =>
      cases hgl
      simp only [Glsl.Ty.offsetOf, Option.some.injEq, Prod.mk.injEq, and_true] at hp
      subst hp
      simp only [resolve, Option.some.injEq] at h
      subst h
      exact boolImpl_word ha e hs
    | cons c p => cases hgl; simp [Glsl.Ty.offsetOf] at hp
  | hm m => exact bool_word_math h hgl ha ho e hp hs
  | hf n =>
    simp only [resolve, Option.bind_eq_some_iff, Option.map_eq_some_iff] at h
    obtain ⟨row, hr, j, hm, rfl⟩ := h
    simp only [Ty.glsl, foreignMath_row hr, Option.bind_some] at hgl
    simp only [mintyImpl, Option.bind_eq_some_iff] at ha
    obtain ⟨w, _, ha⟩ := ha
    exact bool_word_math hm hgl ha ho e hp hs
  | hst n fs ih =>
    cases p with
    | nil =>
      obtain ⟨ms, rfl, _, _⟩ := glsl_struct hgl
      simp [Glsl.Ty.offsetOf] at hp
    | cons c p =>
      have hagr := agrees_resolve htg h hgl
      obtain ⟨is, hr, hok, rfl⟩ := resolve_struct h
      obtain ⟨ms, rfl, hne, hms⟩ := glsl_struct hgl
      have hA := resolveFields_all2 hr
      have hb := glslMembers_all2 hms
      have hag : AgreesAll l is ms := hA.comp hb fun f hf b c hb hc =>
        ⟨hb.1.symm.trans hc.1, agrees_resolve htg hb.2 hc.2⟩
      have hgd : ∀ f ∈ is, Good f.2 := hA.forall_right fun _ _ _ _ hab => good_resolve htg hab.2
      simp only [Glsl.Ty.offsetOf] at hp
      obtain ⟨k₀, k₁, g₁, h1, h2, h3, h4, rfl⟩ := memberOffsets_of_offsetOfMember ms 0 hp
      obtain ⟨f, hf, hfn, hfg⟩ := hb.mem_right h2
      obtain ⟨⟨n', j⟩, hj, hjn, hjr⟩ := hA.mem_left hf
      simp only at hfn hjn hjr hfg
      rw [hfn] at hjn
      subst hjn
      have hch := gen_child htg hag hgd hagr.pow2.pos hok hj h1
      obtain ⟨y, hy, hyt, hsl⟩ := hch.slice e ho
      obtain ⟨x, y', hx, hxy, hoy⟩ := recordImpl_as_field hok ha hj
      rw [hy, Option.some.injEq] at hoy
      subst hoy
      have := ih f hf hjr hfg (plainFields_mem (by simpa [Ty.plain] using hpl) hf) hxy hyt h4
        (hs.trans hsl)
      rw [Nat.add_assoc] at this
      exact this
  | hd t ih =>
    cases l with
    | std430 => simp [resolve] at h
    | std140 =>
      simp only [resolve, Option.map_eq_some_iff] at h
      obtain ⟨j, hj, rfl⟩ := h
      simp only [Ty.glsl, Option.map_eq_some_iff] at hgl
      obtain ⟨g', hg', rfl⟩ := hgl
      have hp' : g'.offsetOf .std140 p = some (k, .scalar .bool) := by
        cases p with
        | nil => simp [Glsl.Ty.offsetOf] at hp
        | cons c p => simpa [Glsl.Ty.offsetOf] using hp
      cases v with
      | newtype x =>
        simp only [dynamicImpl, Option.map_eq_some_iff] at ha
        obtain ⟨y, hy, rfl⟩ := ha
        exact ih hj hg' (by simpa [Ty.plain] using hpl) hy (by simpa [dynamicImpl, RVal.HasTy] using ho)
          hp' (by simpa [enc] using hs)
      | scalar s b => simp [dynamicImpl] at ha
      | bool b => simp [dynamicImpl] at ha
      | array vs => simp [dynamicImpl] at ha
      | struct fs => simp [dynamicImpl] at ha
  | hu n t ih =>
    simp only [resolve, Option.map_eq_some_iff] at h
    obtain ⟨j, hj, rfl⟩ := h
    simp only [userImpl, Option.bind_eq_some_iff] at ha
    obtain ⟨w, _, ha⟩ := ha
    exact ih hj hgl (by simpa [Ty.plain] using hpl) ha ho hp hs
  | ho l' t ih => simp [Ty.plain] at hpl

end Crevice
