import Verif.Proof.Congr
import Verif.Proof.Denote
/-
Converting back depends on the GLSL value only, whatever the hand-written conversions do.
-/
namespace Crevice

theorem denoteOutFields_mem {fs : List (String × Ty)} {o o' : RVal}
    {xs : List (String × Glsl.Val)} (h : denoteOutFields fs o = some xs)
    (h' : denoteOutFields fs o' = some xs) {f : String × Ty} (hf : f ∈ fs) :
    ∃ y y' x, o.field f.1 = some y ∧ o'.field f.1 = some y' ∧ f.2.denoteOut y = some x ∧
      f.2.denoteOut y' = some x := by
  induction fs generalizing xs with
  | nil => simp at hf
  | cons g r ih =>
    obtain ⟨n, t⟩ := g
    simp only [denoteOutFields, Option.bind_eq_some_iff, Option.map_eq_some_iff] at h h'
    obtain ⟨x, ⟨y, h1, h2⟩, rs, h3, rfl⟩ := h
    obtain ⟨x', ⟨y', h1', h2'⟩, rs', h3', e⟩ := h'
    cases e
    rcases List.mem_cons.1 hf with rfl | hf
    · exact ⟨y, y', x, h1, h1', h2, h2'⟩
    · exact ih h3 h3' hf

theorem from_congr_math {l : Layout} {m : MathTy} {i : Impl} (h : mathImpl l m = some i)
    {o o' : RVal} (ho : RVal.HasTy i.out o) (ho' : RVal.HasTy i.out o')
    (hd : m.denote o = m.denote o') : i.fromStd o = i.fromStd o' := by
  obtain ⟨w, h1, h2⟩ := (conv_mathImpl h).from_ok o ho
  obtain ⟨w', h1', h2'⟩ := (conv_mathImpl h).from_ok o' ho'
  have := denote_math_inj h2 h2' (by rw [denote_math h ho h1, denote_math h ho' h1', hd])
  rw [h1, h1', this]

theorem from_congr {tg : Target} {env : ForeignEnv} {l : Layout} {t : Ty} {i : Impl}
    (h : resolve tg env l t = some i) (hpl : t.plain = true) {o o' : RVal}
    (ho : RVal.HasTy i.out o) (ho' : RVal.HasTy i.out o') {x : Glsl.Val}
    (hd : t.denoteOut o = some x) (hd' : t.denoteOut o' = some x) : i.fromStd o = i.fromStd o' := by
  induction t using Ty.ind generalizing i o o' x with
  | hs s =>
    simp only [resolve, scalarImpl, Option.map_eq_some_iff] at h
    obtain ⟨a, -, rfl⟩ := h
    simp only [blanketImpl] at ho ho'
    have key : ∀ {o : RVal}, RVal.HasTy (.scalar s) o → ∃ b, o = .scalar s b := by
      intro o ho
      cases o <;> simp only [RVal.HasTy] at ho
      subst ho
      exact ⟨_, rfl⟩
    obtain ⟨b, rfl⟩ := key ho
    obtain ⟨b', rfl⟩ := key ho'
    simp only [Ty.denoteOut] at hd hd'
    have e : b = b' := by
      cases s <;> simp only [denoteLeaf, Option.some.injEq] at hd hd'
      · exact Glsl.Val.float.inj (hd.trans hd'.symm)
      · exact Glsl.Val.double.inj (hd.trans hd'.symm)
      · exact Glsl.Val.int.inj (hd.trans hd'.symm)
      · exact Glsl.Val.uint.inj (hd.trans hd'.symm)
      · cases hd
    rw [e]
  | hb =>
    simp only [resolve, Option.some.injEq] at h
    subst h
    simp only [boolImpl, boolTy] at ho ho' ⊢
    cases o <;> simp only [RVal.HasTy] at ho
    cases o' <;> simp only [RVal.HasTy] at ho'
    rename_i w w'
    cases w <;> simp only [RVal.HasTy] at ho
    cases w' <;> simp only [RVal.HasTy] at ho'
    subst ho ho'
    simp only [Ty.denoteOut, denoteLeaf] at hd hd'
    simp only [boolOfBool, Option.map_some]
    have := hd.trans hd'.symm
    simp only [Option.some.injEq, Glsl.Val.bool.injEq] at this
    rw [this]
  | hm m => exact from_congr_math h ho ho' (hd.trans hd'.symm)
  | hf n =>
    simp only [resolve, Option.bind_eq_some_iff, Option.map_eq_some_iff] at h
    obtain ⟨row, hr, j, hj, rfl⟩ := h
    simp only [Ty.denoteOut, foreignMath_row hr, Option.bind_some] at hd hd'
    have := from_congr_math hj ho ho' (hd.trans hd'.symm)
    simp only [mintyImpl, this]
  | hst n fs ih =>
    obtain ⟨is, hr, hok, rfl⟩ := resolve_struct h
    have ha := resolveFields_all2 hr
    simp only [Ty.denoteOut, Option.map_eq_some_iff] at hd hd'
    obtain ⟨xs, hx, rfl⟩ := hd
    obtain ⟨xs', hx', e⟩ := hd'
    cases e
    have : convFields Impl.fromStd is o = convFields Impl.fromStd is o' := by
      unfold convFields
      apply mapM_congr_mem
      intro f hf
      obtain ⟨⟨n', t⟩, hm, hn, hj⟩ := ha.mem_right hf
      simp only at hn hj
      obtain ⟨y, y', z, h1, h1', h2, h2'⟩ := denoteOutFields_mem hx hx' hm
      simp only at h1 h1' h2 h2'
      subst hn
      have ty : ∀ {o y : RVal}, RVal.HasTy (.struct (genFields tg (structAl l is) 0 0 is)) o → o.field f.1 = some y →
          RVal.HasTy f.2.out y := by
        intro o y ho h1
        cases o <;> simp only [RVal.HasTy] at ho
        obtain ⟨y', h4, h5⟩ := HasTys_lookup ho (hok.sub _ f.2 hf)
        simp only [RVal.field] at h1
        rw [h1] at h4; cases h4; exact h5
      rw [h1, h1', Option.bind_some, Option.bind_some,
        ih _ hm hj (plainFields_mem (by simpa [Ty.plain] using hpl) hm) (ty ho h1) (ty ho' h1') h2 h2']
    simp only [recordImpl, this]
  | hd t ih =>
    cases l with
    | std430 => simp [resolve] at h
    | std140 =>
      simp only [resolve, Option.map_eq_some_iff] at h
      obtain ⟨j, hj, rfl⟩ := h
      simp only [dynamicImpl] at ho ho' ⊢
      cases o <;> simp only [RVal.HasTy] at ho
      cases o' <;> simp only [RVal.HasTy] at ho'
      simp only [Ty.denoteOut] at hd hd'
      simp only [ih hj (by simpa [Ty.plain] using hpl) ho ho' hd hd']
  | hu n t ih =>
    simp only [resolve, Option.map_eq_some_iff] at h
    obtain ⟨j, hj, rfl⟩ := h
    simp only [Ty.denoteOut] at hd hd'
    simp only [userImpl, ih hj (by simpa [Ty.plain] using hpl) ho ho' hd hd']
  | ho l' t ih => simp [Ty.plain] at hpl

end Crevice
