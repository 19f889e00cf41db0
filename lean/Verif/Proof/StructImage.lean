import Verif.Proof.PlaceSpec
import Verif.Proof.Accept
/-
The bytes of a converted struct are the image of its converted fields, followed by zeros.
-/
namespace Crevice

/-- The field of a struct as the Writer would see it, after conversion. -/
def fieldVal (tg : Target) (inits : List (String × RVal)) (f : String × Impl) : StdVal :=
  { alignment := f.2.alignment
    size := f.2.out.size tg
    bytes := enc tg.endian ((inits.lookup f.1).getD (zeroed f.2.out)) }

theorem fill_cons (n : String) (t : RTy) (gs : List (String × RTy)) (inits : List (String × RVal)) :
    fill ((n, t) :: gs) inits = (n, (inits.lookup n).getD (zeroed t)) :: fill gs inits := rfl

theorem encFields_gen {tg : Target} (htg : tg.Valid) {is : List (String × Impl)}
    (hg : ∀ f ∈ is, Good f.2) (sal i cur : Nat) {inits : List (String × RVal)}
    (hty : ∀ f ∈ is, RVal.HasTy f.2.out ((inits.lookup f.1).getD (zeroed f.2.out)))
    (hpad : ∀ k, i ≤ k → k < i + is.length → padFieldName k ∉ inits.map Prod.fst) :
    List.replicate (nextOffset cur (nextAl sal is) - cur) 0 ++
        encFields tg.endian (fill (genFields tg sal i (nextOffset cur (nextAl sal is)) is) inits) =
      image cur (is.map (fieldVal tg inits)) ++
        List.replicate (nextOffset (endOf cur (is.map (fieldVal tg inits))) sal -
          endOf cur (is.map (fieldVal tg inits))) 0 := by
  induction is generalizing i cur with
  | nil => simp [genFields, fill, encFields, image, endOf, nextAl]
  | cons f r ih =>
    obtain ⟨n, f⟩ := f
    have hsz := size_eq_natSize htg (hg (n, f) (by simp)).packed
    have hlen : (fieldVal tg inits (n, f)).bytes.length = f.out.size tg := by
      rw [hsz]; exact enc_length _ (hty (n, f) (by simp))
    have ih' := ih (fun g hg' => hg g (List.mem_cons_of_mem _ hg')) (i + 1)
      (nextOffset cur f.alignment + f.out.size tg)
      (fun g hg' => hty g (List.mem_cons_of_mem _ hg'))
      (fun k h1 h2 => hpad k (by omega) (by simp only [List.length_cons]; omega))
    have hp : inits.lookup (padFieldName i) = none :=
      lookup_eq_none_of_not_mem (hpad i (Nat.le_refl _) (by simp))
    simp only [genFields, nextAl_cons, fill_cons, hp, Option.getD_none, encFields, List.map_cons,
      image, endOf, hlen]
    rw [enc_zeroed]
    have hal : (fieldVal tg inits (n, f)).alignment = f.alignment := rfl
    have hby : (fieldVal tg inits (n, f)).bytes =
      enc tg.endian ((inits.lookup n).getD (zeroed f.out)) := rfl
    rw [hal, hby]
    simp only [RTy.natSize, Scalar.size, Nat.one_mul]
    rw [nextOffset_eq _ (nextAl sal r), Nat.add_sub_cancel_left] at ih'
    rw [List.append_assoc, ← ih']
    simp only [List.append_assoc]

/-- The bytes of a derived struct: fields one after the other, zeros between and after. -/
theorem derive_image {tg : Target} (htg : tg.Valid) {is : List (String × Impl)}
    (hg : ∀ f ∈ is, Good f.2) (sal : Nat) (hok : RecordOk (genFields tg sal 0 0 is) is)
    {inits : List (String × RVal)} (hn : inits.map Prod.fst = is.map Prod.fst)
    (hty : ∀ f ∈ is, RVal.HasTy f.2.out ((inits.lookup f.1).getD (zeroed f.2.out))) :
    encFields tg.endian (fill (genFields tg sal 0 0 is) inits) =
      image 0 (is.map (fieldVal tg inits)) ++
        List.replicate (nextOffset (endOf 0 (is.map (fieldVal tg inits))) sal -
          endOf 0 (is.map (fieldVal tg inits))) 0 := by
  have h := encFields_gen htg hg sal 0 0 hty (by
    intro k _ hk hc
    rw [hn] at hc
    refine (gen_names_nodup is).1 hok.gnodup |>.2 _ hc ?_
    exact List.mem_map.2 ⟨k, by simpa using hk, rfl⟩)
  rw [nextOffset_zero] at h
  simpa using h

/-- A converted struct, field by field: the converted fields `ws` (as the Writer sees them) and the
bytes of the whole. -/
theorem struct_image {tg : Target} (htg : tg.Valid) {env : ForeignEnv} (henv : env.Lawful tg)
    {l : Layout} {name : String} {fs : List (String × Ty)} {i : Impl}
    (h : resolve tg env l (.struct name fs) = some i) {v o : RVal}
    (hv : (Ty.struct name fs).HasVal tg env v) (ho : i.asStd v = some o) :
    ∃ ws : List StdVal,
      All2 (fun (f : String × Ty) (w : StdVal) => ∃ j x y, resolve tg env l f.2 = some j ∧
        v.field f.1 = some x ∧ f.2.HasVal tg env x ∧ j.asStd x = some y ∧ RVal.HasTy j.out y ∧
        w = { alignment := j.alignment, size := j.out.size tg, bytes := enc tg.endian y } ∧
        o.field f.1 = some y) fs ws ∧
      enc tg.endian o = image 0 ws ++
        List.replicate (nextOffset (endOf 0 ws) i.alignment - endOf 0 ws) 0 := by
  obtain ⟨is, his, hok, rfl⟩ := resolve_struct h
  have ha := resolveFields_all2 his
  have hg : ∀ f ∈ is, Good f.2 := ha.forall_right fun a _ b _ hr => good_resolve htg hr.2
  obtain ⟨vs, rfl, hvs⟩ := hv
  rw [HasVals_iff] at hvs
  have hnv : (vs.map Prod.fst) = is.map Prod.fst := by
    rw [resolveFields_names his]
    clear his ha h ho hok hg
    induction hvs with
    | nil => rfl
    | cons hr _ ih => simp only [List.map_cons]; rw [ih, hr.1]
  have hnod : (vs.map Prod.fst).Nodup := by rw [hnv]; exact hok.fnodup
  have hconv : ∃ inits, convFields Impl.asStd is (.struct vs) = some inits := by
    cases hc : convFields Impl.asStd is (.struct vs) with
    | none =>
      simp only [recordImpl] at ho
      rw [hc] at ho
      simp at ho
    | some inits => exact ⟨inits, rfl⟩
  obtain ⟨inits, hin⟩ := hconv
  have hnm := convFields_names hin
  have hinod : (inits.map Prod.fst).Nodup := by rw [hnm]; exact hok.fnodup
  have ho' := recordImpl_asStd hok (structAl l is) hin
  rw [ho] at ho'
  simp only [Option.some.injEq] at ho'
  -- per field facts
  have key : ∀ f ∈ fs, ∀ j ∈ is, f.1 = j.1 → resolve tg env l f.2 = some j.2 →
      ∃ x y, (RVal.struct vs).field f.1 = some x ∧ f.2.HasVal tg env x ∧ j.2.asStd x = some y ∧
        RVal.HasTy j.2.out y ∧ inits.lookup j.1 = some y := by
    intro f hf j hj hn hr
    obtain ⟨x, hx, hxn, hxv⟩ := hvs.mem_left hf
    obtain ⟨x', y, h1, h2, h3⟩ := convFields_mem hin (n := j.1) (i := j.2) hj
    have hfx : (RVal.struct vs).field f.1 = some x.2 := by
      have : (f.1, x.2) ∈ vs := by rw [hxn]; exact hx
      exact lookup_eq_some_of_mem hnod this
    rw [← hn, hfx, Option.some.injEq] at h1
    subst h1
    obtain ⟨y', hy', hty, _⟩ := (conv_resolve henv hr).as_ok x.2 hxv
    rw [h2, Option.some.injEq] at hy'
    subst hy'
    exact ⟨x.2, y, hfx, hxv, h2, hty, lookup_eq_some_of_mem hinod h3⟩
  have hty : ∀ f ∈ is, RVal.HasTy f.2.out ((inits.lookup f.1).getD (zeroed f.2.out)) := by
    intro j hj
    obtain ⟨f, hf, hn, hr⟩ := ha.mem_right hj
    obtain ⟨x, y, _, _, _, h4, h5⟩ := key f hf j hj hn hr
    rw [h5]; exact h4
  refine ⟨is.map (fieldVal tg inits), ?_, ?_⟩
  · have hpad : ∀ f ∈ is, (genFields tg (structAl l is) 0 0 is).lookup f.1 = some f.2.out :=
      fun f hf => hok.sub f.1 f.2 hf
    have ha' : All2 (fun (f : String × Ty) (j : String × Impl) => ∃ x y,
        resolve tg env l f.2 = some j.2 ∧ (RVal.struct vs).field f.1 = some x ∧
        f.2.HasVal tg env x ∧ j.2.asStd x = some y ∧ RVal.HasTy j.2.out y ∧
        inits.lookup j.1 = some y ∧ o.field f.1 = some y) fs is := by
      refine ha.imp_mem fun f hf j hj hr => ?_
      obtain ⟨x, y, h1, h2, h3, h4, h5⟩ := key f hf j hj hr.1 hr.2
      refine ⟨x, y, hr.2, h1, h2, h3, h4, h5, ?_⟩
      rw [ho']
      show (fill _ inits).lookup f.1 = _
      rw [hr.1, fill_lookup (hpad j hj), h5]
      rfl
    clear key hty ha hg hok h ho ho' hin hnm hinod hpad his hvs hnv hnod
    induction ha' with
    | nil => exact .nil
    | cons hr _ ih =>
      refine .cons ?_ ih
      obtain ⟨x, y, h1, h2, h3, h4, h5, h6, h7⟩ := hr
      refine ⟨_, x, y, h1, h2, h3, h4, h5, ?_, h7⟩
      simp [fieldVal, h6]
  · rw [ho']
    exact derive_image htg hg (structAl l is) hok hnm hty

end Crevice
