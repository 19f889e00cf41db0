import Verif.Spec.Accept
import Verif.Proof.Conv
/-
A type resolves exactly when it is accepted.
-/
namespace Crevice

theorem rows_supported : (easyRows.all fun r => r.ty.supported) = true := by decide

theorem easyRow_isSome_iff (m : MathTy) : (∃ r, easyRow m = some r) ↔ m.supported = true := by
  constructor
  · rintro ⟨r, hr⟩
    obtain ⟨hm, rfl⟩ := easyRow_mem hr
    exact List.all_eq_true.1 rows_supported r hm
  · intro h
    obtain ⟨lib, kind, s, dim⟩ := m
    have hd : dim = 2 ∨ dim = 3 ∨ dim = 4 := by
      cases kind <;> simp [MathTy.supported] at h <;> omega
    apply Option.isSome_iff_exists.1
    rcases hd with rfl | rfl | rfl <;> cases lib <;> cases kind <;> cases s <;>
      first
        | (exfalso; revert h; decide)
        | decide

theorem minty_supported : (mintyRows.all fun r => r.mint.supported) = true := by decide

theorem gen_names_perm {tg : Target} {sal : Nat} (fs : List (String × Impl)) (i off : Nat) :
    List.Perm ((genFields tg sal i off fs).map Prod.fst)
      (fs.map Prod.fst ++ (List.range' i fs.length).map padFieldName) := by
  induction fs generalizing i off with
  | nil => simp [genFields]
  | cons f r ih =>
    obtain ⟨n, f⟩ := f
    simp only [genFields, List.map_cons, List.length_cons, List.range'_succ, List.cons_append]
    refine .cons _ ?_
    refine .trans (.cons _ (ih _ _)) ?_
    exact List.perm_middle.symm

theorem gen_names_nodup {tg : Target} {sal : Nat} (fs : List (String × Impl)) :
    ((genFields tg sal 0 0 fs).map Prod.fst).Nodup ↔
      (fs.map Prod.fst).Nodup ∧ ∀ n ∈ fs.map Prod.fst, n ∉ reservedNames fs.length := by
  rw [(gen_names_perm fs 0 0).nodup_iff, List.nodup_append]
  have hr : (List.range' 0 fs.length).map padFieldName = reservedNames fs.length := by
    simp [reservedNames, List.range_eq_range', padFieldName]
  have hn : ((List.range' 0 fs.length).map padFieldName).Nodup := by
    apply nodup_map_of_injective (fun a b h => padFieldName_inj h)
    exact List.nodup_range'
  constructor
  · rintro ⟨h1, _, h2⟩
    refine ⟨h1, fun n hn hc => ?_⟩
    rw [hr] at h2
    exact h2 n hn n hc rfl
  · rintro ⟨h1, h2⟩
    refine ⟨h1, hn, fun a ha b hb hab => ?_⟩
    rw [hr] at hb
    subst hab
    exact h2 _ ha hb

theorem plainName_eq_unraw (s : String) : plainName s = unraw s := by
  unfold plainName unraw
  split
  · rename_i h
    obtain ⟨r, hr⟩ := h
    rw [← hr]
    rfl
  · rename_i h
    split
    · rename_i r hr
      exact absurd ⟨r, by rw [hr]; rfl⟩ h
    · rfl

theorem unraw_padFieldName (i : Nat) : unraw (padFieldName i) = padFieldName i := by
  have : (padFieldName i).toList = '_' :: ("pad" ++ toString i).toList := by
    simp [padFieldName]
  unfold unraw
  rw [this]
  rfl

theorem gen_unraw_nodup {tg : Target} {sal : Nat} (fs : List (String × Impl)) :
    ((genFields tg sal 0 0 fs).map fun f => unraw f.1).Nodup ↔
      (fs.map fun f => plainName f.1).Nodup ∧
        ∀ n ∈ (fs.map fun f => plainName f.1), n ∉ reservedNames fs.length := by
  have h0 : ((genFields tg sal 0 0 fs).map fun f => unraw f.1) =
      ((genFields tg sal 0 0 fs).map Prod.fst).map unraw := by simp
  have hu : (fs.map fun f => plainName f.1) = (fs.map Prod.fst).map unraw := by
    rw [List.map_map]
    exact List.map_congr_left fun f _ => plainName_eq_unraw _
  have hr : ((List.range' 0 fs.length).map padFieldName).map unraw = reservedNames fs.length := by
    rw [List.map_map, reservedNames, List.range_eq_range']
    exact List.map_congr_left fun f _ => by simp only [Function.comp, unraw_padFieldName]; rfl
  have hn : (reservedNames fs.length).Nodup :=
    nodup_map_of_injective (f := padFieldName) (fun a b h => padFieldName_inj h) List.nodup_range
  rw [h0, hu, ((gen_names_perm fs 0 0).map unraw).nodup_iff, List.map_append, hr, List.nodup_append]
  constructor
  · rintro ⟨h1, _, h2⟩
    exact ⟨h1, fun n hn hc => h2 n hn n hc rfl⟩
  · rintro ⟨h1, h2⟩
    exact ⟨h1, hn, fun a ha b hb hab => h2 a ha (hab ▸ hb)⟩

theorem resolveFields_names {tg : Target} {env : ForeignEnv} {l : Layout} {fs : List (String × Ty)}
    {is : List (String × Impl)} (h : resolveFields tg env l fs = some is) :
    is.map Prod.fst = fs.map Prod.fst := by
  have h2 := resolveFields_all2 h
  clear h
  induction h2 with
  | nil => rfl
  | cons hr _ ih => simp [hr.1, ih]

theorem layoutFree_eq_neutral (t : Ty) : t.layoutFree = t.neutral := by
  induction t using Ty.ind with
  | hu n t ih => simpa only [Ty.layoutFree, Ty.neutral] using ih
  | ho m t ih => simpa only [Ty.layoutFree, Ty.neutral] using ih
  | _ => rfl

/-- The Output types without `Debug` are the dynamic uniforms. -/
theorem outDebug_resolve {tg : Target} {env : ForeignEnv} {l : Layout} {t : Ty} {i : Impl}
    (h : resolve tg env l t = some i) : i.outDebug = !t.isDynamic := by
  have easy : ∀ {row : EasyRow} {c j : Impl}, easyImpl l row c = some j → j.outDebug = true := by
    intro row c j hj
    simp only [easyImpl, Option.map_eq_some_iff] at hj
    obtain ⟨p, -, rfl⟩ := hj
    rfl
  have vec : ∀ {m : MathTy} {j : Impl}, vecImpl l m = some j → j.outDebug = true := by
    intro m j hj
    simp only [vecImpl, Option.bind_eq_some_iff] at hj
    obtain ⟨row, -, c, -, hj⟩ := hj
    exact easy hj
  have math : ∀ {m : MathTy} {j : Impl}, mathImpl l m = some j → j.outDebug = true := by
    intro m j hj
    unfold mathImpl at hj
    split at hj
    · simp only [Option.bind_eq_some_iff] at hj
      obtain ⟨row, -, c, -, hj⟩ := hj
      exact easy hj
    · exact vec hj
  induction t using Ty.ind generalizing i with
  | hs s =>
    simp only [resolve, scalarImpl, Option.map_eq_some_iff] at h
    obtain ⟨a, -, rfl⟩ := h
    rfl
  | hb => simp only [resolve, Option.some.injEq] at h; subst h; rfl
  | hm m => exact math h
  | hf n =>
    simp only [resolve, Option.bind_eq_some_iff, Option.map_eq_some_iff] at h
    obtain ⟨row, -, j, hj, rfl⟩ := h
    exact (math hj :)
  | hst n fs =>
    obtain ⟨is, -, -, rfl⟩ := resolve_struct h
    rfl
  | hd t =>
    cases l
    · simp only [resolve, Option.map_eq_some_iff] at h
      obtain ⟨j, -, rfl⟩ := h
      rfl
    · cases h
  | hu n t ih =>
    simp only [resolve, Option.map_eq_some_iff] at h
    obtain ⟨j, hj, rfl⟩ := h
    exact (ih hj :)
  | ho l' t ih =>
    simp only [resolve] at h
    split at h
    · simp only [Option.map_eq_some_iff] at h
      obtain ⟨j, hj, rfl⟩ := h
      exact (ih hj :)
    · cases h

theorem resolveFields_isSome_iff {tg : Target} {env : ForeignEnv} {l : Layout}
    (fs : List (String × Ty))
    (ih : ∀ f ∈ fs, (∃ i, resolve tg env l f.2 = some i) ↔ f.2.accepted l = true) :
    (∃ is, resolveFields tg env l fs = some is ∧ (is.all fun f => f.2.outDebug) = true) ↔
      acceptedFields l fs = true := by
  induction fs with
  | nil => simp [resolveFields, acceptedFields]
  | cons f r ihr =>
    obtain ⟨n, t⟩ := f
    have h1 := ih (n, t) (by simp)
    have h2 := ihr fun f hf => ih f (by simp [hf])
    simp only [resolveFields, acceptedFields, Bool.and_eq_true]
    rw [← h1, ← h2]
    constructor
    · rintro ⟨is, h, hd⟩
      simp only [Option.bind_eq_some_iff, Option.map_eq_some_iff] at h
      obtain ⟨i, hi, is', his, rfl⟩ := h
      simp only [List.all_cons, Bool.and_eq_true] at hd
      exact ⟨⟨⟨i, hi⟩, by rw [← outDebug_resolve hi]; exact hd.1⟩, is', his, hd.2⟩
    · rintro ⟨⟨⟨i, hi⟩, hd⟩, is, his, hds⟩
      refine ⟨(n, i) :: is, by simp [hi, his], ?_⟩
      rw [List.all_cons, hds, outDebug_resolve hi, hd]; rfl

/-- A type compiles exactly when it is accepted. -/
theorem resolve_isSome_iff (tg : Target) (env : ForeignEnv) (l : Layout) (t : Ty) :
    (∃ i, resolve tg env l t = some i) ↔ t.accepted l = true := by
  induction t using Ty.ind with
  | hs s =>
    cases s <;> cases l <;> simp [resolve, scalarImpl, Layout.scalarAlignment, Ty.accepted]
  | hb => simp [resolve, Ty.accepted]
  | hm m =>
    simp only [resolve, Ty.accepted]
    rw [mathImpl_some_iff, easyRow_isSome_iff]
  | hf n =>
    simp only [resolve, Ty.accepted]
    constructor
    · rintro ⟨i, h⟩
      simp only [Option.bind_eq_some_iff] at h
      obtain ⟨row, hrow, _⟩ := h
      rw [foreignMath_row hrow]; rfl
    · intro h
      obtain ⟨m, hm⟩ := Option.isSome_iff_exists.1 h
      obtain ⟨row, hrow, rfl⟩ := row_foreignMath hm
      have hm := (mintyRow_mem hrow).1
      have hsup := List.all_eq_true.1 minty_supported row hm
      obtain ⟨i, hi⟩ := (mathImpl_some_iff l row.mint).2 ((easyRow_isSome_iff _).2 hsup)
      exact ⟨_, by simp [hrow, hi]; rfl⟩
  | hst n fs ih =>
    have h1 := resolveFields_isSome_iff (tg := tg) (env := env) (l := l) fs ih
    simp only [resolve, Ty.accepted, Bool.and_eq_true, decide_eq_true_eq, List.all_eq_true,
      Bool.not_eq_true']
    rw [← h1]
    constructor
    · rintro ⟨i, h⟩
      simp only [Option.bind_eq_some_iff] at h
      obtain ⟨is, his, h⟩ := h
      rw [deriveImpl_eq] at h
      have hnm := resolveFields_names his
      have hpl : (is.map fun f => plainName f.1) = fs.map fun f => plainName f.1 := by
        have := congrArg (List.map plainName) hnm
        simpa [List.map_map, Function.comp_def] using this
      have hlen : is.length = fs.length := by simpa using congrArg List.length hnm
      split at h
      · rename_i hn
        rw [gen_unraw_nodup, hpl, hlen] at hn
        refine ⟨⟨⟨is, his, hn.2⟩, hn.1.1⟩, fun x hx => ?_⟩
        have := hn.1.2 x hx
        simpa using this
      · simp at h
    · rintro ⟨⟨⟨is, his, hdb⟩, h2⟩, h3⟩
      have hnm := resolveFields_names his
      have hpl : (is.map fun f => plainName f.1) = fs.map fun f => plainName f.1 := by
        have := congrArg (List.map plainName) hnm
        simpa [List.map_map, Function.comp_def] using this
      have hlen : is.length = fs.length := by simpa using congrArg List.length hnm
      simp only [his, Option.bind_some]
      rw [deriveImpl_eq, if_pos]
      · exact ⟨_, rfl⟩
      · rw [gen_unraw_nodup, hpl, hlen]
        exact ⟨⟨h2, fun x hx => by simpa using h3 x hx⟩, hdb⟩
  | hd t ih =>
    cases l <;> simp only [resolve, Ty.accepted]
    · simp only [Option.map_eq_some_iff, beq_self_eq_true, Bool.true_and]
      rw [← ih]
      exact ⟨fun ⟨_, i, h, _⟩ => ⟨i, h⟩, fun ⟨i, h⟩ => ⟨_, i, h, rfl⟩⟩
    · simp
  | hu n t ih =>
    simp only [resolve, Ty.accepted, Option.map_eq_some_iff]
    rw [← ih]
    exact ⟨fun ⟨_, i, h, _⟩ => ⟨i, h⟩, fun ⟨i, h⟩ => ⟨_, i, h, rfl⟩⟩
  | ho l' t ih =>
    simp only [resolve, Ty.accepted]
    by_cases hl : l' = l ∨ t.layoutFree = true
    · have hl' : (l' == l || t.neutral) = true := by
        rw [← layoutFree_eq_neutral]; simpa using hl
      simp only [hl, if_true, Option.map_eq_some_iff, hl', Bool.true_and]
      rw [← ih]
      exact ⟨fun ⟨_, i, h, _⟩ => ⟨i, h⟩, fun ⟨i, h⟩ => ⟨_, i, h, rfl⟩⟩
    · have hl' : (l' == l || t.neutral) = false := by
        rw [← layoutFree_eq_neutral]; simpa using hl
      simp [hl, hl']

end Crevice
