import Verif.Spec.Calls
import Verif.Proof.Accept
/-
Lemmas about the names of generated items and about the call graph of the padding functions.
-/
namespace Crevice

/-! ### Trailing digits -/

theorem digits_split {a b x y : List Char} (hx : ∀ c ∈ x, c.isDigit) (hy : ∀ c ∈ y, c.isDigit)
    {p q : Char} (hp : ¬ p.isDigit) (hq : ¬ q.isDigit)
    (h : a ++ p :: x = b ++ q :: y) : a = b ∧ p = q ∧ x = y := by
  have h' := congrArg List.reverse h
  simp only [List.reverse_append, List.reverse_cons, List.append_assoc, List.singleton_append] at h'
  have key : ∀ (x y a b : List Char), (∀ c ∈ x, c.isDigit) → (∀ c ∈ y, c.isDigit) →
      x ++ p :: a = y ++ q :: b → x = y ∧ p :: a = q :: b := by
    intro x
    induction x with
    | nil =>
      intro y a b _ hy h
      cases y with
      | nil => exact ⟨rfl, h⟩
      | cons c r =>
        injection h with h1 _
        exact absurd (h1 ▸ hy c (by simp)) hp
    | cons c x ih =>
      intro y a b hx hy h
      cases y with
      | nil =>
        injection h with h1 _
        exact absurd (h1 ▸ hx c (by simp)) hq
      | cons d r =>
        injection h with h1 h2
        obtain ⟨h3, h4⟩ := ih r a b (fun c hc => hx c (by simp [hc])) (fun c hc => hy c (by simp [hc])) h2
        exact ⟨by rw [h1, h3], h4⟩
  obtain ⟨h1, h2⟩ := key _ _ _ _ (by simpa using hx) (by simpa using hy) h'
  injection h2 with h2 h3
  exact ⟨List.reverse_inj.1 h3, h2, List.reverse_inj.1 h1⟩

theorem repr_digits (n : Nat) : ∀ c ∈ (toString n).toList, c.isDigit := by
  intro c hc
  rw [Nat.toString_eq_repr, Nat.toList_repr] at hc
  exact Nat.isDigit_of_mem_toDigits (by omega) (by omega) hc

/-- The characters of the two trait names. -/
theorem traitName_toList (l : Layout) : l.traitName.toList =
    match l with
    | .std140 => ['S', 't', 'd', '1', '4', '0']
    | .std430 => ['S', 't', 'd', '4', '3', '0'] := by
  cases l <;> simp [Layout.traitName]

theorem traitName_length (l m : Layout) : l.traitName.toList.length = m.traitName.toList.length := by
  cases l <;> cases m <;> simp [traitName_toList]

theorem traitName_inj {l m : Layout} (h : l.traitName.toList = m.traitName.toList) : l = m := by
  cases l <;> cases m <;> simp [traitName_toList] at h ⊢

theorem padFnName_inj' {l m : Layout} {n k : String} {i j : Nat}
    (h : padFnName l n i = padFnName m k j) : l = m ∧ unraw n = unraw k ∧ i = j := by
  have h' := congrArg String.toList h
  simp only [padFnName, String.toList_append] at h'
  have e : ∀ (a d : List Char), a ++ "Pad".toList ++ d = (a ++ ['P', 'a']) ++ 'd' :: d := by
    intro a d; simp
  rw [e, e] at h'
  obtain ⟨h1, -, h2⟩ := digits_split (p := 'd') (q := 'd') (repr_digits i) (repr_digits j)
    (by decide) (by decide) h'
  have hij : i = j := toString_nat_inj (String.toList_inj.1 h2)
  have h3 := List.append_inj_left' h1 rfl
  have hlm : l = m ∧ _ := ⟨?_, List.append_inj_left' h3 (traitName_length l m)⟩
  · refine ⟨hlm.1, ?_, hij⟩
    have h4 := List.append_inj_left' hlm.2 rfl
    exact String.toList_inj.1 (List.append_cancel_left_eq .. ▸ h4)
  · have h5 := List.append_inj_right' h3 (traitName_length l m)
    exact traitName_inj h5

theorem generatedName_inj {l m : Layout} {n k : String}
    (h : generatedName l n = generatedName m k) : l = m ∧ unraw n = unraw k := by
  have h' := congrArg String.toList h
  simp only [generatedName, String.toList_append] at h'
  have h1 := List.append_inj h' (traitName_length l m)
  refine ⟨?_, String.toList_inj.1 h1.2⟩
  exact traitName_inj h1.1

theorem generatedName_ne_padFnName {l m : Layout} {n k : String} {i : Nat} :
    generatedName l n ≠ padFnName m k i := by
  intro h
  have h' := congrArg (fun s => s.toList.head?) h
  cases l <;> simp [generatedName, padFnName, String.toList_append, Layout.traitName] at h'

/-! ### Expansion -/

theorem emitLayout_named {α : Type} {l : Layout} {input : DeriveInput α} {g : Generated α}
    (h : emitLayout l input = .ok g) : ∃ fs, input.data = .structNamed fs := by
  obtain ⟨n, ps, d⟩ := input
  cases d with
  | structNamed fs => exact ⟨fs, rfl⟩
  | _ => simp [emitLayout, Bind.bind, Except.bind] at h

/-- The closed form again, for an expansion that is given. -/
theorem emitLayout_inv {α : Type} {l : Layout} {input : DeriveInput α} {g : Generated α}
    (h : emitLayout l input = .ok g) : ∃ fields, input.data = .structNamed fields ∧
      g.structName = generatedName l input.ident ∧
      g.padFns = (List.range fields.length).map (fun i => (padFnName l input.ident i,
        if h : i < fields.length then
          padBody l fields (padFnNames l input.ident fields.length) i h
        else .lit 0)) ∧
      g.fields = (fields.zipIdx.map fun x => [(x.1.1, GenTy.layoutOf x.1.2),
        (padFieldName x.2, GenTy.padBytes (padFnName l input.ident x.2))]).flatten ∧
      g.alignment = structAlignment l fields ∧ g.structParams = input.generics ∧
      g.outputArgs = [] := by
  obtain ⟨fs, hfs⟩ := emitLayout_named h
  obtain ⟨n, ps, d⟩ := input
  subst hfs
  obtain ⟨g', h1, h2, h3, h4, h5, -, -, h6, h7⟩ := emitLayout_ok l n fs ps
  rw [h] at h1
  injection h1 with h1
  subst h1
  exact ⟨fs, rfl, h2, h3, h4, h5, h6, h7⟩

theorem itemNames_eq {α : Type} {l : Layout} {input : DeriveInput α} {g : Generated α}
    (h : emitLayout l input = .ok g) :
    ∃ n, g.itemNames = generatedName l input.ident :: (List.range n).map (padFnName l input.ident) := by
  obtain ⟨fs, -, h1, h2, -⟩ := emitLayout_inv h
  refine ⟨fs.length, ?_⟩
  rw [Generated.itemNames, h1, h2, List.map_map]
  rfl

theorem itemNames_nodup {α : Type} {l : Layout} {input : DeriveInput α} {g : Generated α}
    (h : emitLayout l input = .ok g) : g.itemNames.Nodup := by
  obtain ⟨n, hn⟩ := itemNames_eq h
  rw [hn, List.nodup_cons]
  refine ⟨fun hm => ?_, nodup_map_of_injective (fun a b hab => padFnName_inj hab) List.nodup_range⟩
  obtain ⟨i, -, hi⟩ := List.mem_map.1 hm
  exact generatedName_ne_padFnName hi.symm

theorem itemNames_disjoint {α : Type} {l m : Layout} {a b : DeriveInput α} {g k : Generated α}
    (hg : emitLayout l a = .ok g) (hk : emitLayout m b = .ok k)
    (hne : (l, unraw a.ident) ≠ (m, unraw b.ident)) : ∀ x ∈ g.itemNames, x ∉ k.itemNames := by
  obtain ⟨n, hn⟩ := itemNames_eq hg
  obtain ⟨p, hp⟩ := itemNames_eq hk
  rw [hn, hp]
  intro x hx hy
  rcases List.mem_cons.1 hx with rfl | hx
  · rcases List.mem_cons.1 hy with hy | hy
    · obtain ⟨h1, h2⟩ := generatedName_inj hy
      exact hne (by rw [h1, h2])
    · obtain ⟨i, -, hi⟩ := List.mem_map.1 hy
      exact generatedName_ne_padFnName hi.symm
  · obtain ⟨i, -, rfl⟩ := List.mem_map.1 hx
    rcases List.mem_cons.1 hy with hy | hy
    · exact generatedName_ne_padFnName hy.symm
    · obtain ⟨j, -, hj⟩ := List.mem_map.1 hy
      obtain ⟨h1, h2, -⟩ := padFnName_inj' hj
      exact hne (by rw [h1, h2])

theorem fieldNames_perm {α : Type} (l : Layout) (name : String) (fs : List (String × α)) (i : Nat) :
    List.Perm (((fs.zipIdx i).map fun x => [(x.1.1, GenTy.layoutOf x.1.2),
        (padFieldName x.2, GenTy.padBytes (padFnName l name x.2))]).flatten.map Prod.fst)
      (fs.map Prod.fst ++ (List.range' i fs.length).map padFieldName) := by
  induction fs generalizing i with
  | nil => simp
  | cons f r ih =>
    simp only [List.zipIdx_cons, List.map_cons, List.flatten_cons, List.length_cons,
      List.range'_succ, List.cons_append, List.nil_append]
    refine .cons _ ?_
    refine .trans (.cons _ (ih _)) ?_
    exact List.perm_middle.symm

theorem genFieldNames_nodup {α : Type} {l : Layout} {name : String} {ps : List String} {fs : List (String × α)}
    {g : Generated α} (h : emitLayout l ⟨name, ps, .structNamed fs⟩ = .ok g) :
    (g.fields.map fun f => plainName f.1).Nodup ↔
      (fs.map fun f => plainName f.1).Nodup ∧
        ∀ n ∈ (fs.map fun f => plainName f.1), n ∉ reservedNames fs.length := by
  obtain ⟨fs', he, -, -, h3, -⟩ := emitLayout_inv h
  injection he with he
  subst he
  have h0 : ∀ {β : Type} (gs : List (String × β)),
      (gs.map fun f => plainName f.1) = (gs.map Prod.fst).map plainName := fun gs => by simp
  have hr : ((List.range' 0 fs.length).map padFieldName).map plainName = reservedNames fs.length := by
    rw [List.map_map, reservedNames, List.range_eq_range']
    exact List.map_congr_left fun f _ => by
      simp only [Function.comp, plainName_eq_unraw, unraw_padFieldName]; rfl
  have hn : (reservedNames fs.length).Nodup :=
    nodup_map_of_injective (f := padFieldName) (fun a b h => padFieldName_inj h) List.nodup_range
  rw [h0, h0, h3, ((fieldNames_perm l name fs 0).map plainName).nodup_iff, List.map_append, hr,
    List.nodup_append]
  constructor
  · rintro ⟨h1, _, h2⟩
    exact ⟨h1, fun n hn hc => h2 n hn n hc rfl⟩
  · rintro ⟨h1, h2⟩
    exact ⟨h1, hn, fun a ha b hb hab => h2 a ha (hab ▸ hb)⟩

/-! ### Call graph -/

theorem callsArgs_alignments {α : Type} (fs : List (String × α)) :
    callsArgs (fs.map fun f => (CExpr.alignmentOf f.2 : CExpr α)) = [] := by
  induction fs with
  | nil => rfl
  | cons f r ih => simp [callsArgs, CExpr.calls, ih]

theorem calls_structAlignment {α : Type} (l : Layout) (fs : List (String × α)) :
    (structAlignment l fs).calls = [] := by
  simp [structAlignment, CExpr.calls, callsArgs, callsArgs_alignments]

theorem calls_offExpr {α : Type} {l : Layout} {name : String} {fs : List (String × α)} {k : Nat}
    (hk : k ≤ fs.length) :
    (offExpr fs (padFnNames l name fs.length) k).calls = (List.range k).map (padFnName l name) := by
  induction k with
  | zero => rfl
  | succ k ih =>
    have h1 : k < fs.length := by omega
    have h2 := ih (by omega)
    simp only [padFnNames] at h2
    simp [offExpr, padFnNames, h1, CExpr.calls, h2, List.range_succ]

theorem calls_padBody {α : Type} {l : Layout} {name : String} {fs : List (String × α)} {i : Nat}
    (hi : i < fs.length) :
    (padBody l fs (padFnNames l name fs.length) i hi).calls =
      (List.range i).map (padFnName l name) := by
  simp only [padBody, CExpr.calls, calls_offExpr (Nat.le_of_lt hi)]
  cases fs[i + 1]? with
  | none => simp [calls_structAlignment]
  | some f => simp [CExpr.calls]

theorem call_pad {tg : Target} {l : Layout} {name : String} {ps : List String} {fs : List (String × Impl)}
    {g : Generated Impl} (hg : emitLayout l ⟨name, ps, .structNamed fs⟩ = .ok g) {i : Nat}
    (hi : i < fs.length) :
    g.call tg (padFnName l name i) = some (padAt tg (structAl l fs) fs i) := by
  obtain ⟨fs', he, -, hpf, -, -⟩ := emitLayout_inv hg
  injection he with he
  subst he
  have hlen : g.padFns.length = fs.length := by simp [hpf]
  rw [Generated.call, hlen]
  refine evalFn_pad ?_ hi hi
  intro j hj
  rw [hpf, lookup_padFns hj, dif_pos hj]

end Crevice
