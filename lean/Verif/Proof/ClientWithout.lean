import Verif.Proof.ClientWithUses
/-
A struct with a field whose type is not there with the features has no implementation.
-/
namespace Crevice.ClientProof
open RustCode RustTypes TypeNames ClientText Tables

variable {k : Client} {f : Features} {tg : Target} {env : ForeignEnv} {l : Layout}

/-- What may be mentioned: everything that is not of the crate. -/
def viewM (k : Client) (f : Features) : View :=
  { viewC k with via := fun m p => (viewC k).via m p ∧ (view f).path m p }

theorem jointM (m : String) : Joint (view f) (viewC k) (viewM k f) m where
  path := fun _ _ h2 => h2
  via := fun _ h1 h2 => ⟨h2, h1.1⟩
  item := fun _ h => h
  sized := fun h => h.elim

mutual
theorem cok_M : ∀ c : CTy, COk (viewM k f) c ↔ COk (viewC k) c
  | .named q cs => by
    unfold COk
    rw [coks_M cs]
    exact Iff.rfl
  | .array t _ => by
    unfold COk
    exact cok_M t
theorem coks_M : ∀ cs : List CTy, COks (viewM k f) cs ↔ COks (viewC k) cs
  | [] => by
    unfold COks
    exact Iff.rfl
  | c :: cs => by
    unfold COks
    rw [cok_M c, coks_M cs]
end

theorem resolve_ne {names : List (String × List String)} (hne : ∀ n ∈ names, n.1 ≠ "") {m : String} {p q : List String}
    (h : ∀ x ∈ p, x ≠ "") (hq : resolveName names m p = some q) : ∀ x ∈ q, x ≠ "" := by
  have same : some p = some q → ∀ x ∈ q, x ≠ "" := by
    intro e
    injection e with e
    subst e
    exact h
  rcases p with _ | ⟨a, _ | ⟨b, _ | ⟨c, _ | ⟨d, p⟩⟩⟩⟩
  · exact same hq
  · unfold resolveName at hq
    dsimp only at hq
    have ha := h a (by simp)
    split at hq
    · next hm =>
      injection hq with hq
      subst hq
      intro x hx
      simp only [List.mem_cons, List.not_mem_nil, or_false] at hx
      rcases hx with rfl | rfl
      · obtain ⟨n, hn, rfl⟩ := lookup_key hm
        exact hne n hn
      · exact ha
    · split at hq
      · exact same hq
      · next n hn =>
        injection hq with hq
        subst hq
        have hm : n ∈ names := (List.mem_filter.1 (hn ▸ List.mem_singleton.2 rfl)).1
        intro x hx
        simp only [List.mem_cons, List.not_mem_nil, or_false] at hx
        rcases hx with rfl | rfl
        · exact hne n hm
        · exact ha
      · cases hq
  · exact same hq
  · unfold resolveName at hq
    dsimp only at hq
    split at hq
    · split at hq
      · injection hq with hq
        subst hq
        exact fun x hx => h x (List.mem_cons_of_mem _ hx)
      · cases hq
    · exact same hq
  · exact same hq

theorem not_own {c : CTy} (hc : COk (viewM k f) c) (x : String) : ∀ q cs, c = .named q cs → q ≠ ["", x] := by
  rintro q cs rfl rfl
  unfold COk at hc
  exact hc.1 "" (by simp) rfl

theorem kxf_names (k : Client) (f : Features) : (kxf k f).names = namesF k f := rfl

theorem conservesM (k : Client) (f : Features) (tg : Target) (env : ForeignEnv) :
    Conserves (viewM k f) (indexWith f) (kxf k f) (outside env) (clientOutside tg env) where
  path := by
    intro m p h
    rw [with_names, kxf_names, resolve_pathF h]
    exact ⟨rfl, fun q hq => resolve_ne (namesWith_ne _) h.1 hq⟩
  via := by
    intro m p h
    rw [with_names, kxf_names, resolve_pathF h.1.1]
    refine ⟨rfl, fun q hq => ?_⟩
    unfold namesWith at hq
    rw [resolve_filter fun x hx => (h.2 x hx).1] at hq
    exact h.1.2 q hq
  item := by
    intro a ha
    rw [kxf_owners]
    refine ⟨rfl, fun o ho => ?_⟩
    rw [with_owners] at ho
    have h2 : ∀ b, ∀ a ∈ coreAssoc, ∀ o ∈ (theOwners.filter fun s => !s.2.any (gone b).contains).filter (fun o => o.1 == a),
        o.2 ∈ coreTraits := by
      intro b
      cases b <;> decide +kernel
    exact h2 f.std a ha o ho
  structs := by
    intro p hp
    have e : (kxf k f).structs.lookup p = (indexWith f).structs.lookup p := by
      refine lookup_append_left _ _ fun y hy e => ?_
      rcases List.mem_append.1 hy with hy | hy
      · obtain ⟨c, -, rfl⟩ := List.mem_map.1 hy
        exact hp "" (by rw [← e]; simp) rfl
      · obtain ⟨c, -, rfl⟩ := List.mem_map.1 hy
        exact hp "" (by rw [← e]; simp) rfl
    rw [e]
    refine ⟨rfl, fun d hd x hx => ?_⟩
    rw [with_structs] at hd
    have hm := (List.mem_filter.1 (lookup_mem hd)).1
    have h1 := structs_ok (f := f) (p, d) hm x hx
    have h2 := structs_full (p, d) hm
    exact ty_joint (jointM _) _ h1 (ty_up h2.1 _ (h2.2 x hx) h1)
  fns := by
    intro p hp
    have e : (kxf k f).fns = (kx k).fns := by
      show (indexWith f).fns ++ _ = theFns ++ _
      rw [with_fns]
    rw [e, with_fns, fns_same p hp]
    refine ⟨rfl, fun g hg b hb => ?_⟩
    have h1 := fns_ok (f := f) (p, g) (lookup_mem hg) b hb
    have h2 : ∀ s ∈ theFns, s.1.headD "" ≠ "" ∧ (s.2.body.map exprFull).getD true = true := by decide +kernel
    have h3 := h2 _ (lookup_mem hg)
    dsimp only at h3
    rw [hb] at h3
    exact expr_joint (jointM _) _ h1 (expr_up h3.1 _ h3.2 h1)
  outside := fun hp ha => ⟨rfl, fun fs h x hx => (cok_M _).2 (outside_full env ((coks_M _).1 ha) h x hx)⟩
  traits := fun _ _ _ => rfl
  into := fun _ _ _ => rfl
  constFn := fun _ _ => rfl
  impls := by
    intro t ht
    have ht' : t ∈ coreTraits := ht
    have hcore : ∀ i ∈ (indexWith f).impls t, implFull i = true ∧ ImplOk (view f) i := by
      intro i hi
      rw [impls_filter ht'] at hi
      obtain ⟨hi, hkeep⟩ := List.mem_filter.1 hi
      exact ⟨List.all_eq_true.1 (impls_full ht') i hi, (impls_kept ht' i hi).1 hkeep⟩
    have hin : ∀ i ∈ (indexWith f).impls t, inCrate i = true := by
      intro i hi
      have := (hcore i hi).1
      simp only [implFull, Bool.and_eq_true] at this
      exact this.1.1.1.1
    have hown : ∀ i ∈ (k.ds.flatMap (implsFor t) ++
        k.gs.flatMap fun c => if f.std = false ∧ t = ["glsl", "GlslStruct"] then [] else glslFor t c),
        i.module = "" ∧ i.params = [] ∧ ∃ x ∈ k.names, i.self = ty x := by
      intro i hi
      rcases List.mem_append.1 hi with hi | hi
      · obtain ⟨d, hd, hi⟩ := List.mem_flatMap.1 hi
        obtain ⟨h1, h2, h3⟩ := implsFor_self hi
        refine ⟨h1, h2, ?_⟩
        rcases h3 with h3 | h3
        · exact ⟨_, (mem_names hd).2, h3⟩
        · exact ⟨_, (mem_names hd).1, h3⟩
      · obtain ⟨d, hd, hi⟩ := List.mem_flatMap.1 hi
        split at hi
        · cases hi
        · obtain ⟨h1, h2, h3⟩ := glslFor_self hi
          exact ⟨h1, h2, _, src_mem (k.glslKnown d hd), h3⟩
    refine ⟨inCrate, ?_, fun i hi => ?_⟩
    · show _ = ((indexWith f).impls t ++ _).filter inCrate
      rw [List.filter_append, List.filter_eq_self.2 hin, List.filter_eq_nil_iff.2, List.append_nil]
      intro i hi
      simp [inCrate, (hown i hi).1]
    · rcases List.mem_append.1 hi with hi | hi
      · have hc := hin i hi
        exact ⟨fun _ => .inl (impl_joint (jointM _) (hcore i hi).2 (impl_up (hcore i hi).1 (hcore i hi).2)), fun h => by
          rw [hc] at h; cases h⟩
      · obtain ⟨h1, h2, x, hx, h3⟩ := hown i hi
        refine ⟨fun h => by simp [inCrate, h1] at h, fun _ c hc => ?_⟩
        rw [h1, h2, h3]
        exact own_no_matchF hx (not_own hc x)
  sized := fun h => h.elim
  zeroable := by show _ ∈ coreTraits; decide
  convert := by show _ ∈ coreTraits; decide
  bool := by show ∀ x ∈ ["bool"], x ≠ ""; decide

theorem sameM (k : Client) (f : Features) (tg : Target) (env : ForeignEnv) (n : Nat) :
    Same (viewM k f) (GF f env n) (KF k f tg env n) := sem_same (conservesM k f tg env) n

theorem topM : ScopeOk (viewM k f) topScope :=
  ⟨fun _ hx => (nomatch hx), fun _ hx => (nomatch hx), fun _ hx => (nomatch hx)⟩

theorem lib_M {t : RustCode.Ty} {T : Crevice.Ty} (h : Writes t T) : TyOk (viewC k) "" t → TyOk (viewM k f) "" t := by
  induction h with
  | scalar s => exact fun h => by unfold TyOk at *; exact ⟨h.1, by unfold TysOk; trivial⟩
  | bool => exact fun h => by unfold TyOk at *; exact ⟨h.1, by unfold TysOk; trivial⟩
  | math m =>
    intro h
    unfold mathRustTy TyOk at *
    refine ⟨h.1, ?_⟩
    simp only [TysOk, TyOk, and_true] at *
    exact h.2
  | foreign lib name arg hl hn ha =>
    intro h
    unfold TyOk at *
    refine ⟨h.1, ?_⟩
    rw [tysOk_iff] at *
    intro t ht
    have h2 := h.2 t ht
    obtain ⟨a, -, rfl⟩ := List.mem_map.1 ht
    unfold TyOk at *
    exact ⟨h2.1, by unfold TysOk; trivial⟩
  | dynamic h ih =>
    intro h
    simp only [TyOk, TysOk, and_true] at *
    exact ⟨h.1, ih h.2⟩
  | output l h ih =>
    intro h
    unfold TyOk at h ⊢
    refine ⟨ih h.1, show (viewC k).via "" ["crate", mod l, asTrait l] ∧ _ from ⟨h.2, ?_⟩⟩
    exact (far_path (k := k) (f := f) (by cases l <;> decide) (by cases l <;> decide) (by simp)).1

/-- `<T as AsStdN>::Output` of a type that is not there. -/
theorem out_absent (hk : k.Ok) {t : RustCode.Ty} {T : Crevice.Ty} (h : Writes t T) (hlib : libTy t = true) (he : ¬T.Enabled f) (n : Nat) :
    (KF k f tg env n).norm topScope (outTy l t) = none := by
  cases n with
  | zero => rfl
  | succ n =>
    have hS := sameM k f tg env n
    obtain ⟨h1, h2⟩ := hS.norm topM (lib_M (f := f) h (libTy_ok hk t hlib))
    rw [Tables.norm_next, outTy, normRule_proj]
    cases hn : (KF k f tg env n).norm topScope t with
    | none => rfl
    | some c =>
      rw [hn] at h1 h2
      have hc := norm_absent h (fun ht => he (enabled_of_ok h ht)) h1
      have nil : COks (viewM k f) [] := by unfold COks; trivial
      have has : (viewM k f).trait [mod l, asTrait l] := by
        show _ ∈ coreTraits
        cases l <;> decide
      have hfind := (find_same hS has nil (h2 c rfl)).1
      rw [no_find (absent env n c hc l).1] at hfind
      have e : resolveName (kxf k f).names "" ["crate", mod l, asTrait l] = some [mod l, asTrait l] :=
        resolve_coreF k f (by cases l <;> decide)
      dsimp only [Option.bind_some]
      rw [show topScope.module = "" from rfl, e, Option.bind_some]
      unfold Sem.project
      rw [← hfind]
      rfl

/-! ### The implementation of a struct -/

theorem crate_no_matchF {t : List String} (ht : t ∈ coreTraits) {i : ImplDef} (hi : i ∈ (indexWith f).impls t) (hv : selfVar i = false)
    (x : String) : matchTy (namesF k f) i.module i.params i.self (own x) = none := by
  rw [impls_filter ht] at hi
  have hok := (crate_ok (k := k) ht (List.mem_filter.1 hi).1).self
  unfold selfVar at hv
  cases hs : i.self with
  | path p args =>
    rw [hs] at hok hv
    unfold TyOk at hok
    have key : matchNamed (namesF k f) i.module i.params p args (own x) = none := by
      unfold matchNamed
      dsimp only
      rw [if_neg]
      intro e
      rw [resolve_pathF hok.1] at e
      exact resolve_ne (namesWith_ne _) hok.1.1 e "" (by simp) rfl
    rw [matchTy_path]
    split
    · rw [if_neg]
      · exact key
      · simpa using hv
    · exact key
  | _ => simp [matchTy]

theorem kxf_impls (k : Client) (f : Features) (t : List String) : (kxf k f).impls t = (indexWith f).impls t ++
    (k.ds.flatMap (implsFor t) ++ k.gs.flatMap fun c => if f.std = false ∧ t = ["glsl", "GlslStruct"] then [] else glslFor t c) := rfl

theorem own_match_inv {x y : String} (hy : y ∈ k.names) {a : List (String × CTy)}
    (h : matchTy (namesF k f) "" [] (ty y) (own x) = some a) : y = x := by
  by_cases e : y = x
  · exact e
  · rw [own_no_matchF hy] at h
    · cases h
    · intro q cs e1 e2
      injection e1 with e1
      rw [← e1] at e2
      injection e2 with _ e2
      injection e2 with e2
      exact absurd e2.symm e

/-- No implementation of `StdN` for a struct as it is written. -/
theorem src_stdF (hk : k.Ok) {c : ClientStruct} (hc : c ∈ k.cs) (n : Nat) :
    NoCandidates (KF k f tg env n) [mod l, stdTrait l] (own c.name) := by
  intro fs hfs
  cases n with
  | zero => cases hfs
  | succ n =>
    cases fs with
    | nil => rfl
    | cons y ys =>
      exfalso
      rw [Tables.candidates_next] at hfs
      obtain ⟨d, hd, z, hz⟩ := filterMapM_cons_inv hfs
      rw [kxf_impls] at hd
      rcases List.mem_append.1 hd with hd | hd
      · have ht : [mod l, stdTrait l] ∈ coreTraits := by cases l <;> decide
        have hv : selfVar d = false := by
          have := hd
          rw [impls_filter ht] at this
          have key : ∀ is : List ImplDef, (is.all fun i => !selfVar i) = true → d ∈ is → selfVar d = false := by
            intro is h hi
            simpa using List.all_eq_true.1 h d hi
          have hm := (List.mem_filter.1 this).1
          cases l
          · exact key (stdDefs .std140) (by decide +kernel) hm
          · exact key (stdDefs .std430) (by decide +kernel) hm
        have := applies_none (ix := kxf k f) (g := KF k f tg env n) (args := []) (crate_no_matchF (k := k) ht hd hv c.name)
        rw [this] at hz
        cases hz
      · rcases List.mem_append.1 hd with hd | hd
        · obtain ⟨e, he, hi⟩ := List.mem_flatMap.1 hd
          obtain ⟨h1, h2, -⟩ := implsFor_self hi
          rcases implsFor_cases hi with ⟨-, h'⟩ | ⟨h', -⟩
          · exact absurd h' (by cases l <;> cases e.2 <;> decide)
          · have hm : matchTy (namesF k f) d.module d.params d.self (own c.name) = none := by
              rw [h1, h2, h']
              cases hm : matchTy (namesF k f) "" [] (ty (generatedName e.2 e.1.name)) (own c.name) with
              | none => rfl
              | some a => exact absurd (own_match_inv (mem_names he).1 hm) (src_ne_gen hk hc he)
            have := applies_none (ix := kxf k f) (g := KF k f tg env n) (args := []) hm
            rw [this] at hz
            cases hz
        · obtain ⟨e, he, hi⟩ := List.mem_flatMap.1 hd
          split at hi
          · cases hi
          · unfold glslFor at hi
            rw [if_neg (by cases l <;> decide), if_neg (by cases l <;> decide)] at hi
            cases hi

theorem stdViaF (k : Client) (f : Features) (l : Layout) : resolveName (namesF k f) (mod l) [stdTrait l] = some [mod l, stdTrait l] := by
  unfold namesF
  rw [resolve_client k.names (by cases l <;> decide) (by cases l <;> decide)]
  cases f.std <;> cases l <;> kernel_rfl

/-- The implementation for all types with `StdN` does not apply. -/
theorem blanketF (hk : k.Ok) {c : ClientStruct} (hc : c ∈ k.cs) (n : Nat) (z : Found) :
    applies (kxf k f) (KF k f tg env n) [] (own c.name) (blanketDef l) ≠ some (some z) := by
  intro h
  obtain ⟨a, hm, hb⟩ := applies_some rfl h
  have hm : matchTy (namesF k f) (mod l) ["T"] (ty "T") (own c.name) = some a := hm
  rw [matchTy_path] at hm
  injection hm with hm
  subst hm
  have hb : boundsHold (kxf k f) (KF k f tg env n) ⟨mod l, [("Self", own c.name), ("T", own c.name)],
      assocTypes (blanketDef l).items, (blanketDef l).bounds⟩ [(ty "T", []), (ty "T", [ty (stdTrait l)])] = some true := hb
  cases n with
  | zero => cases hb
  | succ n =>
    have hT : ∀ (s : Scope), s.vars.lookup "T" = some (own c.name) → (KF k f tg env (n + 1)).norm s (ty "T") = some (own c.name) := by
      intro s hv
      rw [Tables.norm_next]
      unfold ty
      rw [normRule_path, if_neg (by decide)]
      unfold normNamed
      dsimp only
      rw [hv]
    unfold boundsHold at hb
    rw [allM, hT _ rfl] at hb
    simp only [Option.bind_some, allM, if_true] at hb
    rw [hT _ rfl] at hb
    simp only [Option.bind_some, allM] at hb
    rw [kxf_names, stdViaF] at hb
    simp only [Option.bind_some] at hb
    have hi : (KF k f tg env (n + 1)).implements [mod l, stdTrait l] (own c.name) ≠ some true := by
      intro hi
      have hi : ((KF k f tg env n).candidates [mod l, stdTrait l] [] (own c.name)).bind
          (fun fs => if !fs.isEmpty then some true else some false) = some true := hi
      cases hc' : (KF k f tg env n).candidates [mod l, stdTrait l] [] (own c.name) with
      | none => rw [hc'] at hi; cases hi
      | some fs =>
        rw [hc', src_stdF hk hc n fs hc'] at hi
        cases hi
    cases hr : (KF k f tg env (n + 1)).implements [mod l, stdTrait l] (own c.name) with
    | none => rw [hr] at hb; cases hb
    | some r =>
      cases r with
      | true => exact hi hr
      | false => rw [hr] at hb; cases hb

theorem find_one {g : Sem} {t : List String} {args : List CTy} {c : CTy} {i : Found} (h : g.find t args c = some i) :
    g.candidates t args c = some [i] := by
  unfold Sem.find at h
  rw [Option.bind_eq_some_iff] at h
  obtain ⟨fs, hfs, h⟩ := h
  split at h
  · injection h with h
    rw [hfs, h]
  · cases h

theorem layout_step (ix : Index) (o : Outside) (n : Nat) (c : CTy) : (sem ix o (n + 1)).layout c = layoutRule ix o (sem ix o n) c := rfl

theorem own_appliesF (g : Sem) {x : String} (hx : x ∈ k.names) (items : List Assoc) :
    applies (kxf k f) g [] (own x) (clientDef x items) = some (some (ownFound x items)) := by
  have hm : matchTy (namesF k f) "" [] (ty x) (own x) = some [] := by
    unfold ty
    rw [matchTy_path]
    simp only [List.contains_nil, Bool.false_eq_true, if_false]
    unfold matchNamed
    dsimp only
    rw [resolve_declaredF hx, if_pos rfl, matchTys]
  unfold applies clientDef
  dsimp only
  rw [kxf_names, hm, matchTys]
  rfl

theorem filterMapM_one_inv {α β : Type} {p : α → Option (Option β)} {xs : List α} {y : β} (h : filterMapM p xs = some [y]) :
    ∃ x ∈ xs, p x = some (some y) := by
  induction xs with
  | nil => cases h
  | cons x xs ih =>
    simp only [filterMapM] at h
    rw [Option.bind_eq_some_iff] at h
    obtain ⟨a, ha, h⟩ := h
    rw [Option.map_eq_some_iff] at h
    obtain ⟨ys, hys, h⟩ := h
    cases a with
    | none =>
      rw [show ys = [y] from h] at hys
      obtain ⟨z, hz, e⟩ := ih hys
      exact ⟨z, List.mem_cons_of_mem _ hz, e⟩
    | some b =>
      have h : b :: ys = [y] := h
      injection h with h _
      exact ⟨x, List.mem_cons_self, by rw [ha, h]⟩

/-- The fields of the generated struct are those of the struct, and padding. -/
theorem gen_field {c : ClientStruct} {x : String × RustCode.Ty} (hx : x ∈ c.fields) : ∃ y ∈ genFields (c, l), y.2 = outTy l x.2 := by
  obtain ⟨i, hi, e⟩ := List.getElem_of_mem hx
  refine ⟨(x.1, outTy l x.2), ?_, rfl⟩
  unfold genFields genOf
  refine List.mem_map.2 ⟨(x.1, .layoutOf x.2), ?_, rfl⟩
  refine List.mem_flatten.2 ⟨_, List.mem_map.2 ⟨(x, i), List.mk_mem_zipIdx_iff_getElem?.2 ?_, rfl⟩, ?_⟩
  · rw [List.getElem?_eq_getElem hi, e]
  · exact List.mem_cons_self

/-- An implementation of `AsStdN` for a struct is the derived one. -/
theorem as_findF (hk : k.Ok) {c : ClientStruct} (hc : c ∈ k.cs) {n : Nat} {i : Found}
    (h : (KF k f tg env n).find [mod l, asTrait l] [] (own c.name) = some i) :
    (c, l) ∈ k.ds ∧ i = ownFound c.name (asDef (c, l)).items := by
  have ht : [mod l, asTrait l] ∈ coreTraits := by cases l <;> decide
  have hfs := find_one h
  cases n with
  | zero => cases hfs
  | succ n =>
    rw [Tables.candidates_next] at hfs
    obtain ⟨d, hd, hz⟩ := filterMapM_one_inv hfs
    rw [kxf_impls] at hd
    rcases List.mem_append.1 hd with hd | hd
    · exfalso
      by_cases hv : selfVar d = true
      · have hd' := hd
        rw [impls_filter ht] at hd'
        have : ∀ is : List ImplDef, (is.tail.all fun i => !selfVar i) = true → d ∈ is → is.head? = some d := by
          intro is h hi
          cases is with
          | nil => cases hi
          | cons a is =>
            rcases List.mem_cons.1 hi with rfl | hi
            · rfl
            · have := List.all_eq_true.1 h d hi
              rw [hv] at this
              cases this
        have hi' : d ∈ asDefs l := by cases l <;> exact (List.mem_filter.1 hd').1
        have := this (asDefs l) (by cases l <;> decide +kernel) hi'
        have e : (asDefs l).head? = some (blanketDef l) := rfl
        rw [e] at this
        injection this with this
        rw [← this] at hz
        exact blanketF hk hc n i hz
      · have := applies_none (ix := kxf k f) (g := KF k f tg env n) (args := [])
          (crate_no_matchF (k := k) ht hd (by simpa using hv) c.name)
        rw [this] at hz
        cases hz
    · rcases List.mem_append.1 hd with hd | hd
      · obtain ⟨e, he, hi⟩ := List.mem_flatMap.1 hd
        obtain ⟨h1, h2, -⟩ := implsFor_self hi
        rcases implsFor_cases hi with ⟨rfl, h'⟩ | ⟨h', -⟩
        · have hl := as_inj h'
          obtain ⟨ec, el⟩ := e
          dsimp only at hl
          subst hl
          obtain ⟨a, hm, -⟩ := applies_some rfl hz
          have hn := name_inj hk hc (k.known _ he) (own_match_inv (f := f) (mem_names he).2 hm)
          dsimp only at hn
          subst hn
          refine ⟨he, ?_⟩
          have e1 : applies (kxf k f) (KF k f tg env n) [] (own ec.name) (clientDef ec.name (asDef (ec, l)).items) =
              some (some (ownFound ec.name (asDef (ec, l)).items)) := own_appliesF _ (mem_names he).2 _
          have e2 : applies (kxf k f) (KF k f tg env n) [] (own ec.name) (clientDef ec.name (asDef (ec, l)).items) = some (some i) := hz
          exact (Option.some.inj (Option.some.inj (e1.symm.trans e2))).symm
        · exfalso
          have hm : matchTy (namesF k f) d.module d.params d.self (own c.name) = none := by
            rw [h1, h2, h']
            cases hm : matchTy (namesF k f) "" [] (ty (generatedName e.2 e.1.name)) (own c.name) with
            | none => rfl
            | some a => exact absurd (own_match_inv (mem_names he).1 hm) (src_ne_gen hk hc he)
          have := applies_none (ix := kxf k f) (g := KF k f tg env n) (args := []) hm
          rw [this] at hz
          cases hz
      · exfalso
        obtain ⟨e, he, hi⟩ := List.mem_flatMap.1 hd
        split at hi
        · cases hi
        · unfold glslFor at hi
          rw [if_neg (by cases l <;> decide), if_neg (by cases l <;> decide)] at hi
          cases hi

theorem own_normF {x : String} (hx : x ∈ k.names) (hs : x ≠ "Self") {s : Scope} (h : Home s) (n : Nat) :
    (KF k f tg env (n + 1)).norm s (ty x) = some (own x) := by
  rw [Tables.norm_next]
  unfold ty
  rw [normRule_path, if_neg (by simpa using hs)]
  unfold normNamed
  dsimp only
  rw [h.vars x hs, h.module, kxf_names, resolve_declaredF hx]
  rfl

/-- The fields of the generated struct. -/
theorem gen_lookupF (hk : k.Ok) {d : ClientStruct × Layout} (hd : d ∈ k.ds) :
    (kxf k f).structs.lookup ["", generatedName d.2 d.1.name] = some (genDef d) := by
  have e : (kxf k f).structs.lookup ["", generatedName d.2 d.1.name] = (kx k).structs.lookup ["", generatedName d.2 d.1.name] := by
    show ((indexWith f).structs ++ _).lookup _ = (theStructs ++ _).lookup _
    rw [lookup_append_right _ _ fun s hs => structs_crate s hs _, lookup_append_right]
    intro s hs
    rw [with_structs] at hs
    exact structs_crate s (List.mem_filter.1 hs).1 _
  rw [e]
  exact gen_lookup hk hd

/-- A struct with a field whose type is not there. -/
theorem impl_without (hk : k.Ok) {c : ClientStruct} (hc : c ∈ k.cs) {x : String × RustCode.Ty} (hx : x ∈ c.fields) {T : Crevice.Ty}
    (h : Writes x.2 T) (hlib : libTy x.2 = true) (he : ¬T.Enabled f) (n : Nat) :
    k.implWith f tg env n l (ty c.name) = none := by
  unfold Client.implWith
  rw [sem_eqF hk]
  cases n with
  | zero => rfl
  | succ n =>
    have hn := src_mem hc
    rw [own_normF hn (not_self hk hn) home_top, Option.bind_some]
    unfold semImpl
    cases hf : (KF k f tg env (n + 1)).find [mod l, asTrait l] [] (own c.name) with
    | none => rfl
    | some i =>
      obtain ⟨hd, rfl⟩ := as_findF hk hc hf
      rw [Option.bind_some]
      have hg : generatedName l c.name ∈ k.names := (mem_names hd).1
      have hp : (KF k f tg env (n + 1)).project [mod l, asTrait l] (own c.name) "Output" = some (own (generatedName l c.name)) := by
        unfold Sem.project
        rw [hf, Option.bind_some]
        exact own_normF hg (not_self hk hg) (found_home _ _) n
      rw [hp, Option.bind_some]
      have hl : (KF k f tg env (n + 1)).layout (own (generatedName l c.name)) = none := by
        rw [layout_step]
        unfold layoutRule fieldsOf
        dsimp only
        rw [gen_lookupF hk hd]
        dsimp only
        have : (genFields (c, l)).mapM (fun y => ((KF k f tg env n).norm topScope y.2).map fun d => (y.1, d)) = none := by
          obtain ⟨y, hy, e⟩ := gen_field (l := l) hx
          refine mapM_none hy ?_
          rw [e, out_absent hk h hlib he]
          rfl
        have e2 : (genDef (c, l)).fields.mapM (fun y => ((KF k f tg env n).norm
            { module := (genDef (c, l)).module, vars := (genDef (c, l)).params.zip [], assoc := [], bounds := [] } y.2).map
              fun d => (y.1, d)) = none := this
        rw [e2]
        rfl
      rw [hl]
      rfl

/-! ### `GlslStruct` -/

theorem lib_homeF (hk : k.Ok) {s : Scope} (hs : Home s) (n : Nat) :
    ∀ t, libTy t = true → (KF k f tg env n).norm s t = (KF k f tg env n).norm topScope t := by
  induction n with
  | zero => exact fun _ _ => rfl
  | succ n ih =>
    intro t ht
    rw [Tables.norm_next, Tables.norm_next]
    cases t with
    | path p args =>
      simp only [libTy, Bool.and_eq_true] at ht
      have hp := (libPath_ok hk ht.1).2
      rw [normRule_path, normRule_path, if_neg hp, if_neg hp]
      have hm : args.mapM ((KF k f tg env n).norm s) = args.mapM ((KF k f tg env n).norm topScope) :=
        mapM_same fun t hm => ih t (libTys_iff.1 ht.2 t hm)
      have hv : ∀ x, p = [x] → s.vars.lookup x = none := fun x e => hs.vars x fun e' => hp (by rw [e, e']; rfl)
      rw [normNamed_free hv, normNamed_free (s := topScope) (fun _ _ => rfl), hm, hs.module]
      rfl
    | proj t via ns =>
      simp only [libTy, Bool.and_eq_true] at ht
      rw [normRule_proj, normRule_proj, ih t ht.1, hs.module]
      rfl
    | _ => simp [libTy] at ht

theorem const_step (ix : Index) (o : Outside) (n : Nat) (s : Scope) (ls : List (String × Const)) (e : Expr) :
    (sem ix o (n + 1)).const s ls e = constRule ix o (sem ix o n) s ls e := rfl

/-- A field whose type is not there. -/
theorem field_without (hk : k.Ok) {x : String × RustCode.Ty} {T : Crevice.Ty} (h : Writes x.2 T) (hlib : libTy x.2 = true)
    (he : ¬T.Enabled f) {s : Scope} (hs : Home s) (n : Nat) : constField (KF k f tg env n) s (fieldCode x) = none := by
  have h0 : (KF k f tg env n).const s [] (.path (.proj x.2 (inGlsl "Glsl") ["NAME"])) = none := by
    cases n with
    | zero => rfl
    | succ n =>
      have hS := sameM k f tg env n
      obtain ⟨h1, h2⟩ := hS.norm topM (lib_M (f := f) h (libTy_ok hk _ hlib))
      rw [const_step]
      unfold constRule inGlsl
      dsimp only
      rw [lib_homeF hk hs n _ hlib]
      cases hn : (KF k f tg env n).norm topScope x.2 with
      | none => rfl
      | some c =>
        rw [hn] at h1 h2
        have hc := norm_absent h (fun ht => he (enabled_of_ok h ht)) h1
        have nil : COks (viewM k f) [] := by unfold COks; trivial
        have hfind := (find_same hS (show (viewM k f).trait ["glsl", "Glsl"] from by show _ ∈ coreTraits; decide) nil (h2 c rfl)).1
        rw [no_find (absent_glsl env n hc)] at hfind
        rw [Option.bind_some, hs.module, kxf_names, resolve_coreF k f (show ["glsl", "Glsl"] ∈ coreTraits by decide), Option.bind_some,
          ← hfind]
        rfl
  show (((KF k f tg env n).const s [] (.path (.proj x.2 (inGlsl "Glsl") ["NAME"]))).bind Const.str?).bind _ = none
  rw [h0]
  rfl

theorem fields_without (hk : k.Ok) {c : ClientStruct} (hc : c ∈ k.cs) {x : String × RustCode.Ty} (hx : x ∈ c.fields) {T : Crevice.Ty}
    (h : Writes x.2 T) (hlib : libTy x.2 = true) (he : ¬T.Enabled f) (n : Nat) :
    k.glslFieldsWith f tg env n (ty c.name) = none := by
  unfold Client.glslFieldsWith
  rw [sem_eqF hk]
  cases n with
  | zero => rfl
  | succ n =>
    have hn := src_mem hc
    rw [own_normF hn (not_self hk hn) home_top, Option.bind_some]
    cases hf : (KF k f tg env (n + 1)).find ["glsl", "GlslStruct"] [] (own c.name) with
    | none => rfl
    | some i =>
      have hfs := find_one hf
      rw [Tables.candidates_next] at hfs
      obtain ⟨d, hd, hz⟩ := filterMapM_one_inv hfs
      have e1 : (indexWith f).impls ["glsl", "GlslStruct"] = [] := by
        rw [with_impls_eq]
        cases f.std <;> kernel_rfl
      rw [kxf_impls, e1, flatMap_nils k.ds _ fun d => by
        unfold implsFor
        cases d.2 <;> rfl] at hd
      obtain ⟨e, he', hi⟩ := List.mem_flatMap.1 hd
      split at hi
      · cases hi
      · have hd : d = fieldsDef e := List.mem_singleton.1 hi
        subst hd
        obtain ⟨a, hm, -⟩ := applies_some rfl hz
        have hm' : e.name = c.name := own_match_inv (f := f) (src_mem (k.glslKnown e he')) hm
        have := name_inj hk hc (k.glslKnown e he') hm'
        subst this
        have e2 : applies (kxf k f) (KF k f tg env n) [] (own e.name) (clientDef e.name (fieldsDef e).items) = some (some i) := hz
        have hi := (Option.some.inj (Option.some.inj ((own_appliesF _ hn _).symm.trans e2))).symm
        subst hi
        rw [Option.bind_some]
        have e3 : assocConst (fieldsDef e).items "FIELDS" = some (.ref false (.array (e.fields.map fieldCode))) := rfl
        rw [show (ownFound e.name (fieldsDef e).items).items = (fieldsDef e).items from rfl, e3, Option.bind_some]
        unfold constFields
        dsimp only
        rw [mapM_map]
        exact mapM_none hx (field_without hk h hlib he (found_home _ _) (n + 1))

end Crevice.ClientProof
