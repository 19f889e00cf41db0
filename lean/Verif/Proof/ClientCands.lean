import Verif.Proof.ClientNames
/-
The implementations that apply to the types of the crate.
-/
namespace Crevice.ClientProof
open RustCode RustTypes TypeNames ClientText Tables
open Tokens (Ev)

variable {k : Client} {tg : Target} {env : ForeignEnv} {l : Layout}

/-- A type of the crate. -/
abbrev own (x : String) : CTy := .named ["", x] []

/-- The implementation is for a type variable. -/
def selfVar (i : ImplDef) : Bool :=
  match i.self with
  | .path [x] _ => i.params.contains x
  | _ => false

theorem crate_ok {t : List String} (ht : t ∈ coreTraits) {i : ImplDef} (hi : i ∈ jx.impls t) : ImplOk (viewC k) i := by
  have hfull := List.all_eq_true.1 (impls_full ht)
  refine impl_up (hfull i hi) ((impls_kept (f := allOn) ht i hi).1 ?_)
  unfold keep
  split
  · simp [offLib]
  · rfl

theorem crate_no_match {t : List String} (ht : t ∈ coreTraits) {i : ImplDef} (hi : i ∈ jx.impls t) (hv : selfVar i = false)
    (x : String) : matchTy (allNames k) i.module i.params i.self (own x) = none := by
  have hok := (crate_ok (k := k) ht hi).self
  unfold selfVar at hv
  cases hs : i.self with
  | path p args =>
    rw [hs] at hok hv
    unfold TyOk at hok
    have key : matchNamed (allNames k) i.module i.params p args (own x) = none := by
      unfold matchNamed
      dsimp only
      rw [if_neg]
      intro e
      rw [← resolve_path hok.1] at e
      exact resolve_named hok.1.1 e "" (by simp) rfl
    rw [matchTy_path]
    split
    · rw [if_neg]
      · exact key
      · simpa using hv
    · exact key
  | _ => simp [matchTy]

theorem filterMapM_nones {α β : Type} {p : α → Option (Option β)} {xs : List α} (h : ∀ x ∈ xs, p x = some none) :
    filterMapM p xs = some [] := by
  induction xs with
  | nil => rfl
  | cons x xs ih =>
    rw [filterMapM, h x List.mem_cons_self, Option.bind_some, ih fun y hy => h y (List.mem_cons_of_mem _ hy)]
    rfl

theorem filterMapM_one {α β : Type} {p : α → Option (Option β)} {xs ys : List α} {x : α} {f : β} (h1 : ∀ y ∈ xs, p y = some none)
    (h2 : p x = some (some f)) (h3 : ∀ y ∈ ys, p y = some none) : filterMapM p (xs ++ x :: ys) = some [f] := by
  rw [filterMapM_append, filterMapM_nones h1, filterMapM, h2, Option.bind_some, Option.bind_some, filterMapM_nones h3]
  rfl

theorem implsFor_cases {t : List String} {d : ClientStruct × Layout} {i : ImplDef} (h : i ∈ implsFor t d) :
    (i = asDef d ∧ t = [mod d.2, asTrait d.2]) ∨ (i.self = ty (generatedName d.2 d.1.name) ∧ t ≠ [mod d.2, asTrait d.2]) := by
  unfold implsFor at h
  simp only [List.mem_append] at h
  rcases h with ((h | h) | h) | h <;> split at h
  all_goals first | (cases h; done) | skip
  · next ht =>
    rw [List.mem_singleton.1 h]
    exact .inr ⟨rfl, by rw [ht]; cases d.2 <;> decide⟩
  · next ht =>
    rw [List.mem_singleton.1 h]
    exact .inr ⟨rfl, by rw [ht]; cases d.2 <;> decide⟩
  · next ht =>
    rw [List.mem_singleton.1 h]
    exact .inr ⟨rfl, by rw [ht]; cases d.2 <;> decide⟩
  · next ht =>
    rw [List.mem_singleton.1 h]
    exact .inl ⟨rfl, ht⟩

/-- No implementation from the derives. -/
def Apart (t : List String) (x : String) (ds : List (ClientStruct × Layout)) : Prop :=
  ∀ e ∈ ds, ∀ i ∈ implsFor t e, i.self ≠ ty x

theorem apart_none {t : List String} {x : String} {ds : List (ClientStruct × Layout)} (hds : ∀ e ∈ ds, e ∈ k.ds)
    (h : Apart t x ds) (g : Sem) : ∀ i ∈ ds.flatMap (implsFor t), applies (kx k) g [] (own x) i = some none := by
  intro i hi
  obtain ⟨e, he, hi⟩ := List.mem_flatMap.1 hi
  obtain ⟨h1, h2, h3⟩ := implsFor_self hi
  refine applies_none ?_
  rw [h1, h2]
  have hne := h e he i hi
  have q : ∀ y, i.self = ty y → ∀ q cs, own x = .named q cs → q ≠ ["", y] := by
    intro y hy q cs e1 e2
    injection e1 with e1
    rw [← e1] at e2
    injection e2 with _ e2
    injection e2 with e2
    exact hne (e2 ▸ hy)
  rcases h3 with h3 | h3
  · rw [h3]
    exact client_no_match (hds e he) (.inl rfl) (q _ h3)
  · rw [h3]
    exact client_no_match (hds e he) (.inr rfl) (q _ h3)

/-- An implementation of the crate that applies. -/
def ownFound (x : String) (items : List Assoc) : Found :=
  { scope := { module := "", vars := [("Self", own x)], assoc := assocTypes items, bounds := [] }, items := items }

theorem own_applies (g : Sem) {x : String} (hx : x ∈ k.names) (items : List Assoc) :
    applies (kx k) g [] (own x) (clientDef x items) = some (some (ownFound x items)) := by
  have hm : matchTy (allNames k) "" [] (ty x) (own x) = some [] := by
    unfold ty
    rw [matchTy_path]
    simp only [List.contains_nil, Bool.false_eq_true, if_false]
    unfold matchNamed
    dsimp only
    rw [resolve_declared hx, if_pos rfl, matchTys]
  unfold applies clientDef
  dsimp only
  rw [show (kx k).names = allNames k from rfl, hm, matchTys]
  rfl

/-- Not a trait of `src/glsl.rs`. -/
def NotGlsl (t : List String) : Prop := t ≠ ["glsl", "Glsl"] ∧ t ≠ ["glsl", "GlslStruct"]

theorem notGlsl_none {t : List String} (h : NotGlsl t) (gs : List ClientStruct) : gs.flatMap (glslFor t) = [] := by
  refine flatMap_nils _ _ fun c => ?_
  unfold glslFor
  rw [if_neg h.1, if_neg h.2]
  rfl

theorem notGlsl_as (l : Layout) : NotGlsl [mod l, asTrait l] := by
  constructor <;> cases l <;> decide

theorem cands_all (k : Client) (tg : Target) (env : ForeignEnv) (n : Nat) (t : List String) (args : List CTy) (c : CTy) :
    (K k tg env (n + 1)).candidates t args c = filterMapM (applies (kx k) (K k tg env n) args c)
      (jx.impls t ++ (k.ds.flatMap (implsFor t) ++ k.gs.flatMap (glslFor t))) := rfl

theorem cands_next (k : Client) (tg : Target) (env : ForeignEnv) (n : Nat) {t : List String} (ht : NotGlsl t) (args : List CTy)
    (c : CTy) : (K k tg env (n + 1)).candidates t args c =
      filterMapM (applies (kx k) (K k tg env n) args c) (jx.impls t ++ k.ds.flatMap (implsFor t)) := by
  rw [cands_all, notGlsl_none ht, List.append_nil]

theorem cands_none {n : Nat} {t : List String} {x : String} (ht : NotGlsl t)
    (h : ∀ i ∈ jx.impls t, applies (kx k) (K k tg env n) [] (own x) i = some none) (ha : Apart t x k.ds) :
    (K k tg env (n + 1)).candidates t [] (own x) = some [] := by
  rw [cands_next _ _ _ _ ht]
  refine filterMapM_nones fun i hi => ?_
  rcases List.mem_append.1 hi with hi | hi
  · exact h i hi
  · exact apart_none (fun _ h => h) ha _ i hi

theorem cands_one {n : Nat} {t : List String} {x : String} {d : ClientStruct × Layout} {items : List Assoc}
    {as bs : List (ClientStruct × Layout)} (ht : NotGlsl t) (hds : k.ds = as ++ d :: bs) (hx : x ∈ k.names)
    (h : ∀ i ∈ jx.impls t, applies (kx k) (K k tg env n) [] (own x) i = some none)
    (hd : implsFor t d = [clientDef x items]) (h1 : Apart t x as) (h2 : Apart t x bs) :
    (K k tg env (n + 1)).candidates t [] (own x) = some [ownFound x items] := by
  rw [cands_next _ _ _ _ ht, hds, List.flatMap_append, List.flatMap_cons, hd, ← List.append_assoc]
  refine filterMapM_one (fun i hi => ?_) (own_applies _ hx items) (apart_none (fun e he => ?_) h2 _)
  · rcases List.mem_append.1 hi with hi | hi
    · exact h i hi
    · exact apart_none (fun e he => by rw [hds]; exact List.mem_append_left _ he) h1 _ i hi
  · rw [hds]
    exact List.mem_append_right _ (List.mem_cons_of_mem _ he)

/-- Traits without implementations for type variables. -/
def closedTraits : List (List String) :=
  [["std140", "Std140"], ["std430", "Std430"], ["Zeroable"], ["Pod"], ["Copy"], ["Clone"], ["Debug"]]

theorem notGlsl_closed {t : List String} (ht : t ∈ closedTraits) : NotGlsl t :=
  ⟨(by decide : ∀ t ∈ closedTraits, t ≠ ["glsl", "Glsl"]) t ht, (by decide : ∀ t ∈ closedTraits, t ≠ ["glsl", "GlslStruct"]) t ht⟩

theorem closed_none {t : List String} (ht : t ∈ closedTraits) (x : String) (g : Sem) :
    ∀ i ∈ jx.impls t, applies (kx k) g [] (own x) i = some none := by
  intro i hi
  have h1 : t ∈ coreTraits := (by decide : ∀ t ∈ closedTraits, t ∈ coreTraits) t ht
  refine applies_none (crate_no_match h1 hi ?_ x)
  have key : ∀ is : List ImplDef, (is.all fun i => !selfVar i) = true → i ∈ is → selfVar i = false := by
    intro is h hi
    simpa using List.all_eq_true.1 h i hi
  simp only [closedTraits, List.mem_cons, List.not_mem_nil, or_false] at ht
  rcases ht with rfl | rfl | rfl | rfl | rfl | rfl | rfl
  · exact key (stdDefs .std140) (by decide +kernel) hi
  · exact key (stdDefs .std430) (by decide +kernel) hi
  · exact key (podDefs "Zeroable") (by decide +kernel) hi
  · exact key (podDefs "Pod") (by decide +kernel) hi
  · cases hi
  · cases hi
  · exact key [plainDef "bool" (ty "Bool") [.fn Parsed.bool7_fmt]] (by decide +kernel) hi

theorem name_ty {x y : String} (h : ty x = ty y) : x = y := by
  injection h with h
  injection h

theorem as_inj {l l' : Layout} (h : ([mod l, asTrait l] : List String) = [mod l', asTrait l']) : l = l' := by
  cases l <;> cases l' <;> first | rfl | exact absurd h (by decide)

/-- The name of a struct is not that of a generated struct. -/
theorem src_ne_gen (hk : k.Ok) {c : ClientStruct} (hc : c ∈ k.cs) {e : ClientStruct × Layout} (he : e ∈ k.ds) :
    generatedName e.2 e.1.name ≠ c.name := fun h =>
  (List.nodup_append.1 (names_nodup hk)).2.2 c.name (List.mem_map.2 ⟨c, hc, rfl⟩) _
    (List.mem_flatMap.2 ⟨e, he, gen_mem e⟩) h.symm

/-- No `StdN` for a struct of the crate. -/
theorem src_std (hk : k.Ok) {c : ClientStruct} (hc : c ∈ k.cs) (n : Nat) :
    (K k tg env (n + 1)).candidates [mod l, stdTrait l] [] (own c.name) = some [] := by
  refine cands_none (notGlsl_closed (by cases l <;> decide)) (closed_none (by cases l <;> decide) _ _) fun e he i hi h => ?_
  rcases implsFor_cases hi with ⟨-, h'⟩ | ⟨h', -⟩
  · exact absurd h' (by cases l <;> cases e.2 <;> decide)
  · exact src_ne_gen hk hc he (name_ty (h'.symm.trans h))

theorem src_std_false (hk : k.Ok) {c : ClientStruct} (hc : c ∈ k.cs) (n : Nat) :
    (K k tg env (n + 2)).implements [mod l, stdTrait l] (own c.name) = some false := by
  show implementsRule (kx k) (clientOutside tg env) (K k tg env (n + 1)) _ _ = _
  unfold implementsRule
  rw [src_std hk hc]
  rfl

theorem stdVia (l : Layout) : resolveName (allNames k) (mod l) [stdTrait l] = some [mod l, stdTrait l] := by
  unfold allNames
  rw [resolve_client k.names (by cases l <;> decide) (by cases l <;> decide)]
  cases l <;> kernel_rfl

theorem blanket_none (hk : k.Ok) {c : ClientStruct} (hc : c ∈ k.cs) (n : Nat) :
    applies (kx k) (K k tg env (n + 2)) [] (own c.name) (blanketDef l) = some none := by
  have hm : matchTy (allNames k) (mod l) ["T"] (ty "T") (own c.name) = some [("T", own c.name)] := by
    unfold ty
    rw [matchTy_path]
    rfl
  unfold applies blanketDef
  dsimp only
  rw [show (kx k).names = allNames k from rfl, hm, matchTys]
  dsimp only
  have hT : ∀ (s : Scope), s.vars.lookup "T" = some (own c.name) → (K k tg env (n + 2)).norm s (ty "T") = some (own c.name) := by
    intro s hv
    show normRule (kx k) (K k tg env (n + 1)) s (ty "T") = _
    unfold ty
    rw [normRule_path, if_neg (by decide)]
    unfold normNamed
    dsimp only
    rw [hv]
  have hb : boundsHold (kx k) (K k tg env (n + 2)) ⟨mod l, ("Self", own c.name) :: ([("T", own c.name)] ++ []),
      assocTypes (blanketDef l).items, (blanketDef l).bounds⟩ [(ty "T", []), (ty "T", [ty (stdTrait l)])] =
      some false := by
    unfold boundsHold
    rw [allM, hT _ rfl]
    simp only [Option.bind_some, allM, if_true]
    rw [hT _ rfl]
    simp only [Option.bind_some, allM]
    rw [show (kx k).names = allNames k from rfl, stdVia]
    simp only [Option.bind_some]
    rw [src_std_false hk hc]
    rfl
  exact Eq.trans (congrArg (Option.map _) hb) rfl

theorem as_crate_none (hk : k.Ok) {c : ClientStruct} (hc : c ∈ k.cs) (n : Nat) :
    ∀ i ∈ jx.impls [mod l, asTrait l], applies (kx k) (K k tg env (n + 2)) [] (own c.name) i = some none := by
  intro i hi
  by_cases hv : selfVar i = true
  · have : ∀ is : List ImplDef, (is.tail.all fun i => !selfVar i) = true → i ∈ is → is.head? = some i := by
      intro is h hi
      cases is with
      | nil => cases hi
      | cons a is =>
        rcases List.mem_cons.1 hi with rfl | hi
        · rfl
        · have := List.all_eq_true.1 h i hi
          rw [hv] at this
          cases this
    have hi' : i ∈ asDefs l := by cases l <;> exact hi
    have := this (asDefs l) (by cases l <;> decide +kernel) hi'
    have e : (asDefs l).head? = some (blanketDef l) := rfl
    rw [e] at this
    injection this with this
    rw [← this]
    exact blanket_none hk hc n
  · exact applies_none (crate_no_match (by cases l <;> decide) hi (by simpa using hv) _)

/-- The implementation of `AsStdN`. -/
theorem as_cands (hk : k.Ok) {c : ClientStruct} (hd : (c, l) ∈ k.ds) (n : Nat) :
    (K k tg env (n + 3)).candidates [mod l, asTrait l] [] (own c.name) = some [ownFound c.name (asDef (c, l)).items] := by
  obtain ⟨as, bs, h, ho⟩ := split_ds hk hd
  have ap : ∀ es, (∀ e ∈ es, e ∈ as ∨ e ∈ bs) → Apart [mod l, asTrait l] c.name es := by
    intro es hes e he i hi hs
    have hek : e ∈ k.ds := by
      rw [h]
      rcases hes e he with h | h
      · exact List.mem_append_left _ h
      · exact List.mem_append_right _ (List.mem_cons_of_mem _ h)
    rcases implsFor_cases hi with ⟨rfl, ht⟩ | ⟨hg, -⟩
    · have hl := as_inj ht
      have hn : e.1.name = c.name := name_ty hs
      refine ho e (hes e he) _ (gen_mem e) ?_
      have : generatedName e.2 e.1.name = generatedName l c.name := by rw [hn, hl]
      rw [this]
      exact gen_mem (c, l)
    · exact src_ne_gen hk (k.known _ hd) hek (name_ty (hg.symm.trans hs))
  refine cands_one (notGlsl_as l) h (mem_names hd).2 (as_crate_none hk (k.known _ hd) n) ?_ (ap as fun e he => .inl he) (ap bs fun e he => .inr he)
  cases l <;> rfl

/-- The implementations for the generated struct. -/
theorem gen_cands (hk : k.Ok) {c : ClientStruct} (hd : (c, l) ∈ k.ds) (n : Nat) {t : List String} (ht : t ∈ closedTraits)
    {items : List Assoc} (hi : implsFor t (c, l) = [clientDef (generatedName l c.name) items]) :
    (K k tg env (n + 1)).candidates t [] (own (generatedName l c.name)) = some [ownFound (generatedName l c.name) items] := by
  obtain ⟨as, bs, h, ho⟩ := split_ds hk hd
  have ap : ∀ es, (∀ e ∈ es, e ∈ as ∨ e ∈ bs) → Apart t (generatedName l c.name) es := by
    intro es hes e he i hi hs
    rcases implsFor_cases hi with ⟨-, h'⟩ | ⟨h', -⟩
    · rw [h'] at ht
      exact absurd ht (by cases e.2 <;> decide)
    · refine ho e (hes e he) _ (gen_mem e) ?_
      rw [name_ty (h'.symm.trans hs)]
      exact gen_mem (c, l)
  exact cands_one (notGlsl_closed ht) h (mem_names hd).1 (closed_none ht _ _) hi (ap as fun e he => .inl he) (ap bs fun e he => .inr he)

/-- Derived traits have no other implementations. -/
theorem derived_cands (x : String) (n : Nat) {t : String} (ht : t ∈ ["Debug", "Clone", "Copy"]) :
    (K k tg env (n + 1)).candidates [t] [] (own x) = some [] := by
  have hc := (by decide : ∀ t ∈ ["Debug", "Clone", "Copy"], [t] ∈ closedTraits) t ht
  refine cands_none (notGlsl_closed hc) (closed_none hc _ _) fun e he i hi => ?_
  have : implsFor [t] e = [] := by
    have key : ∀ l, ∀ t ∈ ["Debug", "Clone", "Copy"], [t] ≠ ["Zeroable"] ∧ [t] ≠ ["Pod"] ∧ [t] ≠ [mod l, stdTrait l] ∧
        [t] ≠ [mod l, asTrait l] := by
      intro l
      cases l <;> decide
    obtain ⟨h1, h2, h3, h4⟩ := key e.2 t ht
    unfold implsFor
    rw [if_neg h1, if_neg h2, if_neg h3, if_neg h4]
    rfl
  rw [this] at hi
  cases hi

end Crevice.ClientProof
