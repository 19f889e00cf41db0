import Verif.Proof.ClientView
import Verif.Proof.ClientSorted
/-
A crate that uses crevice says the same as crevice about what can be said without the names of that crate.
-/
namespace Crevice.ClientProof
open RustCode RustTypes TypeNames ClientText Tables

variable {k : Client}

theorem resolve_path {m : String} {p : List String} (h : (viewC k).path m p) :
    resolveName theNames m p = resolveName (allNames k) m p := by
  by_cases hm : m = ""
  · subst hm
    rcases p with _ | ⟨a, _ | ⟨b, p⟩⟩
    · rfl
    · exact (resolve_undeclared (h.2 rfl a rfl)).symm
    · exact (resolve_long (h.1 b (by simp))).symm
  · exact (resolve_client k.names hm fun he => h.1 "" he rfl).symm

theorem key_ne {m x : String} (h : ((theNames.lookup m).getD []).contains x = true) : m ≠ "" := by
  obtain ⟨n, hn, rfl⟩ := lookup_key h
  exact theNames_ne n hn

theorem resolve_named {m : String} {p q : List String} (h : ∀ x ∈ p, x ≠ "") (hq : resolveName theNames m p = some q) :
    ∀ x ∈ q, x ≠ "" := by
  have same : some p = some q → ∀ x ∈ q, x ≠ "" := by
    intro e
    injection e with e
    subst e
    exact h
  rcases p with _ | ⟨a, _ | ⟨b, _ | ⟨c, _ | ⟨d, p⟩⟩⟩⟩
  · exact same hq
  · unfold resolveName at hq
    dsimp only at hq
    have ha := h a (by simp)
    split at hq
    · next hm =>
      injection hq with hq
      subst hq
      intro x hx
      simp only [List.mem_cons, List.not_mem_nil, or_false] at hx
      rcases hx with rfl | rfl
      · exact key_ne hm
      · exact ha
    · split at hq
      · exact same hq
      · next n hn =>
        injection hq with hq
        subst hq
        have hm : n ∈ theNames := (List.mem_filter.1 (hn ▸ List.mem_singleton.2 rfl)).1
        intro x hx
        simp only [List.mem_cons, List.not_mem_nil, or_false] at hx
        rcases hx with rfl | rfl
        · exact theNames_ne n hm
        · exact ha
      · cases hq
  · exact same hq
  · unfold resolveName at hq
    dsimp only at hq
    split at hq
    · split at hq
      · injection hq with hq
        subst hq
        exact fun x hx => h x (List.mem_cons_of_mem _ hx)
      · cases hq
    · exact same hq
  · exact same hq

theorem lookup_append_left {α β : Type} [BEq α] [LawfulBEq α] (xs ys : List (α × β)) {a : α} (h : ∀ y ∈ ys, y.1 ≠ a) :
    (xs ++ ys).lookup a = xs.lookup a := by
  induction xs with
  | nil =>
    induction ys with
    | nil => rfl
    | cons y ys ih =>
      obtain ⟨b, z⟩ := y
      have hb : (a == b) = false := by
        rw [beq_eq_false_iff_ne]
        exact fun e => h (b, z) List.mem_cons_self e.symm
      show List.lookup a ((b, z) :: ys) = _
      rw [List.lookup_cons, hb]
      exact ih fun y hy => h y (List.mem_cons_of_mem _ hy)
  | cons x xs ih =>
    obtain ⟨b, z⟩ := x
    rw [List.cons_append, List.lookup_cons, List.lookup_cons, ih]

theorem structs_same (p : List String) (h : ∀ x ∈ p, x ≠ "") : (kx k).structs.lookup p = theStructs.lookup p := by
  refine lookup_append_left _ _ fun y hy e => ?_
  rcases List.mem_append.1 hy with hy | hy
  · obtain ⟨c, -, rfl⟩ := List.mem_map.1 hy
    exact h "" (by rw [← e]; simp) rfl
  · obtain ⟨c, -, rfl⟩ := List.mem_map.1 hy
    exact h "" (by rw [← e]; simp) rfl

theorem fns_same (p : List String) (h : ∀ x ∈ p, x ≠ "") : (kx k).fns.lookup p = theFns.lookup p := by
  refine lookup_append_left _ _ fun y hy e => ?_
  obtain ⟨d, -, hy⟩ := List.mem_flatMap.1 hy
  obtain ⟨c, -, rfl⟩ := List.mem_map.1 hy
  exact h "" (by rw [← e]; simp) rfl

/-- All features. -/
abbrev allOn : Features := ⟨true, true, true, true⟩

theorem structs_full : ∀ s ∈ theStructs, s.2.module ≠ "" ∧ ∀ x ∈ s.2.fields, tyFull x.2 = true := by decide +kernel

theorem outside_full (env : ForeignEnv) {p : List String} {args : List CTy} {fs : List (String × CTy)}
    (ha : COks (viewC k) args) (h : (outside env).fields p args = some fs) : ∀ x ∈ fs, COk (viewC k) x.2 := by
  have hs : ∀ d ∈ outsideStructs, ∀ w, d.2.2 = some w → full w = true := by decide +kernel
  unfold outside at h
  dsimp only at h
  split at h
  · next c =>
    simp only [COks, and_true] at ha
    cases hl : outsideStructs.lookup p with
    | none => rw [hl] at h; cases h
    | some d =>
      rw [hl] at h
      injection h with h
      subst h
      intro x hx
      obtain ⟨n, -, rfl⟩ := List.mem_map.1 hx
      dsimp only
      split
      · exact ha
      · next w hw =>
        unfold COk
        exact ⟨full_iff.1 (hs _ (lookup_mem hl) w hw), by simp only [COks, and_true]; exact ha⟩
  · cases h

/-- The implementations in crevice. -/
def inCrate (i : ImplDef) : Bool := i.module != ""

theorem implsFor_self {t : List String} {d : ClientStruct × Layout} {i : ImplDef} (h : i ∈ implsFor t d) :
    i.module = "" ∧ i.params = [] ∧ (i.self = ty d.1.name ∨ i.self = ty (generatedName d.2 d.1.name)) := by
  unfold implsFor at h
  simp only [List.mem_append] at h
  have one : ∀ {c : Prop} [Decidable c] {x : ImplDef}, i ∈ (if c then [x] else []) → i = x := by
    intro c _ x hi
    split at hi
    · exact List.mem_singleton.1 hi
    · cases hi
  rcases h with ((h | h) | h) | h <;> rw [one h]
  · exact ⟨rfl, rfl, .inr rfl⟩
  · exact ⟨rfl, rfl, .inr rfl⟩
  · exact ⟨rfl, rfl, .inr rfl⟩
  · exact ⟨rfl, rfl, .inl rfl⟩

theorem glslFor_self {t : List String} {c : ClientStruct} {i : ImplDef} (h : i ∈ glslFor t c) :
    i.module = "" ∧ i.params = [] ∧ i.self = ty c.name := by
  unfold glslFor at h
  simp only [List.mem_append] at h
  rcases h with h | h <;> split at h
  · rw [List.mem_singleton.1 h]; exact ⟨rfl, rfl, rfl⟩
  · cases h
  · rw [List.mem_singleton.1 h]; exact ⟨rfl, rfl, rfl⟩
  · cases h

theorem src_mem {c : ClientStruct} (hc : c ∈ k.cs) : c.name ∈ k.names := by
  unfold Client.names Client.allItems
  rw [List.filterMap_append]
  exact List.mem_append_left _ (List.mem_filterMap.2 ⟨c.item, List.mem_map_of_mem hc, rfl⟩)

theorem own_no_match {x : String} (hn : x ∈ k.names) {c : CTy} (hc : ∀ q cs, c = .named q cs → q ≠ ["", x]) :
    matchTy (allNames k) "" [] (ty x) c = none := by
  unfold ty
  rw [matchTy_path]
  simp only [List.contains_nil, Bool.false_eq_true, if_false]
  unfold matchNamed
  cases c with
  | array _ _ => rfl
  | named q cs =>
    dsimp only
    rw [resolve_declared hn, if_neg]
    intro e
    injection e with e
    exact hc q cs rfl e.symm

theorem client_no_match {d : ClientStruct × Layout} (hd : d ∈ k.ds) {x : String}
    (hx : x = d.1.name ∨ x = generatedName d.2 d.1.name) {c : CTy} (hc : ∀ q cs, c = .named q cs → q ≠ ["", x]) :
    matchTy (allNames k) "" [] (ty x) c = none := by
  have hn : x ∈ k.names := by
    rcases hx with rfl | rfl
    · exact (mem_names hd).2
    · exact (mem_names hd).1
  unfold ty
  rw [matchTy_path]
  simp only [List.contains_nil, Bool.false_eq_true, if_false]
  unfold matchNamed
  cases c with
  | array _ _ => rfl
  | named q cs =>
    dsimp only
    rw [resolve_declared hn, if_neg]
    intro e
    injection e with e
    exact hc q cs rfl e.symm

theorem conservesC (k : Client) (tg : Target) (env : ForeignEnv) :
    Conserves (viewC k) jx (kx k) (outside env) (clientOutside tg env) where
  path := by
    intro m p h
    refine ⟨resolve_path h, fun q hq => ?_⟩
    rw [show (kx k).names = allNames k from rfl, ← resolve_path h] at hq
    exact resolve_named h.1 hq
  via := by
    intro m p h
    refine ⟨resolve_path h.1, fun q hq => ?_⟩
    rw [show (kx k).names = allNames k from rfl, ← resolve_path h.1] at hq
    exact h.2 q hq
  item := by
    intro a ha
    have h2 : ∀ a ∈ coreAssoc, ∀ o ∈ theOwners.filter (fun o => o.1 == a), o.2 ∈ coreTraits := by decide +kernel
    exact ⟨rfl, h2 a ha⟩
  structs := by
    intro p hp
    rw [structs_same p hp]
    refine ⟨rfl, fun d hd x hx => ?_⟩
    have h1 := structs_ok (f := allOn) (p, d) (lookup_mem hd) x hx
    have h2 := structs_full (p, d) (lookup_mem hd)
    exact ty_up h2.1 _ (h2.2 x hx) h1
  fns := by
    intro p hp
    rw [fns_same p hp]
    refine ⟨rfl, fun g hg b hb => ?_⟩
    have h1 := fns_ok (f := allOn) (p, g) (lookup_mem hg) b hb
    have h2 : ∀ s ∈ theFns, s.1.headD "" ≠ "" ∧ (s.2.body.map exprFull).getD true = true := by decide +kernel
    have h3 := h2 _ (lookup_mem hg)
    dsimp only at h3
    rw [hb] at h3
    exact expr_up h3.1 _ h3.2 h1
  outside := fun hp ha => ⟨rfl, fun fs h => outside_full env ha h⟩
  traits := fun _ _ _ => rfl
  into := fun _ _ _ => rfl
  constFn := fun _ _ => rfl
  impls := by
    intro t ht
    have hfull := List.all_eq_true.1 (impls_full ht)
    refine ⟨inCrate, ?_, fun i hi => ?_⟩
    · show _ = (jx.impls t ++ (k.ds.flatMap (implsFor t) ++ k.gs.flatMap (glslFor t))).filter inCrate
      rw [List.filter_append, List.filter_eq_self.2, List.filter_eq_nil_iff.2, List.append_nil]
      · intro i hi
        rcases List.mem_append.1 hi with hi | hi
        · obtain ⟨d, -, hi⟩ := List.mem_flatMap.1 hi
          simp [inCrate, (implsFor_self hi).1]
        · obtain ⟨d, -, hi⟩ := List.mem_flatMap.1 hi
          simp [inCrate, (glslFor_self hi).1]
      · intro i hi
        have := hfull i hi
        simp only [implFull, Bool.and_eq_true] at this
        exact this.1.1.1.1
    · rcases List.mem_append.1 hi with hi | hi
      · have hc : inCrate i = true := by
          have := hfull i hi
          simp only [implFull, Bool.and_eq_true] at this
          exact this.1.1.1.1
        refine ⟨fun _ => .inl <| impl_up (hfull i hi) ((impls_kept (f := allOn) ht i hi).1 ?_), fun h => by rw [hc] at h; cases h⟩
        unfold keep
        split
        · simp [offLib]
        · rfl
      · have hq : ∀ c : CTy, COk (viewC k) c → ∀ x q cs, c = .named q cs → q ≠ ["", x] := by
          intro c hc x q cs e hq
          subst e
          unfold COk at hc
          exact hc.1 "" (by rw [hq]; simp) rfl
        rcases List.mem_append.1 hi with hi | hi
        case inr =>
          obtain ⟨d, hd, hi⟩ := List.mem_flatMap.1 hi
          obtain ⟨h1, h2, h3⟩ := glslFor_self hi
          refine ⟨fun h => by simp [inCrate, h1] at h, fun _ c hc => ?_⟩
          rw [h1, h2, h3]
          exact own_no_match (src_mem (k.glslKnown d hd)) (hq c hc _)
        obtain ⟨d, hd, hi⟩ := List.mem_flatMap.1 hi
        obtain ⟨h1, h2, h3⟩ := implsFor_self hi
        refine ⟨fun h => by simp [inCrate, h1] at h, fun _ c hc => ?_⟩
        rw [h1, h2]
        replace hq := hq c hc
        rcases h3 with h3 | h3 <;> rw [h3]
        · exact client_no_match hd (.inl rfl) (hq _)
        · exact client_no_match hd (.inr rfl) (hq _)
  sized := fun h => h.elim
  zeroable := by show _ ∈ coreTraits; decide
  convert := by show _ ∈ coreTraits; decide
  bool := by show ∀ x ∈ ["bool"], x ≠ ""; decide

/-- The meaning of the crate and crevice. -/
abbrev K (k : Client) (tg : Target) (env : ForeignEnv) (n : Nat) : Sem := sem (kx k) (clientOutside tg env) n

theorem sem_eq (hk : k.Ok) (tg : Target) (env : ForeignEnv) (n : Nat) : k.sem tg env n = K k tg env n := by
  unfold Client.sem
  rw [index_eq hk]

theorem sameC (k : Client) (tg : Target) (env : ForeignEnv) (n : Nat) : Same (viewC k) (G env n) (K k tg env n) :=
  sem_same (conservesC k tg env) n

end Crevice.ClientProof
