import Verif.Proof.FeatureSame
/-
With any set of features the text says the same about the types that are there.
-/
namespace Crevice.Tables
open RustCode RustTypes TypeNames

variable {f : Features}

theorem lookup_filter {α β : Type} [BEq α] [LawfulBEq α] {l : List (α × β)} {k : α → Bool} {a : α} (h : k a = true) :
    (l.filter fun x => k x.1).lookup a = l.lookup a := by
  induction l with
  | nil => rfl
  | cons x l ih =>
    obtain ⟨b, y⟩ := x
    rw [List.filter_cons]
    split
    · rw [List.lookup_cons, List.lookup_cons, ih]
    · next hk =>
      rw [List.lookup_cons, ih]
      split
      · next hb =>
        rw [← eq_of_beq hb] at hk
        exact absurd h hk
      · rfl

theorem not_gone {p : List String} (h : ∀ x ∈ p, Fine f x) : (!p.any (gone f.std).contains) = true := by
  rw [Bool.not_eq_true', List.any_eq_false]
  intro x hx
  rw [(h x hx).1]
  exact Bool.false_ne_true

/-- The names in the types of fields. -/
def fieldNames : RustCode.Ty → Option (List String)
  | .path p [] => some p
  | .array (.path p []) (.num _ _) => some p
  | .ref _ _ => some []
  | _ => none

theorem fieldNames_ok {t : RustCode.Ty} {p : List String} (m : String) (h : fieldNames t = some p)
    (hp : p.all Always = true) : TyOk (view f) m t := by
  have hp : ∀ x ∈ p, Fine f x := fun x hx => always_fine (List.all_eq_true.1 hp x hx)
  unfold fieldNames at h
  split at h
  · injection h with h
    subst h
    unfold TyOk
    exact ⟨hp, by unfold TysOk; trivial⟩
  · injection h with h
    subst h
    unfold TyOk TyOk ExprOk
    exact ⟨⟨hp, by unfold TysOk; trivial⟩, trivial⟩
  · unfold TyOk
    trivial
  · cases h

theorem structs_ok : ∀ s ∈ theStructs, ∀ x ∈ s.2.fields, TyOk (view f) s.2.module x.2 := by
  have : ∀ s ∈ theStructs, ∀ x ∈ s.2.fields, ((fieldNames x.2).map fun p => p.all Always) = some true := by decide +kernel
  intro s hs x hx
  have h := this s hs x hx
  cases hf : fieldNames x.2 with
  | none => rw [hf] at h; cases h
  | some p =>
    rw [hf] at h
    injection h with h
    exact fieldNames_ok _ hf h

theorem fns_ok : ∀ p ∈ theFns, ∀ b, p.2.body = some b → ExprOk (view f) (p.1.headD "") b := by
  intro p hp b hb
  simp only [theFns, List.mem_cons, List.not_mem_nil, or_false] at hp
  rcases hp with rfl | rfl | rfl <;> injection hb with hb <;> subst hb <;>
    simp only [ExprOk, StmtsOk, StmtOk, ExprsOk, CalleeOk, PathOk, true_and, and_true, and_self]
  unfold TyOk
  trivial

theorem outside_ok (env : ForeignEnv) {p : List String} {args : List CTy} {fs : List (String × CTy)}
    (hp : (view f).named p) (ha : COks (view f) args) (h : (outside env).fields p args = some fs) :
    ∀ x ∈ fs, COk (view f) x.2 := by
  have hs : ∀ d ∈ outsideStructs, ∀ w, d.2.2 = some w →
      w.head? = d.1.head? ∧ w.tail.all Always = true ∧ d.1.length = 2 := by
    decide +kernel
  unfold outside at h
  dsimp only at h
  split at h
  · next c =>
    simp only [COks, and_true] at ha
    cases hl : outsideStructs.lookup p with
    | none => rw [hl] at h; cases h
    | some d =>
      rw [hl] at h
      injection h with h
      subst h
      intro x hx
      obtain ⟨n, -, rfl⟩ := List.mem_map.1 hx
      dsimp only
      split
      · exact ha
      · next w hw =>
        obtain ⟨h1, h2, -⟩ := hs _ (lookup_mem hl) w hw
        unfold COk
        refine ⟨fun y hy => ?_, by simp only [COks, and_true]; exact ha⟩
        cases w with
        | nil => cases hy
        | cons a w =>
          rcases List.mem_cons.1 hy with rfl | hy
          · exact hp _ (List.mem_of_mem_head? h1.symm)
          · exact always_fine (List.all_eq_true.1 h2 y hy)
  · cases h

theorem conserves (f : Features) (env : ForeignEnv) : Conserves (view f) (indexWith f) jx (outside env) (outside env) where
  path := by
    intro m p h
    rw [with_names]
    exact ⟨resolve_filter fun x hx => (h x hx).1, fun q hq => resolve_fine h hq⟩
  via := by
    intro m p h
    rw [with_names]
    exact ⟨resolve_filter fun x hx => (h.1 x hx).1, h.2⟩
  item := by
    intro a ha
    rw [with_owners]
    have h1 : ∀ b, ∀ a ∈ coreAssoc, ((theOwners.filter fun s => !s.2.any (gone b).contains).filter fun o => o.1 == a) =
        theOwners.filter fun o => o.1 == a := by
      intro b
      cases b <;> decide +kernel
    have h2 : ∀ a ∈ coreAssoc, ∀ o ∈ theOwners.filter (fun o => o.1 == a), o.2 ∈ coreTraits := by decide +kernel
    exact ⟨h1 f.std a ha, h2 a ha⟩
  structs := by
    intro p hp
    rw [with_structs]
    exact ⟨lookup_filter (k := fun (p : List String) => !p.any (gone f.std).contains) (not_gone hp),
      fun (d : StructDef) hd => structs_ok (p, d) (lookup_mem hd)⟩
  fns := by
    intro p hp
    rw [with_fns]
    exact ⟨rfl, fun g hg => fns_ok (p, g) (lookup_mem hg)⟩
  outside := fun hp ha => ⟨rfl, fun fs h => outside_ok env hp ha h⟩
  traits := fun _ _ _ => rfl
  into := fun _ _ _ => rfl
  constFn := fun _ _ => rfl
  impls := fun ht => ⟨keep f, impls_filter ht, fun i hi => ⟨fun hk => .inl ((impls_kept ht i hi).1 hk), (impls_kept ht i hi).2⟩⟩
  sized := fun h => h.elim
  zeroable := by show _ ∈ coreTraits; decide
  convert := by show _ ∈ coreTraits; decide
  bool := fine_all (by decide)

/-- The semantics with the given features. -/
abbrev GF (f : Features) (env : ForeignEnv) (n : Nat) : Sem := sem (indexWith f) (outside env) n

theorem same (f : Features) (env : ForeignEnv) (n : Nat) : Same (view f) (GF f env n) (G env n) :=
  sem_same (conserves f env) n

theorem as_core (l : Layout) : (view f).trait [mod l, asTrait l] := by cases l <;> (show _ ∈ coreTraits; decide)
theorem std_core (l : Layout) : (view f).trait [mod l, stdTrait l] := by cases l <;> (show _ ∈ coreTraits; decide)
theorem glsl_core : (view f).trait ["glsl", "Glsl"] := by show _ ∈ coreTraits; decide
theorem debug_core : (view f).trait ["Debug"] := by show _ ∈ coreTraits; decide

theorem constOf_same {g g' : Sem} (hg : Same (view f) g g') {i : Found} (hi : FoundOk (view f) i) (x : String) :
    (assocConst i.items x).bind (g.const i.scope []) = (assocConst i.items x).bind (g'.const i.scope []) :=
  bind_same rfl fun e he => hg.const hi.scope (assocConst_ok hi.items he)

theorem semImpl_same {g g' : Sem} (hg : Same (view f) g g') (l : Layout) {c : CTy} (hc : COk (view f) c) :
    semImpl g l c = semImpl g' l c := by
  have nil : COks (view f) [] := by unfold COks; trivial
  unfold semImpl
  obtain ⟨h1, h2⟩ := find_same hg (as_core l) nil hc
  refine bind_same h1 fun i hi => ?_
  obtain ⟨h3, h4⟩ := project_same hg (as_core l) hc "Output"
  refine bind_same h3 fun out ho => ?_
  have hout := h4 out ho
  refine bind_same (hg.layout hout) fun r _ => ?_
  obtain ⟨h5, h6⟩ := find_same hg (std_core l) nil hout
  refine bind_same h5 fun std hs => ?_
  refine bind_same (constOf_same hg (h6 std hs) "ALIGNMENT") fun al _ => ?_
  refine bind_same (hg.implements debug_core hout) fun dbg _ => ?_
  cases al with
  | str s => rfl
  | nats s => rfl
  | nat al =>
    have e1 : ∀ v, g.call i (asName l) (some (c, v)) [] = g'.call i (asName l) (some (c, v)) [] := fun v =>
      (call_same hg (h2 i hi) _ (fun r hr => by injection hr with hr; subst hr; exact hc) (fun r hr => by cases hr)).1
    have e2 : ∀ v, g.call i (fromName l) none [(out, v)] = g'.call i (fromName l) none [(out, v)] := fun v =>
      (call_same hg (h2 i hi) _ (fun r hr => by cases hr)
        (fun r hr => by rw [List.mem_singleton.1 hr]; exact hout)).1
    simp only [e1, e2]

theorem semName_same {g g' : Sem} (hg : Same (view f) g g') {c : CTy} (hc : COk (view f) c) :
    semName g c = semName g' c := by
  unfold semName
  have nil : COks (view f) [] := by unfold COks; trivial
  obtain ⟨h1, h2⟩ := find_same hg glsl_core nil hc
  refine bind_same h1 fun i hi => ?_
  rw [constOf_same hg (h2 i hi) "NAME"]

/-! ### Types that are not there -/

mutual
theorem match_none {names : List (String × List String)} {m : String} : ∀ (t : RustCode.Ty) (c : CTy) {bs : List (String × CTy)},
    matchTy names m [] t c = some bs → bs = []
  | .path p args, c, bs, h => by
    obtain ⟨q, cs, -, rfl, h'⟩ := match_plain h
    exact match_nones args cs h'
  | .proj _ _ _, c, _, h => by simp [matchTy] at h
  | .ref _ _, c, _, h => by simp [matchTy] at h
  | .slice _, c, _, h => by simp [matchTy] at h
  | .array _ _, c, _, h => by simp [matchTy] at h
  | .unit, c, _, h => by simp [matchTy] at h
theorem match_nones {names : List (String × List String)} {m : String} :
    ∀ (ts : List RustCode.Ty) (cs : List CTy) {bs : List (String × CTy)}, matchTys names m [] ts cs = some bs → bs = []
  | [], [], _, h => by
    simp only [matchTys] at h
    injection h with h
    exact h.symm
  | [], _ :: _, _, h => by simp [matchTys] at h
  | _ :: _, [], _, h => by simp [matchTys] at h
  | t :: ts, c :: cs, bs, h => by
    simp only [matchTys] at h
    rw [Option.bind_eq_some_iff] at h
    obtain ⟨a, ha, h⟩ := h
    rw [Option.map_eq_some_iff] at h
    obtain ⟨b, hb, rfl⟩ := h
    rw [match_none t c ha, match_nones ts cs hb]
    rfl
end

section
variable {v : View} {ix ix' : Index} {o o' : Outside}

mutual
theorem match_ok (h : Conserves v ix ix' o o') (m : String) (vars : List String) :
    ∀ (t : RustCode.Ty) (c : CTy) {bs : List (String × CTy)}, TyOk v m t → matchTy ix.names m vars t c = some bs →
      (∀ b ∈ bs, COk v b.2) → COk v c
  | .path p args, c, bs, ht, hm, hb => by
    unfold TyOk at ht
    obtain ⟨h1, h2⟩ := h.path ht.1
    have key : matchNamed ix.names m vars p args c = some bs → COk v c := by
      intro hm
      cases c with
      | array t n => cases hm
      | named q cs =>
        unfold matchNamed at hm
        dsimp only at hm
        split at hm
        · next hq =>
          unfold COk
          exact ⟨h2 q (h1 ▸ hq), match_oks h m vars args cs ht.2 hm hb⟩
        · cases hm
    rw [matchTy_path] at hm
    split at hm
    · split at hm
      · injection hm with hm
        subst hm
        exact hb _ (List.mem_singleton.2 rfl)
      · exact key hm
    · exact key hm
  | .proj _ _ _, c, _, _, h, _ => by simp [matchTy] at h
  | .ref _ _, c, _, _, h, _ => by simp [matchTy] at h
  | .slice _, c, _, _, h, _ => by simp [matchTy] at h
  | .array _ _, c, _, _, h, _ => by simp [matchTy] at h
  | .unit, c, _, _, h, _ => by simp [matchTy] at h
theorem match_oks (h : Conserves v ix ix' o o') (m : String) (vars : List String) :
    ∀ (ts : List RustCode.Ty) (cs : List CTy) {bs : List (String × CTy)}, TysOk v m ts →
      matchTys ix.names m vars ts cs = some bs → (∀ b ∈ bs, COk v b.2) → COks v cs
  | [], [], _, _, _, _ => by unfold COks; trivial
  | [], _ :: _, _, _, h, _ => by simp [matchTys] at h
  | _ :: _, [], _, _, h, _ => by simp [matchTys] at h
  | t :: ts, c :: cs, bs, ht, hm, hb => by
    unfold TysOk at ht
    simp only [matchTys] at hm
    rw [Option.bind_eq_some_iff] at hm
    obtain ⟨a, ha, hm⟩ := hm
    rw [Option.map_eq_some_iff] at hm
    obtain ⟨b, hb', rfl⟩ := hm
    unfold COks
    exact ⟨match_ok h m vars t c ht.1 ha fun x hx => hb x (List.mem_append_left _ hx),
      match_oks h m vars ts cs ht.2 hb' fun x hx => hb x (List.mem_append_right _ hx)⟩
end

theorem applies_some {g : Sem} {c : CTy} {d : ImplDef} {i : Found} (hd : d.traitArgs = [])
    (h : applies ix g [] c d = some (some i)) : ∃ a, matchTy ix.names d.module d.params d.self c = some a ∧
      boundsHold ix g { module := d.module, vars := ("Self", c) :: a, assoc := assocTypes d.items, bounds := d.bounds }
        d.bounds = some true := by
  unfold applies at h
  rw [hd] at h
  cases ha : matchTy ix.names d.module d.params d.self c with
  | none => rw [ha] at h; cases h
  | some a =>
    refine ⟨a, rfl, ?_⟩
    rw [ha] at h
    simp only [matchTys, List.append_nil] at h
    cases hb : boundsHold ix g { module := d.module, vars := ("Self", c) :: a, assoc := assocTypes d.items, bounds := d.bounds }
        d.bounds with
    | none => rw [hb] at h; cases h
    | some b =>
      rw [hb] at h
      cases b with
      | true => rfl
      | false => cases h

end

/-- No implementation of the trait applies. -/
def NoCandidates (g : Sem) (t : List String) (c : CTy) : Prop := ∀ fs, g.candidates t [] c = some fs → fs = []

theorem no_find {g : Sem} {t : List String} {c : CTy} (h : NoCandidates g t c) : g.find t [] c = none := by
  unfold Sem.find
  cases hc : g.candidates t [] c with
  | none => rfl
  | some fs => rw [h fs hc]; rfl

theorem no_plain {t : List String} (ht : t ∈ coreTraits) {env : ForeignEnv} {n : Nat} {c : CTy} (hc : ¬COk (view f) c)
    {d : ImplDef} (hd : d ∈ (indexWith f).impls t) (ha : d.traitArgs = []) (hp : d.params = []) {i : Found} :
    applies (indexWith f) (GF f env n) [] c d ≠ some (some i) := by
  intro h
  obtain ⟨a, hm, -⟩ := applies_some ha h
  rw [impls_filter ht] at hd
  obtain ⟨hd, hk⟩ := List.mem_filter.1 hd
  have ho := (impls_kept ht d hd).1 hk
  refine hc (match_ok (conserves f env) d.module d.params _ _ ho.self hm fun b hb => ?_)
  rw [hp] at hm
  rw [match_none _ _ hm] at hb
  cases hb

theorem asVia' (l : Layout) : resolveName (indexWith f).names (mod l) [asTrait l] = some [mod l, asTrait l] := by
  rw [with_names]
  cases f.std <;> cases l <;> kernel_rfl

theorem stdVia' (l : Layout) : resolveName (indexWith f).names (mod l) [stdTrait l] = some [mod l, stdTrait l] := by
  rw [with_names]
  cases f.std <;> cases l <;> kernel_rfl

theorem no_implements {env : ForeignEnv} {n : Nat} {a b : String} {c : CTy}
    (h : ∀ k, k + 1 = n → NoCandidates (GF f env k) [a, b] c) : (GF f env n).implements [a, b] c ≠ some true := by
  intro hi
  cases n with
  | zero => cases hi
  | succ k =>
    have hi : ((GF f env k).candidates [a, b] [] c).bind (fun fs => if !fs.isEmpty then some true else some false) = some true := hi
    cases hc : (GF f env k).candidates [a, b] [] c with
    | none => rw [hc] at hi; cases hi
    | some fs =>
      rw [hc, h k rfl fs hc] at hi
      cases hi

/-- The bound `T: Tr` does not hold. -/
theorem no_bound {env : ForeignEnv} {n : Nat} {s : Scope} {c : CTy} {p a b : String} (hv : s.vars.lookup "T" = some c)
    (hp : resolveName (indexWith f).names s.module [p] = some [a, b])
    (h : ∀ k, k + 1 = n → NoCandidates (GF f env k) [a, b] c) :
    boundsHold (indexWith f) (GF f env n) s [(ty "T", [ty p])] ≠ some true := by
  intro hb
  cases n with
  | zero => cases hb
  | succ k =>
    have hn : (GF f env (k + 1)).norm s (ty "T") = some c := by
      show normRule (indexWith f) (GF f env k) s (ty "T") = some c
      rw [normRule_path, if_neg (by decide)]
      unfold normNamed
      dsimp only
      rw [hv]
    unfold boundsHold allM at hb
    simp only [hn, allM, hp, Option.bind_some] at hb
    cases hi : (GF f env (k + 1)).implements [a, b] c with
    | none => rw [hi] at hb; cases hb
    | some r =>
      cases r with
      | true => exact no_implements h hi
      | false => rw [hi] at hb; cases hb

theorem dyn_match {m : String} {p : String} {c : CTy} {a : List (String × CTy)} (hp : ("T" == p) = false)
    (h : matchTy (indexWith f).names m ["T"] (.path [p] [ty "T"]) c = some a) : ∃ d, a = [("T", d)] := by
  have hc : (["T"].contains p) = false := by
    simp only [List.contains_cons, List.contains_nil, Bool.or_false]
    rw [← hp]
    exact Bool.beq_comm
  rw [matchTy_path] at h
  dsimp only at h
  rw [hc, if_neg Bool.false_ne_true] at h
  cases c with
  | array t n => cases h
  | named q cs =>
    unfold matchNamed at h
    dsimp only at h
    split at h
    · rcases cs with _ | ⟨d, _ | ⟨e, cs⟩⟩
      · simp [matchTys] at h
      · simp only [matchTys] at h
        rw [show matchTy (indexWith f).names m ["T"] (ty "T") d = some [("T", d)] from by rw [matchTy_path]; rfl] at h
        injection h with h
        exact ⟨d, h.symm⟩
      · simp only [matchTys] at h
        rw [Option.bind_eq_some_iff] at h
        obtain ⟨x, -, h⟩ := h
        cases h
    · cases h

theorem traitArgs_nil {t : List String} {i : ImplDef} (h : i ∈ (indexWith f).impls t) (ht : t ∈ coreTraits)
    (hf : t ≠ ["From"]) : i.traitArgs = [] := by
  rw [impls_filter ht] at h
  have h := (List.mem_filter.1 h).1
  simp only [coreTraits, List.mem_cons, List.not_mem_nil, or_false] at ht
  have : ∀ is : List ImplDef, (is.all fun i => i.traitArgs.isEmpty) = true → ∀ i ∈ is, i.traitArgs = [] := fun is h i hi =>
    List.isEmpty_iff.1 (List.all_eq_true.1 h i hi)
  rcases ht with rfl | rfl | rfl | rfl | rfl | rfl | rfl | rfl | rfl | rfl | rfl
  · exact this (asDefs .std140) (by decide +kernel) i h
  · exact this (asDefs .std430) (by decide +kernel) i h
  · exact this (stdDefs .std140) (by decide +kernel) i h
  · exact this (stdDefs .std430) (by decide +kernel) i h
  · exact this (podDefs "Zeroable") (by decide +kernel) i h
  · exact this (podDefs "Pod") (by decide +kernel) i h
  · cases h
  · cases h
  · exact this [plainDef "bool" (ty "Bool") [.fn Parsed.bool7_fmt]] (by decide +kernel) i h
  · exact this glslDefs (by decide +kernel) i h
  · exact absurd rfl hf

theorem candidates_next (ix : Index) (o : Outside) (n : Nat) (t : List String) (args : List CTy) (c : CTy) :
    (sem ix o (n + 1)).candidates t args c = filterMapM (applies ix (sem ix o n) args c) (ix.impls t) := rfl

/-- A type that is not there implements nothing. -/
theorem absent (env : ForeignEnv) (n : Nat) : ∀ c, ¬COk (view f) c → ∀ l,
    NoCandidates (GF f env n) [mod l, asTrait l] c ∧ NoCandidates (GF f env n) [mod l, stdTrait l] c := by
  induction n using Nat.strongRecOn with
  | ind n ih =>
  intro c hc l
  have start : ∀ {t : List String}, t ∈ coreTraits → (∀ k, k + 1 = n → ∀ d ∈ (indexWith f).impls t, ∀ i,
      applies (indexWith f) (GF f env k) [] c d ≠ some (some i)) → NoCandidates (GF f env n) t c := by
    intro t _ h fs hfs
    cases n with
    | zero => cases hfs
    | succ k =>
      cases fs with
      | nil => rfl
      | cons y ys =>
        rw [candidates_next] at hfs
        obtain ⟨d, hd, z, hz⟩ := filterMapM_cons_inv hfs
        exact absurd hz (h k rfl d hd z)
  constructor
  · refine start (as_core (f := f) l) fun k hk d hd i happ => ?_
    have ha := traitArgs_nil hd (as_core (f := f) l) (by cases l <;> decide)
    by_cases hp : d.params = []
    · exact no_plain (as_core (f := f) l) hc hd ha hp happ
    obtain ⟨a, hm, hb⟩ := applies_some ha happ
    have hm' := hd
    rw [impls_filter (as_core (f := f) l)] at hm'
    obtain ⟨hm', hkeep⟩ := List.mem_filter.1 hm'
    have hok := (impls_kept (as_core (f := f) l) d hm').1 hkeep
    have hd' : d ∈ asDefs l := by cases l <;> exact hm'
    have hcase : d = blanketDef l ∨ (d = dynamicDef ∧ l = .std140) := by
      rw [asDefs_split] at hd'
      rcases List.mem_append.1 hd' with h | h
      · unfold asCore at h
        simp only [List.mem_append, List.mem_singleton] at h
        rcases h with (rfl | h) | rfl
        · exact .inl rfl
        · cases l with
          | std140 => exact .inr ⟨List.mem_singleton.1 h, rfl⟩
          | std430 => cases h
        · exact absurd rfl hp
      · rcases List.mem_append.1 h with h | h
        · obtain ⟨r, -, rfl⟩ := List.mem_map.1 h
          exact absurd rfl hp
        · obtain ⟨r, -, rfl⟩ := List.mem_map.1 h
          exact absurd rfl hp
    rcases hcase with rfl | ⟨rfl, rfl⟩
    · have hm : matchTy (indexWith f).names (mod l) ["T"] (ty "T") c = some a := hm
      rw [matchTy_path] at hm
      injection hm with hm
      subst hm
      refine no_bound (s := ⟨mod l, [("Self", c), ("T", c)], assocTypes (blanketDef l).items, (blanketDef l).bounds⟩)
        (p := stdTrait l) rfl (stdVia' l) (env := env) (n := k) (fun j hj => (ih j (by omega) c hc l).2) ?_
      have hb : boundsHold (indexWith f) (GF f env k) ⟨mod l, [("Self", c), ("T", c)], assocTypes (blanketDef l).items,
          (blanketDef l).bounds⟩ [(ty "T", []), (ty "T", [ty (stdTrait l)])] = some true := hb
      unfold boundsHold allM at hb
      rw [Option.bind_eq_some_iff] at hb
      obtain ⟨x, hx, hb⟩ := hb
      cases x with
      | true => exact hb
      | false => cases hb
    · obtain ⟨e, rfl⟩ := dyn_match (by decide) hm
      have he : ¬COk (view f) e := by
        intro he
        refine hc (match_ok (conserves f env) _ _ _ _ hok.self hm fun b hb => ?_)
        rw [List.mem_singleton.1 hb]
        exact he
      exact no_bound (s := ⟨"std140", [("Self", c), ("T", e)], assocTypes dynamicDef.items, dynamicDef.bounds⟩)
        (p := "AsStd140") rfl (asVia' .std140) (env := env) (n := k) (fun j hj => (ih j (by omega) e he .std140).1) hb
  · refine start (std_core (f := f) l) fun k hk d hd i happ => ?_
    have ha := traitArgs_nil hd (std_core (f := f) l) (by cases l <;> decide)
    by_cases hp : d.params = []
    · exact no_plain (std_core (f := f) l) hc hd ha hp happ
    obtain ⟨a, hm, hb⟩ := applies_some ha happ
    have hm' := hd
    rw [impls_filter (std_core (f := f) l)] at hm'
    obtain ⟨hm', hkeep⟩ := List.mem_filter.1 hm'
    have hok := (impls_kept (std_core (f := f) l) d hm').1 hkeep
    have hd' : d ∈ stdDefs l := by cases l <;> exact hm'
    have hcase : d = dynamicStdDef ∧ l = .std140 := by
      unfold stdDefs at hd'
      simp only [List.mem_append, List.mem_map] at hd'
      rcases hd' with ((h | h) | ⟨r, -, rfl⟩) | ⟨r, -, rfl⟩
      · cases l with
        | std140 => exact ⟨List.mem_singleton.1 h, rfl⟩
        | std430 => cases h
      · simp only [List.mem_cons, List.not_mem_nil, or_false] at h
        rcases h with rfl | rfl | rfl | rfl | rfl <;> exact absurd rfl hp
      · exact absurd rfl hp
      · exact absurd rfl hp
    obtain ⟨rfl, rfl⟩ := hcase
    obtain ⟨e, rfl⟩ := dyn_match (by decide) hm
    have he : ¬COk (view f) e := by
      intro he
      refine hc (match_ok (conserves f env) _ _ _ _ hok.self hm fun b hb => ?_)
      rw [List.mem_singleton.1 hb]
      exact he
    exact no_bound (s := ⟨"std140", [("Self", c), ("T", e)], assocTypes dynamicStdDef.items, dynamicStdDef.bounds⟩)
      (p := "Std140") rfl (stdVia' .std140) (env := env) (n := k) (fun j hj => (ih j (by omega) e he .std140).2) hb

theorem absent_glsl (env : ForeignEnv) (n : Nat) {c : CTy} (hc : ¬COk (view f) c) :
    NoCandidates (GF f env n) ["glsl", "Glsl"] c := by
  intro fs hfs
  cases n with
  | zero => cases hfs
  | succ k =>
    cases fs with
    | nil => rfl
    | cons y ys =>
      rw [candidates_next] at hfs
      obtain ⟨d, hd, z, hz⟩ := filterMapM_cons_inv hfs
      refine absurd hz (no_plain (glsl_core (f := f)) hc hd (traitArgs_nil hd (glsl_core (f := f)) (by decide)) ?_)
      rw [impls_filter (glsl_core (f := f))] at hd
      have h := (List.mem_filter.1 hd).1
      have : (glslDefs.all fun i => i.params.isEmpty) = true := by decide +kernel
      exact List.isEmpty_iff.1 (List.all_eq_true.1 this d h)

theorem absent_impl (env : ForeignEnv) (n : Nat) (l : Layout) {c : CTy} (hc : ¬COk (view f) c) :
    semImpl (GF f env n) l c = none := by
  unfold semImpl
  rw [no_find (absent env n c hc l).1]
  rfl

theorem absent_name (env : ForeignEnv) (n : Nat) {c : CTy} (hc : ¬COk (view f) c) : semName (GF f env n) c = none := by
  unfold semName
  rw [no_find (absent_glsl env n hc)]
  rfl

end Crevice.Tables
