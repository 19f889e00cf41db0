import Verif.Proof.ClientCoherence
import Verif.Proof.ClientWithout
/-
In a crate that uses crevice with any features, two implementations of AsStdN, StdN, Glsl, GlslStruct, Zeroable or Pod never
apply to the same type.
-/
namespace Crevice.ClientProof
open RustCode RustTypes TypeNames ClientText Tables

variable {k : Client} {f : Features} {tg : Target} {env : ForeignEnv}

/-- A path without names that are only there with `std`. -/
def lasting (p : List String) : Bool := p.all fun x => !["WriteStd140", "WriteStd430", "Writer", "GlslStruct"].contains x

/-- The same for a type and its arguments. -/
def tyLasting (t : RustCode.Ty) : Bool :=
  match t with
  | .path p args => lasting p && args.all fun a => match a with | .path q _ => lasting q | _ => true
  | _ => true

theorem resolve_lasting {m : String} (hm : m ≠ "") {p : List String} (h1 : full p = true) (h2 : lasting p = true) :
    resolveName (namesF k f) m p = resolveName theNames m p := by
  refine (resolve_pathF (path_up hm h1)).trans (resolve_filter fun x hx => ?_)
  unfold gone
  split
  · rfl
  · have := List.all_eq_true.1 h2 x hx
    simpa using this

theorem head_upF {m : String} (hm : m ≠ "") {t : RustCode.Ty} (h : pathFull t = true) (hl : tyLasting t = true) :
    headOf (namesF k f) m t = headOf theNames m t := by
  cases t <;> try rfl
  simp only [pathFull, tyLasting, Bool.and_eq_true] at h hl
  exact resolve_lasting hm h.1 hl.1

theorem key_upF {m : String} (hm : m ≠ "") {t : RustCode.Ty} (h : pathFull t = true) (hl : tyLasting t = true) :
    keyOf (namesF k f) m t = keyOf theNames m t := by
  cases t <;> try rfl
  simp only [pathFull, tyLasting, Bool.and_eq_true, List.all_eq_true] at h hl
  simp only [keyOf, resolve_lasting (k := k) (f := f) hm h.1 hl.1]
  congr 1
  refine List.map_congr_left fun a ha => ?_
  have := h.2 a ha
  have := hl.2 a ha
  cases a <;> try rfl
  exact resolve_lasting hm (by assumption) (by assumption)

/-- The rows of the crate are written in its modules, with names that are always there. -/
def rowLasting (d : ImplDef) : Bool := d.module != "" && (pathFull d.self && tyLasting d.self)

theorem rowLasting_iff {d : ImplDef} (h : rowLasting d = true) : d.module ≠ "" ∧ pathFull d.self = true ∧ tyLasting d.self = true := by
  simpa only [rowLasting, Bool.and_eq_true, bne_iff_ne, ne_eq] using h

theorem std_lasting (l : Layout) : ((stdDefs l).all rowLasting) = true := by cases l <;> decide +kernel

theorem pod_lasting (t : String) : ((podDefs t).all rowLasting) = true := by
  have : (podDefs t).all rowLasting = (podDefs "Pod").all rowLasting := rfl
  rw [this]
  decide +kernel

theorem glsl_lasting : (glslDefs.all rowLasting) = true := by decide +kernel

theorem tail_lasting (l : Layout) : ((asTail l).all rowLasting) = true := by cases l <;> decide +kernel

theorem all_filter {α : Type} {p q : α → Bool} {xs : List α} (h : xs.all p = true) : ∀ x ∈ xs.filter q, p x = true :=
  fun x hx => List.all_eq_true.1 h x (List.mem_filter.1 hx).1

theorem nodup_filter_map {α β : Type} {p : α → Bool} {g : α → β} {xs : List α} (h : (xs.map g).Nodup) : ((xs.filter p).map g).Nodup :=
  List.Sublist.nodup (List.Sublist.map _ List.filter_sublist) h

/-- What the derives add: implementations for the crate's own types, by name. -/
theorem one_of_ownF {ix : Index} {κ : Type} {c : CTy} {g : Sem} {ds es : List ImplDef} {names : List String}
    {key : ImplDef → κ} {k' : κ} {own' : String → κ}
    (hd : (ds.map key).Nodup)
    (hinj : ∀ x y, own' x = own' y → x = y)
    (hn : names.Nodup) (he : (es.map key) = names.map own')
    (hout : ∀ d ∈ ds, ∀ x, key d ≠ own' x)
    (hk : ∀ d ∈ ds ++ es, ∀ f, applies ix g [] c d = some (some f) → key d = k') {fs : List Found}
    (h : filterMapM (applies ix g [] c) (ds ++ es) = some fs) : fs.length ≤ 1 := by
  refine filterMapM_le_one (key := key) (k := k') ?_ hk h
  rw [List.map_append, List.nodup_append]
  refine ⟨hd, ?_, ?_⟩
  · rw [he]
    exact (List.pairwise_map.2 (hn.imp fun hne e => hne (hinj _ _ e)))
  · intro a ha b hb e
    subst e
    rw [he] at hb
    obtain ⟨d, hd', rfl⟩ := List.mem_map.1 ha
    obtain ⟨x, -, hx⟩ := List.mem_map.1 hb
    exact hout d hd' x hx.symm

theorem own_headsF {t : List String} (ht : t ∈ genTraits) : (k.ds.flatMap (implsFor t)).map (fun d =>
    headOf (namesF k f) d.module d.self) = ((adders t k.ds).map fun d => generatedName d.2 d.1.name).map fun x => some ["", x] := by
  have key : ∀ ds : List (ClientStruct × Layout), (∀ d ∈ ds, d ∈ k.ds) →
      (ds.flatMap (implsFor t)).map (fun d => headOf (namesF k f) d.module d.self) =
        ((adders t ds).map fun d => generatedName d.2 d.1.name).map fun x => some ["", x] := by
    intro ds
    induction ds with
    | nil => intro _; rfl
    | cons d ds ih =>
      intro h
      rw [List.flatMap_cons, List.map_append, ih fun e he => h e (List.mem_cons_of_mem _ he)]
      have e1 : (implsFor t d).map (fun i => headOf (namesF k f) i.module i.self) =
          ((implsFor t d).map (fun i => (i.module, i.params, i.self))).map fun i => headOf (namesF k f) i.1 i.2.2 := by
        rw [List.map_map]; rfl
      rw [e1, implsFor_gen ht d]
      unfold adders
      rw [List.filter_cons]
      by_cases hc : t = ["Zeroable"] ∨ t = ["Pod"] ∨ t = [mod d.2, stdTrait d.2]
      · rw [if_pos hc, if_pos (by simpa using hc)]
        simp only [List.map_cons, List.map_nil, List.cons_append, List.nil_append]
        congr 1
        exact resolve_declaredF (gen_declared (h d List.mem_cons_self))
      · rw [if_neg hc, if_neg (by simpa using hc)]
        rfl
  exact key k.ds fun d h => h

theorem cands_allF (n : Nat) {t : List String} (ht : t ∈ coreTraits) (c : CTy) :
    (KF k f tg env (n + 1)).candidates t [] c = filterMapM (applies (kxf k f) (KF k f tg env n) [] c)
      ((jx.impls t).filter (keep f) ++ (k.ds.flatMap (implsFor t) ++
        k.gs.flatMap fun c => if f.std = false ∧ t = ["glsl", "GlslStruct"] then [] else glslFor t c)) := by
  have e : (KF k f tg env (n + 1)).candidates t [] c = filterMapM (applies (kxf k f) (KF k f tg env n) [] c) ((kxf k f).impls t) :=
    candidates_next _ _ _ _ _ _
  have e' : (kxf k f).impls t = (indexWith f).impls t ++ (k.ds.flatMap (implsFor t) ++
      k.gs.flatMap fun c => if f.std = false ∧ t = ["glsl", "GlslStruct"] then [] else glslFor t c) := by
    unfold kxf
    dsimp only
  rw [e, e', impls_filter ht]

theorem no_glslFor {t : List String} (h : NotGlsl t) : (k.gs.flatMap fun c =>
    if f.std = false ∧ t = ["glsl", "GlslStruct"] then [] else glslFor t c) = [] := by
  refine flatMap_nils _ _ fun c => ?_
  rw [if_neg fun e => h.2 e.2]
  unfold glslFor
  rw [if_neg h.1, if_neg h.2]
  rfl

theorem gen_oneF (hk : k.Ok) {t : List String} (ht : t ∈ genTraits) {ds : List ImplDef} (hds : jx.impls t = ds)
    (hfull : ds.all rowLasting = true) (hnd : (ds.map fun d => headOf theNames d.module d.self).Nodup)
    (hv : (ds.all fun d => notVar d.params d.self && d.traitArgs.isEmpty) = true)
    (hout : (ds.all fun d => outer (headOf theNames d.module d.self)) = true) (n : Nat) {c : CTy} {fs : List Found}
    (h : (KF k f tg env n).candidates t [] c = some fs) : fs.length ≤ 1 := by
  cases n with
  | zero => cases h
  | succ n =>
    have hng : NotGlsl t := notGlsl_closed ((by decide : ∀ t ∈ genTraits, t ∈ closedTraits) t ht)
    rw [cands_allF n ((by decide : ∀ t ∈ genTraits, t ∈ coreTraits) t ht), no_glslFor hng, List.append_nil, hds] at h
    have up : ∀ d ∈ ds.filter (keep f), headOf (namesF k f) d.module d.self = headOf theNames d.module d.self := by
      intro d hd
      obtain ⟨h1, h2, h3⟩ := rowLasting_iff (all_filter hfull d hd)
      exact head_upF h1 h2 h3
    refine one_of_ownF (key := fun d => headOf (namesF k f) d.module d.self) (k' := headC c) (own' := fun x => some ["", x])
      ?_ some_own (adders_nodup hk t) (own_headsF ht) (fun d hd x e => ?_) (fun d hd f hf => ?_) h
    · rw [List.map_congr_left up]
      exact nodup_filter_map hnd
    · simp only [up d hd] at e
      have := all_filter hout d hd
      rw [e] at this
      cases this
    · obtain ⟨a, ha⟩ := applies_match hf
      refine head_of_match' ?_ ha
      rcases List.mem_append.1 hd with hd | hd
      · have := all_filter hv d hd
        rw [Bool.and_eq_true] at this
        exact this.1
      · exact own_plain ht hd

theorem glsl_oneF (hk : k.Ok) (n : Nat) {c : CTy}
    {fs : List Found} (h : (KF k f tg env n).candidates ["glsl", "Glsl"] [] c = some fs) : fs.length ≤ 1 := by
  cases n with
  | zero => cases h
  | succ n =>
    rw [cands_allF n (by decide)] at h
    have hno : k.ds.flatMap (implsFor ["glsl", "Glsl"]) = [] := by
      refine flatMap_nils _ _ fun d => ?_
      obtain ⟨c, l⟩ := d
      cases l <;> rfl
    have hgs : (k.gs.flatMap fun c => if f.std = false ∧ ["glsl", "Glsl"] = ["glsl", "GlslStruct"] then [] else glslFor ["glsl", "Glsl"] c) =
        k.gs.flatMap (glslFor ["glsl", "Glsl"]) := by
      refine flatMap_same fun c _ => ?_
      rw [if_neg]
      simp
    rw [hno, List.nil_append, hgs, show jx.impls ["glsl", "Glsl"] = glslDefs from rfl] at h
    have up : ∀ d ∈ glslDefs.filter (keep f), keyOf (namesF k f) d.module d.self = keyOf theNames d.module d.self := by
      intro d hd
      obtain ⟨h1, h2, h3⟩ := rowLasting_iff (all_filter glsl_lasting d hd)
      exact key_upF h1 h2 h3
    have hown : (k.gs.flatMap (glslFor ["glsl", "Glsl"])).map (fun d => keyOf (namesF k f) d.module d.self) =
        (k.gs.map fun c => c.name).map fun x => (some ["", x], []) := by
      have key : ∀ gs : List ClientStruct, (∀ c ∈ gs, c ∈ k.cs) →
          (gs.flatMap (glslFor ["glsl", "Glsl"])).map (fun d => keyOf (namesF k f) d.module d.self) =
            (gs.map fun c => c.name).map fun x => (some ["", x], []) := by
        intro gs
        induction gs with
        | nil => intro _; rfl
        | cons c gs ih =>
          intro h
          rw [List.flatMap_cons, List.map_append, ih fun e he => h e (List.mem_cons_of_mem _ he)]
          have e1 : keyOf (namesF k f) "" (ty c.name) = (some ["", c.name], []) := by
            have := resolve_declaredF (k := k) (f := f) (src_mem (h c List.mem_cons_self))
            simp only [keyOf, ty, this, List.map_nil]
          exact congrArg (· :: _) e1
      exact key k.gs k.glslKnown
    refine one_of_ownF (key := fun d => keyOf (namesF k f) d.module d.self) (k' := keyC c) (own' := fun x => (some ["", x], []))
      ?_ some_key (names_gs_nodup hk) hown (fun d hd x e => ?_) (fun d hd f hf => ?_) h
    · rw [List.map_congr_left up]
      exact nodup_filter_map glsl_distinct
    · simp only [up d hd] at e
      have := all_filter glsl_outer d hd
      rw [e] at this
      cases this
    · obtain ⟨a, ha⟩ := applies_match hf
      have hp : d.params = [] := by
        rcases List.mem_append.1 hd with hd | hd
        · have := all_filter glsl_closed d hd
          rw [Bool.and_eq_true] at this
          exact List.isEmpty_iff.1 this.1
        · obtain ⟨e, -, hd⟩ := List.mem_flatMap.1 hd
          exact (glslFor_self hd).2.1
      rw [hp] at ha
      exact key_of_match ha

/-- A type with an implementation of `StdN` has one of these paths. -/
theorem std_headF {l : Layout} {n : Nat} {c : CTy} {z : Found} {fs : List Found}
    (h : (KF k f tg env n).candidates [mod l, stdTrait l] [] c = some (z :: fs)) :
    headC c ∈ ((stdDefs l).map fun e => headOf theNames e.module e.self) ∨
      ∃ d ∈ k.ds, headC c = some ["", generatedName d.2 d.1.name] := by
  cases n with
  | zero => cases h
  | succ n =>
    have hg : [mod l, stdTrait l] ∈ genTraits := by cases l <;> decide
    have hng : NotGlsl [mod l, stdTrait l] := notGlsl_closed (by cases l <;> decide)
    rw [cands_allF n (by cases l <;> decide), no_glslFor hng, List.append_nil,
      show jx.impls [mod l, stdTrait l] = stdDefs l from by cases l <;> rfl] at h
    obtain ⟨d, hd, z, hz⟩ := filterMapM_cons_inv h
    obtain ⟨a, ha⟩ := applies_match hz
    rcases List.mem_append.1 hd with hd | hd
    · left
      have hv := all_filter (std_notVar l) d hd
      rw [Bool.and_eq_true] at hv
      obtain ⟨h1, h2, h3⟩ := rowLasting_iff (all_filter (std_lasting l) d hd)
      refine List.mem_map.2 ⟨d, (List.mem_filter.1 hd).1, ?_⟩
      rw [← head_upF (k := k) (f := f) h1 h2 h3]
      exact head_of_match' hv.1 ha
    · right
      have h1 := head_of_match' (own_plain hg hd) ha
      obtain ⟨e, he, hd⟩ := List.mem_flatMap.1 hd
      refine ⟨e, he, ?_⟩
      have h : (d.module, d.params, d.self) ∈ (implsFor [mod l, stdTrait l] e).map fun i => (i.module, i.params, i.self) :=
        List.mem_map.2 ⟨d, hd, rfl⟩
      rw [implsFor_gen hg] at h
      split at h
      · rw [List.mem_singleton] at h
        injection h with h2 h
        injection h with h3 h4
        change headOf (namesF k f) _ _ = _ at h1
        rw [h2, h4] at h1
        rw [← h1]
        exact resolve_declaredF (gen_declared he)
      · cases h

theorem bounds_stdF {l : Layout} {n : Nat} {c : CTy} {z : Found}
    (h : applies (kxf k f) (KF k f tg env n) [] c (blanketDef l) = some (some z)) :
    ∃ m g gs, (KF k f tg env m).candidates [mod l, stdTrait l] [] c = some (g :: gs) := by
  cases n with
  | zero => cases l <;> cases c <;> cases h
  | succ n =>
    have hi : (KF k f tg env (n + 1)).implements [mod l, stdTrait l] c = some true := by
      have e : applies (kxf k f) (KF k f tg env (n + 1)) [] c (blanketDef l) =
          (boundsHold (kxf k f) (KF k f tg env (n + 1)) ⟨mod l, [("Self", c), ("T", c)], assocTypes (blanketDef l).items, (blanketDef l).bounds⟩
            [(ty "T", []), (ty "T", [ty (stdTrait l)])]).map fun ok => if ok then some ⟨⟨mod l, [("Self", c), ("T", c)],
              assocTypes (blanketDef l).items, (blanketDef l).bounds⟩, (blanketDef l).items⟩ else none := by
        cases l <;> cases c <;> rfl
      rw [e] at h
      have hn : (KF k f tg env (n + 1)).norm ⟨mod l, [("Self", c), ("T", c)], assocTypes (blanketDef l).items, (blanketDef l).bounds⟩
          (ty "T") = some c := by cases l <;> rfl
      simp only [boundsHold, allM, hn, Option.bind_some, if_true,
        show resolveName (kxf k f).names (mod l) [stdTrait l] = _ from stdViaF k f l] at h
      cases hb : (KF k f tg env (n + 1)).implements [mod l, stdTrait l] c with
      | none => rw [hb] at h; cases h
      | some b =>
        rw [hb] at h
        cases b with
        | true => rfl
        | false => cases h
    have hi' : implementsRule (kxf k f) (clientOutside tg env) (KF k f tg env n) [mod l, stdTrait l] c = some true := hi
    unfold implementsRule at hi'
    cases hc : (KF k f tg env n).candidates [mod l, stdTrait l] [] c with
    | none => rw [hc] at hi'; cases hi'
    | some fs =>
      rw [hc] at hi'
      cases fs with
      | nil => cases hi'
      | cons g gs => exact ⟨n, g, gs, hc⟩

theorem tail_hitF {l : Layout} {n : Nat} {c : CTy} {d : ImplDef}
    (hd : d ∈ (asTail l).filter (keep f) ++ (k.ds.filter fun d => d.2 = l).map asDef) {z : Found}
    (h : applies (kxf k f) (KF k f tg env n) [] c d = some (some z)) :
    headOf (namesF k f) d.module d.self = headC c ∧ asKey (namesF k f) d = asKeyC c := by
  obtain ⟨a, ha⟩ := applies_match h
  rcases List.mem_append.1 hd with hd | hd
  · have hs := all_filter (tail_shape l) d hd
    rw [Bool.and_eq_true] at hs
    obtain ⟨f1, f2, f3⟩ := rowLasting_iff (all_filter (tail_lasting l) d hd)
    have h1 : headOf (namesF k f) d.module d.self = headC c := head_of_match' hs.1 ha
    refine ⟨h1, ?_⟩
    have h2 := head_upF (k := k) (f := f) f1 f2 f3
    unfold asKey asKeyC
    cases hp : d.params.isEmpty with
    | true =>
      have h3 := hs.2
      rw [hp, if_pos rfl, bne_iff_ne, ← h2, h1] at h3
      rw [if_pos rfl, if_neg h3]
      rw [List.isEmpty_iff.1 hp] at ha
      exact key_of_match ha
    | false =>
      have h3 := hs.2
      rw [hp, if_neg (by decide), beq_iff_eq, ← h2, h1] at h3
      rw [if_neg (by decide), if_pos h3, h1]
  · obtain ⟨e, he, rfl⟩ := List.mem_map.1 hd
    have h1 : headOf (namesF k f) (asDef e).module (asDef e).self = headC c := head_of_match ha
    refine ⟨h1, ?_⟩
    unfold asKey asKeyC
    rw [if_pos (show (asDef e).params.isEmpty = true from rfl), if_neg]
    · exact key_of_match ha
    · rw [← h1]
      have : headOf (namesF k f) (asDef e).module (asDef e).self = some ["", e.1.name] :=
        resolve_declaredF (src_mem (k.known e (List.mem_filter.1 he).1))
      rw [this]
      intro e
      injection e with e
      injection e with e
      exact absurd e (by decide)

theorem keep_blanket (f : Features) (l : Layout) : keep f (blanketDef l) = true := by
  obtain ⟨a, b, c, d⟩ := f
  cases a <;> cases b <;> cases c <;> cases d <;> cases l <;> decide +kernel

theorem as_oneF (hk : k.Ok) (l : Layout) (n : Nat) {c : CTy} {fs : List Found}
    (h : (KF k f tg env n).candidates [mod l, asTrait l] [] c = some fs) : fs.length ≤ 1 := by
  cases n with
  | zero => cases h
  | succ n =>
    have hng : NotGlsl [mod l, asTrait l] := ⟨by cases l <;> decide, by cases l <;> decide⟩
    rw [cands_allF n (by cases l <;> decide), no_glslFor hng, List.append_nil,
      show jx.impls [mod l, asTrait l] = asDefs l from by cases l <;> rfl, asDefs_cons, own_as_eq,
      List.filter_cons, if_pos (keep_blanket f l), List.cons_append] at h
    have up : ∀ d ∈ (asTail l).filter (keep f), asKey (namesF k f) d = asKey theNames d ∧
        headOf (namesF k f) d.module d.self = headOf theNames d.module d.self := by
      intro d hd
      obtain ⟨h1, h2, h3⟩ := rowLasting_iff (all_filter (tail_lasting l) d hd)
      refine ⟨?_, head_upF h1 h2 h3⟩
      unfold asKey
      rw [key_upF h1 h2 h3, head_upF h1 h2 h3]
    have hout : ∀ d ∈ (asTail l).filter (keep f), outer (headOf (namesF k f) d.module d.self) = true := by
      intro d hd
      rw [(up d hd).2]
      exact all_filter (tail_outer l) d hd
    have asKey_head : ∀ d, (asKey (namesF k f) d).1 = headOf (namesF k f) d.module d.self := by
      intro d
      unfold asKey
      split
      · exact key_head _ _ _
      · rfl
    have rest : ∀ {gs}, filterMapM (applies (kxf k f) (KF k f tg env n) [] c)
        ((asTail l).filter (keep f) ++ (k.ds.filter fun d => d.2 = l).map asDef) = some gs → gs.length ≤ 1 := by
      intro gs hgs
      refine one_of_ownF (key := asKey (namesF k f)) (k' := asKeyC c) (own' := fun x => (some ["", x], []))
        ?_ some_key (as_names_nodup hk l) ?_ (fun d hd x e => ?_) (fun d hd f hf => (tail_hitF hd hf).2) hgs
      · rw [List.map_congr_left fun d hd => (up d hd).1]
        exact nodup_filter_map (tail_distinct l)
      · rw [List.map_map, List.map_map]
        refine List.map_congr_left fun d hd => ?_
        show keyOf (namesF k f) "" (ty d.1.name) = _
        have := resolve_declaredF (k := k) (f := f) (src_mem (k.known d (List.mem_filter.1 hd).1))
        simp only [keyOf, this, List.map_nil]
        rfl
      · have := hout d hd
        rw [← asKey_head, e] at this
        cases this
    simp only [filterMapM] at h
    cases hb : applies (kxf k f) (KF k f tg env n) [] c (blanketDef l) with
    | none => rw [hb] at h; cases h
    | some r =>
      rw [hb] at h
      simp only [Option.bind_some, Option.map_eq_some_iff] at h
      obtain ⟨gs, hgs, rfl⟩ := h
      cases r with
      | none => simpa using rest hgs
      | some y =>
        cases gs with
        | nil => simp
        | cons g gs =>
          exfalso
          obtain ⟨m, z, zs, hz⟩ := bounds_stdF hb
          obtain ⟨d, hd, w, hw⟩ := filterMapM_cons_inv hgs
          have h1 := (tail_hitF hd hw).1
          rcases List.mem_append.1 hd with hd | hd
          · have h2 := hout d hd
            have h3 := all_filter (tail_std l) d hd
            rcases std_headF hz with h4 | ⟨e, -, h4⟩
            · rw [← (up d hd).2, h1] at h3
              simp only [List.contains_eq_mem, Bool.not_eq_true', decide_eq_false_iff_not] at h3
              exact h3 h4
            · rw [h1, h4] at h2
              cases h2
          · obtain ⟨e, he, rfl⟩ := List.mem_map.1 hd
            have he := k.known e (List.mem_filter.1 he).1
            have h2 : headOf (namesF k f) (asDef e).module (asDef e).self = some ["", e.1.name] :=
              resolve_declaredF (src_mem he)
            rw [h2] at h1
            rcases std_headF hz with h4 | ⟨e', he', h4⟩
            · rw [← h1] at h4
              obtain ⟨x, hx, h5⟩ := List.mem_map.1 h4
              have h6 := List.all_eq_true.1 (std_outer l) x hx
              rw [h5] at h6
              cases h6
            · rw [← h1] at h4
              have h5 := some_own _ _ h4
              refine (List.nodup_append.1 (names_nodup hk)).2.2 _ (List.mem_map.2 ⟨e.1, he, rfl⟩) _
                (List.mem_flatMap.2 ⟨e', he', gen_mem e'⟩) h5

theorem client_oneF (hk : k.Ok) {t : List String}
    (ht : t ∈ [["std140", "AsStd140"], ["std430", "AsStd430"], ["std140", "Std140"], ["std430", "Std430"], ["Zeroable"], ["Pod"],
      ["glsl", "Glsl"]])
    (n : Nat) {c : CTy} {fs : List Found} (h : (KF k f tg env n).candidates t [] c = some fs) : fs.length ≤ 1 := by
  simp only [List.mem_cons, List.not_mem_nil, or_false] at ht
  rcases ht with rfl | rfl | rfl | rfl | rfl | rfl | rfl
  · exact as_oneF hk .std140 n h
  · exact as_oneF hk .std430 n h
  · exact gen_oneF (t := ["std140", "Std140"]) (ds := stdDefs .std140) hk (by decide) rfl (std_lasting .std140) (std_distinct .std140) (std_notVar .std140) (std_outer .std140) n h
  · exact gen_oneF (t := ["std430", "Std430"]) (ds := stdDefs .std430) hk (by decide) rfl (std_lasting .std430) (std_distinct .std430) (std_notVar .std430) (std_outer .std430) n h
  · exact gen_oneF (t := ["Zeroable"]) (ds := podDefs "Zeroable") hk (by decide) rfl (pod_lasting "Zeroable") (pod_distinct "Zeroable") (pod_notVar "Zeroable") (pod_outer "Zeroable") n h
  · exact gen_oneF (t := ["Pod"]) (ds := podDefs "Pod") hk (by decide) rfl (pod_lasting "Pod") (pod_distinct "Pod") (pod_notVar "Pod") (pod_outer "Pod") n h
  · exact glsl_oneF hk n h

end Crevice.ClientProof
