import Verif.Proof.Coherence
import Verif.Proof.ClientGlsl
/-
In a crate that uses crevice, two implementations of StdN, Glsl, GlslStruct, Zeroable or Pod never apply to the same type.
-/
namespace Crevice.ClientProof
open RustCode RustTypes TypeNames ClientText Tables

variable {k : Client} {tg : Target} {env : ForeignEnv}

theorem applies_match {ix : Index} {g : Sem} {c : CTy} {d : ImplDef} {f : Found}
    (h : applies ix g [] c d = some (some f)) : ∃ a, matchTy ix.names d.module d.params d.self c = some a := by
  unfold applies at h
  cases ha : matchTy ix.names d.module d.params d.self c with
  | none => rw [ha] at h; cases h
  | some a => exact ⟨a, rfl⟩

/-- Written outside of the crate with a path that is not empty. -/
def pathFull (t : RustCode.Ty) : Bool :=
  match t with
  | .path p args => full p && args.all fun a => match a with | .path q _ => full q | _ => true
  | _ => true

theorem head_up {m : String} (hm : m ≠ "") {t : RustCode.Ty} (h : pathFull t = true) :
    headOf (allNames k) m t = headOf theNames m t := by
  cases t <;> try rfl
  simp only [pathFull, Bool.and_eq_true] at h
  exact (resolve_path (path_up hm h.1)).symm

theorem key_up {m : String} (hm : m ≠ "") {t : RustCode.Ty} (h : pathFull t = true) :
    keyOf (allNames k) m t = keyOf theNames m t := by
  cases t <;> try rfl
  simp only [pathFull, Bool.and_eq_true, List.all_eq_true] at h
  simp only [keyOf, (resolve_path (k := k) (path_up hm h.1)).symm]
  congr 1
  refine List.map_congr_left fun a ha => ?_
  have := h.2 a ha
  cases a <;> try rfl
  exact (resolve_path (path_up hm this)).symm

/-- The rows of the crate are written in its modules. -/
def rowFull (d : ImplDef) : Bool := d.module != "" && pathFull d.self

theorem std_full (l : Layout) : ((stdDefs l).all rowFull) = true := by cases l <;> decide +kernel

theorem pod_full (t : String) : ((podDefs t).all rowFull) = true := by
  have : (podDefs t).all rowFull = (podDefs "Pod").all rowFull := rfl
  rw [this]
  decide +kernel

theorem glsl_full : (glslDefs.all rowFull) = true := by decide +kernel

/-- Not the path of an item of the crate that uses crevice. -/
def outer (p : Option (List String)) : Bool :=
  match p with
  | some ("" :: _) => false
  | _ => true

theorem std_outer (l : Layout) : ((stdDefs l).all fun d => outer (headOf theNames d.module d.self)) = true := by
  cases l <;> decide +kernel

theorem pod_outer (t : String) : ((podDefs t).all fun d => outer (headOf theNames d.module d.self)) = true := by
  have : ((podDefs t).all fun d => outer (headOf theNames d.module d.self)) =
      ((podDefs "Pod").all fun d => outer (headOf theNames d.module d.self)) := rfl
  rw [this]
  decide +kernel

theorem glsl_outer : (glslDefs.all fun d => outer (keyOf theNames d.module d.self).1) = true := by decide +kernel

/-- What the derives add: implementations for the crate's own types, by name. -/
theorem one_of_own {κ : Type} {c : CTy} {g : Sem} {ds es : List ImplDef} {names : List String}
    {key : ImplDef → κ} {k' : κ} {own' : String → κ}
    (hd : (ds.map key).Nodup)
    (hinj : ∀ x y, own' x = own' y → x = y)
    (hn : names.Nodup) (he : (es.map key) = names.map own')
    (hout : ∀ d ∈ ds, ∀ x, key d ≠ own' x)
    (hk : ∀ d ∈ ds ++ es, ∀ f, applies (kx k) g [] c d = some (some f) → key d = k') {fs : List Found}
    (h : filterMapM (applies (kx k) g [] c) (ds ++ es) = some fs) : fs.length ≤ 1 := by
  refine filterMapM_le_one (key := key) (k := k') ?_ hk h
  rw [List.map_append, List.nodup_append]
  refine ⟨hd, ?_, ?_⟩
  · rw [he]
    exact (List.pairwise_map.2 (hn.imp fun hne e => hne (hinj _ _ e)))
  · intro a ha b hb e
    subst e
    rw [he] at hb
    obtain ⟨d, hd', rfl⟩ := List.mem_map.1 ha
    obtain ⟨x, -, hx⟩ := List.mem_map.1 hb
    exact hout d hd' x hx.symm

/-- The derives that add an implementation of a trait for the generated type. -/
def adders (t : List String) (ds : List (ClientStruct × Layout)) : List (ClientStruct × Layout) :=
  ds.filter fun d => decide (t = ["Zeroable"] ∨ t = ["Pod"] ∨ t = [mod d.2, stdTrait d.2])

theorem gens_nodup (hk : k.Ok) : (k.ds.map fun d => generatedName d.2 d.1.name).Nodup := by
  have h := (List.nodup_append.1 (names_nodup hk)).2.1
  refine List.Sublist.nodup ?_ h
  generalize k.ds = ds
  induction ds with
  | nil => exact List.Sublist.slnil
  | cons d ds ih =>
    rw [List.map_cons, List.flatMap_cons, ← List.singleton_append]
    exact List.Sublist.append (List.singleton_sublist.2 (gen_mem d)) ih

theorem adders_nodup (hk : k.Ok) (t : List String) : ((adders t k.ds).map fun d => generatedName d.2 d.1.name).Nodup :=
  List.Sublist.nodup (List.Sublist.map _ List.filter_sublist) (gens_nodup hk)

theorem gen_declared {d : ClientStruct × Layout} (hd : d ∈ k.ds) : generatedName d.2 d.1.name ∈ k.names := by
  rw [names_eq]
  exact List.mem_append_right _ (List.mem_flatMap.2 ⟨d, hd, gen_mem d⟩)

/-- Traits of the generated types. -/
def genTraits : List (List String) := [["std140", "Std140"], ["std430", "Std430"], ["Zeroable"], ["Pod"]]

theorem implsFor_gen {t : List String} (ht : t ∈ genTraits) (d : ClientStruct × Layout) :
    (implsFor t d).map (fun i => (i.module, i.params, i.self)) =
      if t = ["Zeroable"] ∨ t = ["Pod"] ∨ t = [mod d.2, stdTrait d.2] then [("", [], ty (generatedName d.2 d.1.name))] else [] := by
  simp only [genTraits, List.mem_cons, List.not_mem_nil, or_false] at ht
  obtain ⟨c, l⟩ := d
  rcases ht with rfl | rfl | rfl | rfl <;> cases l <;> rfl

theorem own_heads (hk : k.Ok) {t : List String} (ht : t ∈ genTraits) : (k.ds.flatMap (implsFor t)).map (fun d =>
    headOf (allNames k) d.module d.self) = ((adders t k.ds).map fun d => generatedName d.2 d.1.name).map fun x => some ["", x] := by
  have key : ∀ ds : List (ClientStruct × Layout), (∀ d ∈ ds, d ∈ k.ds) →
      (ds.flatMap (implsFor t)).map (fun d => headOf (allNames k) d.module d.self) =
        ((adders t ds).map fun d => generatedName d.2 d.1.name).map fun x => some ["", x] := by
    intro ds
    induction ds with
    | nil => intro _; rfl
    | cons d ds ih =>
      intro h
      rw [List.flatMap_cons, List.map_append, ih fun e he => h e (List.mem_cons_of_mem _ he)]
      have e1 : (implsFor t d).map (fun i => headOf (allNames k) i.module i.self) =
          ((implsFor t d).map (fun i => (i.module, i.params, i.self))).map fun i => headOf (allNames k) i.1 i.2.2 := by
        rw [List.map_map]; rfl
      rw [e1, implsFor_gen ht d]
      unfold adders
      rw [List.filter_cons]
      by_cases hc : t = ["Zeroable"] ∨ t = ["Pod"] ∨ t = [mod d.2, stdTrait d.2]
      · rw [if_pos hc, if_pos (by simpa using hc)]
        simp only [List.map_cons, List.map_nil, List.cons_append, List.nil_append]
        congr 1
        exact resolve_declared (gen_declared (h d List.mem_cons_self))
      · rw [if_neg hc, if_neg (by simpa using hc)]
        rfl
  exact key k.ds fun d h => h

theorem own_plain {t : List String} (ht : t ∈ genTraits) {d : ImplDef} (hd : d ∈ k.ds.flatMap (implsFor t)) :
    notVar d.params d.self = true := by
  obtain ⟨e, -, hd⟩ := List.mem_flatMap.1 hd
  have h : (d.module, d.params, d.self) ∈ (implsFor t e).map fun i => (i.module, i.params, i.self) :=
    List.mem_map.2 ⟨d, hd, rfl⟩
  rw [implsFor_gen ht] at h
  split at h
  · rw [List.mem_singleton] at h
    injection h with _ h
    injection h with h1 h2
    rw [h1, h2]
    rfl
  · cases h

theorem some_own : ∀ x y : String, (some ["", x] : Option (List String)) = some ["", y] → x = y := by
  intro x y h
  injection h with h
  injection h with _ h
  injection h

theorem gen_one (hk : k.Ok) {t : List String} (ht : t ∈ genTraits) {ds : List ImplDef} (hds : jx.impls t = ds)
    (hfull : ds.all rowFull = true) (hnd : (ds.map fun d => headOf theNames d.module d.self).Nodup)
    (hv : (ds.all fun d => notVar d.params d.self && d.traitArgs.isEmpty) = true)
    (hout : (ds.all fun d => outer (headOf theNames d.module d.self)) = true) (n : Nat) {c : CTy} {fs : List Found}
    (h : (K k tg env n).candidates t [] c = some fs) : fs.length ≤ 1 := by
  cases n with
  | zero => cases h
  | succ n =>
    have hng : NotGlsl t := notGlsl_closed ((by decide : ∀ t ∈ genTraits, t ∈ closedTraits) t ht)
    rw [cands_next k tg env n hng, hds] at h
    have up : ∀ d ∈ ds, headOf (allNames k) d.module d.self = headOf theNames d.module d.self := by
      intro d hd
      have := List.all_eq_true.1 hfull d hd
      simp only [rowFull, Bool.and_eq_true, bne_iff_ne, ne_eq] at this
      exact head_up this.1 this.2
    refine one_of_own (key := fun d => headOf (allNames k) d.module d.self) (k' := headC c) (own' := fun x => some ["", x])
      ?_ some_own (adders_nodup hk t) (own_heads hk ht) (fun d hd x e => ?_) (fun d hd f hf => ?_) h
    · rw [List.map_congr_left up]
      exact hnd
    · simp only [up d hd] at e
      have := List.all_eq_true.1 hout d hd
      rw [e] at this
      cases this
    · obtain ⟨a, ha⟩ := applies_match hf
      refine head_of_match' ?_ ha
      rcases List.mem_append.1 hd with hd | hd
      · have := List.all_eq_true.1 hv d hd
        rw [Bool.and_eq_true] at this
        exact this.1
      · exact own_plain ht hd

theorem names_gs_nodup (hk : k.Ok) : (k.gs.map fun c => c.name).Nodup := by
  refine List.pairwise_map.2 ?_
  refine List.Pairwise.imp_of_mem ?_ hk.glslOnce
  intro a b ha hb hne e
  exact hne (name_inj hk (k.glslKnown b hb) (k.glslKnown a ha) e)

theorem some_key : ∀ x y : String, ((some ["", x], []) : Option (List String) × List (Option (List String))) = (some ["", y], []) →
    x = y := by
  intro x y h
  injection h with h
  exact some_own x y h

theorem glsl_one (hk : k.Ok) {t : List String} (ht : t = ["glsl", "Glsl"] ∨ t = ["glsl", "GlslStruct"]) (n : Nat) {c : CTy}
    {fs : List Found} (h : (K k tg env n).candidates t [] c = some fs) : fs.length ≤ 1 := by
  cases n with
  | zero => cases h
  | succ n =>
    rw [cands_all] at h
    have hno : k.ds.flatMap (implsFor t) = [] := by
      refine flatMap_nils _ _ fun d => ?_
      obtain ⟨c, l⟩ := d
      rcases ht with rfl | rfl <;> cases l <;> rfl
    rw [hno, List.nil_append] at h
    obtain ⟨ds, hds, hfull, hnd, hv, hout⟩ : ∃ ds, jx.impls t = ds ∧ ds.all rowFull = true ∧
        (ds.map fun d => keyOf theNames d.module d.self).Nodup ∧
        (ds.all fun d => d.params.isEmpty && d.traitArgs.isEmpty) = true ∧
        (ds.all fun d => outer (keyOf theNames d.module d.self).1) = true := by
      rcases ht with rfl | rfl
      · exact ⟨glslDefs, rfl, glsl_full, glsl_distinct, glsl_closed, glsl_outer⟩
      · exact ⟨[], glslStruct_none, rfl, List.nodup_nil, rfl, rfl⟩
    rw [hds] at h
    have up : ∀ d ∈ ds, keyOf (allNames k) d.module d.self = keyOf theNames d.module d.self := by
      intro d hd
      have := List.all_eq_true.1 hfull d hd
      simp only [rowFull, Bool.and_eq_true, bne_iff_ne, ne_eq] at this
      exact key_up this.1 this.2
    have hown : (k.gs.flatMap (glslFor t)).map (fun d => keyOf (allNames k) d.module d.self) =
        (k.gs.map fun c => c.name).map fun x => (some ["", x], []) := by
      have key : ∀ gs : List ClientStruct, (∀ c ∈ gs, c ∈ k.cs) →
          (gs.flatMap (glslFor t)).map (fun d => keyOf (allNames k) d.module d.self) =
            (gs.map fun c => c.name).map fun x => (some ["", x], []) := by
        intro gs
        induction gs with
        | nil => intro _; rfl
        | cons c gs ih =>
          intro h
          rw [List.flatMap_cons, List.map_append, ih fun e he => h e (List.mem_cons_of_mem _ he)]
          have e1 : keyOf (allNames k) "" (ty c.name) = (some ["", c.name], []) := by
            have := resolve_declared (k := k) (src_mem (h c List.mem_cons_self))
            simp only [keyOf, ty, this, List.map_nil]
          rcases ht with rfl | rfl
          · exact congrArg (· :: _) e1
          · exact congrArg (· :: _) e1
      exact key k.gs k.glslKnown
    refine one_of_own (key := fun d => keyOf (allNames k) d.module d.self) (k' := keyC c) (own' := fun x => (some ["", x], []))
      ?_ some_key (names_gs_nodup hk) hown (fun d hd x e => ?_) (fun d hd f hf => ?_) h
    · rw [List.map_congr_left up]
      exact hnd
    · simp only [up d hd] at e
      have := List.all_eq_true.1 hout d hd
      rw [e] at this
      cases this
    · obtain ⟨a, ha⟩ := applies_match hf
      have hp : d.params = [] := by
        rcases List.mem_append.1 hd with hd | hd
        · have := List.all_eq_true.1 hv d hd
          rw [Bool.and_eq_true] at this
          exact List.isEmpty_iff.1 this.1
        · obtain ⟨e, -, hd⟩ := List.mem_flatMap.1 hd
          exact (glslFor_self hd).2.1
      rw [hp] at ha
      exact key_of_match ha

theorem client_one (hk : k.Ok) {t : List String}
    (ht : t ∈ [["std140", "Std140"], ["std430", "Std430"], ["Zeroable"], ["Pod"], ["glsl", "Glsl"], ["glsl", "GlslStruct"]])
    (n : Nat) {c : CTy} {fs : List Found} (h : (K k tg env n).candidates t [] c = some fs) : fs.length ≤ 1 := by
  simp only [List.mem_cons, List.not_mem_nil, or_false] at ht
  rcases ht with rfl | rfl | rfl | rfl | rfl | rfl
  · exact gen_one (t := ["std140", "Std140"]) (ds := stdDefs .std140) hk (by decide) rfl (std_full .std140) (std_distinct .std140) (std_notVar .std140) (std_outer .std140) n h
  · exact gen_one (t := ["std430", "Std430"]) (ds := stdDefs .std430) hk (by decide) rfl (std_full .std430) (std_distinct .std430) (std_notVar .std430) (std_outer .std430) n h
  · exact gen_one (t := ["Zeroable"]) (ds := podDefs "Zeroable") hk (by decide) rfl (pod_full "Zeroable") (pod_distinct "Zeroable") (pod_notVar "Zeroable") (pod_outer "Zeroable") n h
  · exact gen_one (t := ["Pod"]) (ds := podDefs "Pod") hk (by decide) rfl (pod_full "Pod") (pod_distinct "Pod") (pod_notVar "Pod") (pod_outer "Pod") n h
  · exact glsl_one hk (.inl rfl) n h
  · exact glsl_one hk (.inr rfl) n h

/-! ### `AsStdN` -/

/-- Without the implementation for all `T: StdN`. -/
def asTail (l : Layout) : List ImplDef := (asDefs l).drop 1

theorem asDefs_cons (l : Layout) : asDefs l = blanketDef l :: asTail l := rfl

/-- The path of `DynamicUniform`. -/
def dynHead : List String := ["std140", "DynamicUniform"]

/-- What tells implementations apart. -/
def asKey (names : List (String × List String)) (d : ImplDef) : Option (List String) × List (Option (List String)) :=
  if d.params.isEmpty then keyOf names d.module d.self else (headOf names d.module d.self, [])

/-- And types. -/
def asKeyC (c : CTy) : Option (List String) × List (Option (List String)) :=
  if headC c = some dynHead then (headC c, []) else keyC c

theorem key_head (names : List (String × List String)) (m : String) (t : RustCode.Ty) : (keyOf names m t).1 = headOf names m t := by
  cases t <;> rfl

/-- The rows of the tables. -/
def rowSelfs : List (String × RustCode.Ty) :=
  easyRows.map (fun r => ("imp", mathRustTy r.ty)) ++ mintyRows.map fun r => ("imp", foreignRustTy r.foreign)

theorem rows_distinct : (rowSelfs.map fun r => keyOf theNames r.1 r.2).Nodup := by
  refine List.Sublist.nodup ?_ glsl_distinct
  unfold glslDefs rowSelfs
  rw [List.append_assoc, List.map_append, List.map_append, List.map_append]
  refine List.Sublist.trans ?_ (List.sublist_append_right _ _)
  simp only [List.map_map]
  exact List.Sublist.refl _

theorem tail_rows (l : Layout) : (asTail l).map (asKey theNames) =
    (match l with | .std140 => [(some dynHead, [])] | .std430 => []) ++ ((some ["bool"], []) ::
      rowSelfs.map fun r => keyOf theNames r.1 r.2) := by
  unfold rowSelfs
  rw [List.map_append, List.map_map, List.map_map]
  cases l
  · show (dynamicDef :: boolDef .std140 :: (easyRows.map (easyDef .std140) ++ mintyRows.map (mintyDef .std140))).map _ = _
    rw [List.map_cons, List.map_cons, List.map_append, List.map_map, List.map_map]
    congr 1
  · show (boolDef .std430 :: (easyRows.map (easyDef .std430) ++ mintyRows.map (mintyDef .std430))).map _ = _
    rw [List.map_cons, List.map_append, List.map_map, List.map_map]
    congr 1

theorem rows_heads : (rowSelfs.all fun r => headOf theNames r.1 r.2 != some dynHead && headOf theNames r.1 r.2 != some ["bool"]) = true := by
  decide +kernel

theorem tail_distinct (l : Layout) : ((asTail l).map (asKey theNames)).Nodup := by
  rw [tail_rows]
  have hb : ∀ q : List String, (q = dynHead ∨ q = ["bool"]) → (some q, []) ∉ rowSelfs.map fun r => keyOf theNames r.1 r.2 := by
    intro q hq h
    obtain ⟨r, hr, e⟩ := List.mem_map.1 h
    have := List.all_eq_true.1 rows_heads r hr
    simp only [Bool.and_eq_true, bne_iff_ne, ne_eq] at this
    have e1 : headOf theNames r.1 r.2 = some q := by
      rw [← key_head, e]
    rcases hq with rfl | rfl
    · exact this.1 e1
    · exact this.2 e1
  have h1 := List.nodup_cons.2 ⟨hb ["bool"] (.inr rfl), rows_distinct⟩
  cases l
  · refine List.nodup_cons.2 ⟨fun h => ?_, h1⟩
    rcases List.mem_cons.1 h with h | h
    · exact absurd h (by decide)
    · exact hb dynHead (.inl rfl) h
  · exact h1

theorem tail_full (l : Layout) : ((asTail l).all rowFull) = true := by cases l <;> decide +kernel

theorem tail_outer (l : Layout) : ((asTail l).all fun d => outer (headOf theNames d.module d.self)) = true := by
  cases l <;> decide +kernel

theorem tail_shape (l : Layout) : ((asTail l).all fun d => notVar d.params d.self &&
    (if d.params.isEmpty then headOf theNames d.module d.self != some dynHead
      else headOf theNames d.module d.self == some dynHead)) = true := by
  cases l <;> decide +kernel

theorem tail_std (l : Layout) : ((asTail l).all fun d => !((stdDefs l).map fun e => headOf theNames e.module e.self).contains
    (headOf theNames d.module d.self)) = true := by
  cases l <;> decide +kernel

theorem keyC_head (c : CTy) : (keyC c).1 = headC c := by cases c <;> rfl

theorem own_as_eq (k : Client) (l : Layout) : k.ds.flatMap (implsFor [mod l, asTrait l]) =
    (k.ds.filter fun d => d.2 = l).map asDef := by
  generalize k.ds = ds
  induction ds with
  | nil => rfl
  | cons d ds ih =>
    rw [List.flatMap_cons, ih, List.filter_cons]
    obtain ⟨c, l'⟩ := d
    cases l <;> cases l' <;> rfl

theorem as_names_nodup (hk : k.Ok) (l : Layout) : ((k.ds.filter fun d => d.2 = l).map fun d => d.1.name).Nodup := by
  have h := List.Sublist.nodup (List.Sublist.map _ (List.filter_sublist (p := fun d : ClientStruct × Layout => decide (d.2 = l)))) (gens_nodup hk)
  refine List.pairwise_map.2 ?_
  refine List.Pairwise.imp_of_mem ?_ (List.pairwise_map.1 h)
  intro a b ha hb hne e
  apply hne
  have h1 : a.2 = l := by simpa using (List.mem_filter.1 ha).2
  have h2 : b.2 = l := by simpa using (List.mem_filter.1 hb).2
  rw [h1, h2, e]

/-- A type with an implementation of `StdN` has one of these paths. -/
theorem std_head {l : Layout} {n : Nat} {c : CTy} {f : Found} {fs : List Found}
    (h : (K k tg env n).candidates [mod l, stdTrait l] [] c = some (f :: fs)) :
    headC c ∈ ((stdDefs l).map fun e => headOf theNames e.module e.self) ∨
      ∃ d ∈ k.ds, headC c = some ["", generatedName d.2 d.1.name] := by
  cases n with
  | zero => cases h
  | succ n =>
    have hg : [mod l, stdTrait l] ∈ genTraits := by cases l <;> decide
    have hng : NotGlsl [mod l, stdTrait l] := notGlsl_closed (by cases l <;> decide)
    rw [cands_next k tg env n hng, show jx.impls [mod l, stdTrait l] = stdDefs l from by cases l <;> rfl] at h
    obtain ⟨d, hd, z, hz⟩ := filterMapM_cons_inv h
    obtain ⟨a, ha⟩ := applies_match hz
    rcases List.mem_append.1 hd with hd | hd
    · left
      have hv := List.all_eq_true.1 (std_notVar l) d hd
      rw [Bool.and_eq_true] at hv
      have hf := List.all_eq_true.1 (std_full l) d hd
      simp only [rowFull, Bool.and_eq_true, bne_iff_ne, ne_eq] at hf
      refine List.mem_map.2 ⟨d, hd, ?_⟩
      rw [← head_up (k := k) hf.1 hf.2]
      exact head_of_match' hv.1 ha
    · right
      have h1 := head_of_match' (own_plain hg hd) ha
      obtain ⟨e, he, hd⟩ := List.mem_flatMap.1 hd
      refine ⟨e, he, ?_⟩
      have h : (d.module, d.params, d.self) ∈ (implsFor [mod l, stdTrait l] e).map fun i => (i.module, i.params, i.self) :=
        List.mem_map.2 ⟨d, hd, rfl⟩
      rw [implsFor_gen hg] at h
      split at h
      · rw [List.mem_singleton] at h
        injection h with h2 h
        injection h with h3 h4
        change headOf (allNames k) _ _ = _ at h1
        rw [h2, h4] at h1
        rw [← h1]
        exact resolve_declared (gen_declared he)
      · cases h

theorem bounds_std {l : Layout} {n : Nat} {c : CTy} {f : Found} (h : applies (kx k) (K k tg env n) [] c (blanketDef l) = some (some f)) :
    ∃ m g gs, (K k tg env m).candidates [mod l, stdTrait l] [] c = some (g :: gs) := by
  cases n with
  | zero => cases l <;> cases c <;> cases h
  | succ n =>
    have hi : (K k tg env (n + 1)).implements [mod l, stdTrait l] c = some true := by
      have e : applies (kx k) (K k tg env (n + 1)) [] c (blanketDef l) =
          (boundsHold (kx k) (K k tg env (n + 1)) ⟨mod l, [("Self", c), ("T", c)], assocTypes (blanketDef l).items, (blanketDef l).bounds⟩
            [(ty "T", []), (ty "T", [ty (stdTrait l)])]).map fun ok => if ok then some ⟨⟨mod l, [("Self", c), ("T", c)],
              assocTypes (blanketDef l).items, (blanketDef l).bounds⟩, (blanketDef l).items⟩ else none := by
        cases l <;> cases c <;> rfl
      rw [e] at h
      have hn : (K k tg env (n + 1)).norm ⟨mod l, [("Self", c), ("T", c)], assocTypes (blanketDef l).items, (blanketDef l).bounds⟩
          (ty "T") = some c := by cases l <;> rfl
      simp only [boundsHold, allM, hn, Option.bind_some, if_true,
        show resolveName (kx k).names (mod l) [stdTrait l] = _ from stdVia l] at h
      cases hb : (K k tg env (n + 1)).implements [mod l, stdTrait l] c with
      | none => rw [hb] at h; cases h
      | some b =>
        rw [hb] at h
        cases b with
        | true => rfl
        | false => cases h
    have hi' : implementsRule (kx k) (clientOutside tg env) (K k tg env n) [mod l, stdTrait l] c = some true := hi
    unfold implementsRule at hi'
    cases hc : (K k tg env n).candidates [mod l, stdTrait l] [] c with
    | none => rw [hc] at hi'; cases hi'
    | some fs =>
      rw [hc] at hi'
      cases fs with
      | nil => cases hi'
      | cons g gs => exact ⟨n, g, gs, hc⟩

theorem tail_hit {l : Layout} {n : Nat} {c : CTy} {d : ImplDef} (hd : d ∈ asTail l ++ (k.ds.filter fun d => d.2 = l).map asDef) {f : Found}
    (h : applies (kx k) (K k tg env n) [] c d = some (some f)) :
    headOf (allNames k) d.module d.self = headC c ∧ asKey (allNames k) d = asKeyC c := by
  obtain ⟨a, ha⟩ := applies_match h
  rcases List.mem_append.1 hd with hd | hd
  · have hs := List.all_eq_true.1 (tail_shape l) d hd
    rw [Bool.and_eq_true] at hs
    have hf := List.all_eq_true.1 (tail_full l) d hd
    simp only [rowFull, Bool.and_eq_true, bne_iff_ne, ne_eq] at hf
    have h1 : headOf (allNames k) d.module d.self = headC c := head_of_match' hs.1 ha
    refine ⟨h1, ?_⟩
    have h2 := head_up (k := k) hf.1 hf.2
    unfold asKey asKeyC
    cases hp : d.params.isEmpty with
    | true =>
      have h3 := hs.2
      rw [hp, if_pos rfl, bne_iff_ne, ← h2, h1] at h3
      rw [if_pos rfl, if_neg h3]
      rw [List.isEmpty_iff.1 hp] at ha
      exact key_of_match ha
    | false =>
      have h3 := hs.2
      rw [hp, if_neg (by decide), beq_iff_eq, ← h2, h1] at h3
      rw [if_neg (by decide), if_pos h3, h1]
  · obtain ⟨e, he, rfl⟩ := List.mem_map.1 hd
    have h1 : headOf (allNames k) (asDef e).module (asDef e).self = headC c := head_of_match ha
    refine ⟨h1, ?_⟩
    unfold asKey asKeyC
    rw [if_pos (show (asDef e).params.isEmpty = true from rfl), if_neg]
    · exact key_of_match ha
    · rw [← h1]
      have : headOf (allNames k) (asDef e).module (asDef e).self = some ["", e.1.name] :=
        resolve_declared (src_mem (k.known e (List.mem_filter.1 he).1))
      rw [this]
      intro e
      injection e with e
      injection e with e
      exact absurd e (by decide)

theorem as_one (hk : k.Ok) (l : Layout) (n : Nat) {c : CTy} {fs : List Found}
    (h : (K k tg env n).candidates [mod l, asTrait l] [] c = some fs) : fs.length ≤ 1 := by
  cases n with
  | zero => cases h
  | succ n =>
    have hng : NotGlsl [mod l, asTrait l] := ⟨by cases l <;> decide, by cases l <;> decide⟩
    rw [cands_next k tg env n hng, show jx.impls [mod l, asTrait l] = asDefs l from by cases l <;> rfl, asDefs_cons, own_as_eq,
      List.cons_append] at h
    have up : ∀ d ∈ asTail l, asKey (allNames k) d = asKey theNames d ∧
        headOf (allNames k) d.module d.self = headOf theNames d.module d.self := by
      intro d hd
      have := List.all_eq_true.1 (tail_full l) d hd
      simp only [rowFull, Bool.and_eq_true, bne_iff_ne, ne_eq] at this
      refine ⟨?_, head_up this.1 this.2⟩
      unfold asKey
      rw [key_up this.1 this.2, head_up this.1 this.2]
    have hout : ∀ d ∈ asTail l, outer (headOf (allNames k) d.module d.self) = true := by
      intro d hd
      rw [(up d hd).2]
      exact List.all_eq_true.1 (tail_outer l) d hd
    have asKey_head : ∀ d, (asKey (allNames k) d).1 = headOf (allNames k) d.module d.self := by
      intro d
      unfold asKey
      split
      · exact key_head _ _ _
      · rfl
    have rest : ∀ {gs}, filterMapM (applies (kx k) (K k tg env n) [] c) (asTail l ++ (k.ds.filter fun d => d.2 = l).map asDef) = some gs →
        gs.length ≤ 1 := by
      intro gs hgs
      refine one_of_own (key := asKey (allNames k)) (k' := asKeyC c) (own' := fun x => (some ["", x], []))
        ?_ some_key (as_names_nodup hk l) ?_ (fun d hd x e => ?_) (fun d hd f hf => (tail_hit hd hf).2) hgs
      · rw [List.map_congr_left fun d hd => (up d hd).1]
        exact tail_distinct l
      · rw [List.map_map, List.map_map]
        refine List.map_congr_left fun d hd => ?_
        show keyOf (allNames k) "" (ty d.1.name) = _
        have := resolve_declared (k := k) (src_mem (k.known d (List.mem_filter.1 hd).1))
        simp only [keyOf, this, List.map_nil]
        rfl
      · have := hout d hd
        rw [← asKey_head, e] at this
        cases this
    simp only [filterMapM] at h
    cases hb : applies (kx k) (K k tg env n) [] c (blanketDef l) with
    | none => rw [hb] at h; cases h
    | some r =>
      rw [hb] at h
      simp only [Option.bind_some, Option.map_eq_some_iff] at h
      obtain ⟨gs, hgs, rfl⟩ := h
      cases r with
      | none => simpa using rest hgs
      | some y =>
        cases gs with
        | nil => simp
        | cons g gs =>
          exfalso
          obtain ⟨m, z, zs, hz⟩ := bounds_std hb
          obtain ⟨d, hd, w, hw⟩ := filterMapM_cons_inv hgs
          have h1 := (tail_hit hd hw).1
          rcases List.mem_append.1 hd with hd | hd
          · have h2 := hout d hd
            have h3 := List.all_eq_true.1 (tail_std l) d hd
            rcases std_head hz with h4 | ⟨e, -, h4⟩
            · rw [← (up d hd).2, h1] at h3
              simp only [List.contains_eq_mem, Bool.not_eq_true', decide_eq_false_iff_not] at h3
              exact h3 h4
            · rw [h1, h4] at h2
              cases h2
          · obtain ⟨e, he, rfl⟩ := List.mem_map.1 hd
            have he := k.known e (List.mem_filter.1 he).1
            have h2 : headOf (allNames k) (asDef e).module (asDef e).self = some ["", e.1.name] :=
              resolve_declared (src_mem he)
            rw [h2] at h1
            rcases std_head hz with h4 | ⟨e', he', h4⟩
            · rw [← h1] at h4
              obtain ⟨x, hx, h5⟩ := List.mem_map.1 h4
              have h6 := List.all_eq_true.1 (std_outer l) x hx
              rw [h5] at h6
              cases h6
            · rw [← h1] at h4
              have h5 := some_own _ _ h4
              refine (List.nodup_append.1 (names_nodup hk)).2.2 _ (List.mem_map.2 ⟨e.1, he, rfl⟩) _
                (List.mem_flatMap.2 ⟨e', he', gen_mem e'⟩) h5

end Crevice.ClientProof
