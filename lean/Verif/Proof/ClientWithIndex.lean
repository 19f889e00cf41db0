import Verif.Model.TextClientFeatures
import Verif.Proof.ClientSame
import Verif.Proof.FeatureResolve
/-
The items of a crate that uses crevice and of crevice with any set of features, sorted.
-/
namespace Crevice.ClientProof
open RustCode RustTypes TypeNames ClientText Tables

variable {k : Client} {f : Features}

/-- All names. -/
def namesF (k : Client) (f : Features) : List (String × List String) := namesWith f.std ++ [("", k.names)]

theorem namesWith_ne (b : Bool) : ∀ n ∈ namesWith b, n.1 ≠ "" := by cases b <;> decide +kernel

theorem resolve_declaredF {x : String} (h : x ∈ k.names) : resolveName (namesF k f) "" [x] = some ["", x] := by
  unfold resolveName namesF
  dsimp only
  have : (namesWith f.std ++ [("", k.names)]).lookup "" = some k.names :=
    lookup_append_none _ ("", k.names) (namesWith_ne _)
  rw [this, if_pos]
  simpa using h

theorem resolve_undeclaredF {x : String} (h : x ∉ k.names) :
    resolveName (namesF k f) "" [x] = resolveName (namesWith f.std) "" [x] := by
  unfold resolveName namesF
  dsimp only
  have h1 : (namesWith f.std ++ [("", k.names)]).lookup "" = some k.names :=
    lookup_append_none _ ("", k.names) (namesWith_ne _)
  have h2 : ∀ b, (namesWith b).lookup "" = none := by intro b; cases b <;> decide +kernel
  rw [h1, h2, if_neg, if_neg, List.filter_append]
  · simp
  · simp
  · simpa using h

theorem resolve_longF {a b : String} {p : List String} (h : b ≠ "") :
    resolveName (namesF k f) "" (a :: b :: p) = resolveName (namesWith f.std) "" (a :: b :: p) := by
  rcases p with _ | ⟨c, _ | ⟨d, p⟩⟩
  · rfl
  · unfold resolveName namesF
    dsimp only
    rw [lookup_append_ne _ _ h]
  · rfl

theorem resolve_pathF {m : String} {p : List String} (h : (viewC k).path m p) :
    resolveName (namesF k f) m p = resolveName (namesWith f.std) m p := by
  by_cases hm : m = ""
  · subst hm
    rcases p with _ | ⟨a, _ | ⟨b, p⟩⟩
    · rfl
    · exact resolve_undeclaredF (h.2 rfl a rfl)
    · exact resolve_longF (h.1 b (by simp))
  · exact resolve_client k.names hm fun he => h.1 "" he rfl

theorem vias_core (b : Bool) : (every (coreModules b)).all viaOk = true := by
  cases b <;> decide +kernel

theorem vias_with (f : Features) : ∀ i ∈ every (crateModulesWith f), viaOk i = true := by
  intro i hi
  rw [modules_eq] at hi
  unfold every at hi
  rw [List.flatMap_append] at hi
  rcases List.mem_append.1 hi with hi | hi
  · exact List.all_eq_true.1 (vias_core f.std) i hi
  · simp only [List.flatMap_cons, List.flatMap_nil, List.append_nil] at hi
    obtain ⟨j, hj, rfl⟩ := List.mem_map.1 hi
    rcases List.mem_append.1 hj with hj | hj
    · obtain ⟨r, -, hr⟩ := List.mem_flatMap.1 hj
      simp only [easyItems, easyConv, List.mem_cons, List.not_mem_nil, or_false] at hr
      rcases hr with rfl | rfl | rfl <;> rfl
    · obtain ⟨r, -, hr⟩ := List.mem_flatMap.1 hj
      simp only [mintyItems, mintyConv, List.mem_cons, List.not_mem_nil, or_false] at hr
      rcases hr with rfl | rfl | rfl <;> rfl

theorem crate_implsF (k : Client) (f : Features) (t : List String) :
    (every (crateModulesWith f)).filterMap (ClientProof.implOf (namesF k f) t) = (indexWith f).impls t := by
  have h : (indexWith f).impls t = (every (crateModulesWith f)).filterMap (ClientProof.implOf (namesWith f.std) t) := by
    rw [← with_names]
    unfold indexWith
    rw [indexItems_eq]
  rw [h]
  refine filterMap_same fun i hi => ?_
  have hv := vias_with f i hi
  obtain ⟨m, it⟩ := i
  cases it with
  | impl g via self as =>
    cases via with
    | path p args =>
      simp only [viaOk, Bool.and_eq_true, bne_iff_ne, ne_eq, Bool.not_eq_true', List.contains_eq_mem, decide_eq_false_iff_not] at hv
      unfold ClientProof.implOf implTrait
      dsimp only
      rw [show namesF k f = namesWith f.std ++ [("", k.names)] from rfl, resolve_client k.names hv.1 hv.2]
    | _ => rfl
  | _ => rfl

/-- The path of a trait leads to it. -/
theorem resolve_coreF (k : Client) (f : Features) {m x : String} (h : [m, x] ∈ coreTraits) :
    resolveName (namesF k f) "" ["crate", m, x] = some [m, x] := by
  have key : ∀ b, ∀ t ∈ coreTraits, t.length = 2 → t.head? ≠ some "" ∧ resolveName (namesWith b) "" ("crate" :: t) = some t := by
    intro b
    cases b <;> decide +kernel
  have := key f.std _ h rfl
  rw [resolve_longF (fun e => this.1 (by rw [e]; rfl))]
  exact this.2

theorem resolve_structF (k : Client) (f : Features) :
    resolveName (namesF k f) "" ["crate", "glsl", "GlslStruct"] = if f.std then some ["glsl", "GlslStruct"] else none := by
  rw [resolve_longF (by decide)]
  cases f.std <;> decide +kernel

theorem glsl_partsF (k : Client) (f : Features) (t : List String) (c : ClientStruct) :
    ((glslPiece c).map fun i => (("", i) : String × Item)).filterMap (ClientProof.implOf (namesF k f) t) =
      if f.std = false ∧ t = ["glsl", "GlslStruct"] then [] else glslFor t c := by
  cases hf : f.std with
  | true =>
    rw [if_neg (fun h => by cases h.1)]
    refine glsl_parts _ t c (resolve_coreF k f (by decide)) ?_
    rw [resolve_structF, hf]
    rfl
  | false =>
    have e1 : implTrait (namesF k f) "" (inGlsl "Glsl") = some (["glsl", "Glsl"], []) := by
      unfold implTrait inGlsl
      dsimp only
      rw [resolve_coreF k f (by decide)]
      rfl
    have e2 : implTrait (namesF k f) "" (inGlsl "GlslStruct") = none := by
      unfold implTrait inGlsl
      dsimp only
      rw [resolve_structF, hf]
      rfl
    rw [glslPiece_eq]
    simp only [List.map_cons, List.map_nil, List.filterMap_cons, List.filterMap_nil, ClientProof.implOf, e1, e2, Option.bind_some, Option.bind_none]
    unfold glslFor
    by_cases h1 : t = ["glsl", "Glsl"]
    · subst h1
      rfl
    · rw [if_neg (fun h => h1 h.symm), if_neg h1, List.nil_append]
      by_cases h2 : t = ["glsl", "GlslStruct"]
      · rw [if_pos ⟨trivial, h2⟩]
      · rw [if_neg (fun h => h2 h.2), if_neg h2]

theorem client_implsF (hk : k.Ok) (f : Features) (t : List String) :
    (clientEvery k).filterMap (ClientProof.implOf (namesF k f) t) = k.ds.flatMap (implsFor t) ++
      k.gs.flatMap fun c => if f.std = false ∧ t = ["glsl", "GlslStruct"] then [] else glslFor t c := by
  rw [clientEvery_eq, List.filterMap_append, List.filterMap_append]
  have : (k.cs.map fun c => (("", c.item) : String × Item)).filterMap (ClientProof.implOf (namesF k f) t) = [] := by
    rw [List.filterMap_map]
    induction k.cs with
    | nil => rfl
    | cons c cs ih => rw [List.filterMap_cons, ih]; rfl
  rw [this, List.nil_append, filterMap_flatMap', filterMap_flatMap', flatMap_same fun c _ => glsl_partsF k f t c]
  congr 1
  have single : ∀ b, ∀ x ∈ ["Zeroable", "Pod"], resolveName (namesWith b) "" [x] = some [x] := by
    intro b
    cases b <;> decide +kernel
  refine flatMap_same fun d _ => impl_parts _ t d ?_ ?_ ?_ ?_
  · rw [resolve_undeclaredF (free_of hk (by decide))]
    exact single _ _ (by decide)
  · rw [resolve_undeclaredF (free_of hk (by decide))]
    exact single _ _ (by decide)
  · exact resolve_coreF k f (by cases d.2 <;> decide)
  · exact resolve_coreF k f (by cases d.2 <;> decide)

/-- The items of the crate and of crevice, sorted. -/
def kxf (k : Client) (f : Features) : Index :=
  { names := namesF k f
    structs := (indexWith f).structs ++ ((k.cs.map fun c => (["", c.name], srcDef c)) ++
      k.ds.map fun d => (["", generatedName d.2 d.1.name], genDef d))
    owners := (indexWith f).owners
    fns := (indexWith f).fns ++ k.ds.flatMap fun d => (genOf d.1 d.2).padFns.map fun f => (["", f.1], padCode d.2 f)
    impls := fun t => (indexWith f).impls t ++ (k.ds.flatMap (implsFor t) ++
      k.gs.flatMap fun c => if f.std = false ∧ t = ["glsl", "GlslStruct"] then [] else glslFor t c) }

theorem index_eqF (hk : k.Ok) (f : Features) : indexItems (k.modulesWith f) = kxf k f := by
  have hn : ((k.modulesWith f).map fun m => (m.1, m.2.filterMap declared)) = namesF k f := by
    unfold Client.modulesWith namesF
    rw [List.map_append, ← with_names]
    rfl
  have he : every (k.modulesWith f) = every (crateModulesWith f) ++ clientEvery k := by
    unfold every Client.modulesWith
    rw [List.flatMap_append]
    simp [clientEvery]
  have i1 : (indexWith f).structs = (every (crateModulesWith f)).filterMap structOf := by
    unfold indexWith
    rw [indexItems_eq]
  have i2 : (indexWith f).owners = (every (crateModulesWith f)).flatMap ownersOf := by
    unfold indexWith
    rw [indexItems_eq]
  have i3 : (indexWith f).fns = (every (crateModulesWith f)).filterMap fnOf := by
    unfold indexWith
    rw [indexItems_eq]
  have e1 := client_structs k
  have e2 := client_owners k
  have e3 := client_fns k
  have e4 := fun t => client_implsF hk f t
  have e5 := fun t => crate_implsF k f t
  rw [indexItems_eq, hn, he]
  unfold kxf
  rw [i1, i2, i3]
  generalize every (crateModulesWith f) = M at *
  generalize clientEvery k = C at *
  rw [List.filterMap_append, List.filterMap_append, List.flatMap_append, e1, e2, e3, List.append_nil]
  rw [show (fun t => (M ++ C).filterMap (ClientProof.implOf (namesF k f) t)) = _ from
    funext fun t => by rw [List.filterMap_append, e4, e5]]

end Crevice.ClientProof
