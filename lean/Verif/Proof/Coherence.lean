import Verif.Proof.TextOnly
/-
What the text of the crate says about its types: two implementations of StdN, Glsl, Zeroable or Pod never apply to the
same type.
-/
namespace Crevice.Tables
open RustCode RustTypes TypeNames

theorem filterMapM_le_one {α β κ : Type} {p : α → Option (Option β)} {key : α → κ} {k : κ} {xs : List α}
    (hnd : (xs.map key).Nodup) (hk : ∀ x ∈ xs, ∀ y, p x = some (some y) → key x = k) {ys : List β}
    (h : filterMapM p xs = some ys) : ys.length ≤ 1 := by
  induction xs generalizing ys with
  | nil => cases h; simp
  | cons x xs ih =>
    rw [List.map_cons, List.nodup_cons] at hnd
    simp only [filterMapM] at h
    cases hp : p x with
    | none => rw [hp] at h; cases h
    | some r =>
      rw [hp] at h
      simp only [Option.bind_some, Option.map_eq_some_iff] at h
      obtain ⟨zs, hzs, rfl⟩ := h
      cases r with
      | none =>
        simpa using ih hnd.2 (fun x hx => hk x (by simp [hx])) hzs
      | some y =>
        cases zs with
        | nil => simp
        | cons z zs =>
          obtain ⟨x', hx', w, hw⟩ := filterMapM_cons_inv hzs
          have h1 := hk x (by simp) y hp
          have h2 := hk x' (by simp [hx']) w hw
          exact absurd (List.mem_map.2 ⟨x', hx', h2.trans h1.symm⟩) hnd.1

/-- The path of a type. -/
def headOf (names : List (String × List String)) (m : String) : RustCode.Ty → Option (List String)
  | .path p _ => resolveName names m p
  | _ => none

/-- The path of a type and of its arguments. -/
def keyOf (names : List (String × List String)) (m : String) : RustCode.Ty → Option (List String) × List (Option (List String))
  | .path p args => (resolveName names m p, args.map (headOf names m))
  | _ => (none, [])

/-- The path of a type. -/
def headC : CTy → Option (List String)
  | .named p _ => some p
  | .array _ _ => none

/-- The path of a type and of its arguments. -/
def keyC : CTy → Option (List String) × List (Option (List String))
  | .named p args => (some p, args.map headC)
  | .array _ _ => (none, [])

theorem head_of_match {names : List (String × List String)} {m : String} {t : RustCode.Ty} {c : CTy}
    {a : List (String × CTy)} (h : matchTy names m [] t c = some a) : headOf names m t = headC c := by
  cases t <;> try (simp [matchTy] at h; done)
  obtain ⟨q, cs, hq, rfl, -⟩ := match_plain h
  exact hq

theorem heads_of_match {names : List (String × List String)} {m : String} {ts : List RustCode.Ty} {cs : List CTy}
    {a : List (String × CTy)} (h : matchTys names m [] ts cs = some a) : ts.map (headOf names m) = cs.map headC := by
  induction ts generalizing cs a with
  | nil =>
    cases cs with
    | nil => rfl
    | cons c cs => simp [matchTys] at h
  | cons t ts ih =>
    cases cs with
    | nil => simp [matchTys] at h
    | cons c cs =>
      simp only [matchTys, Option.bind_eq_some_iff, Option.map_eq_some_iff] at h
      obtain ⟨x, hx, y, hy, -⟩ := h
      rw [List.map_cons, List.map_cons, head_of_match hx, ih hy]

theorem key_of_match {names : List (String × List String)} {m : String} {t : RustCode.Ty} {c : CTy}
    {a : List (String × CTy)} (h : matchTy names m [] t c = some a) : keyOf names m t = keyC c := by
  cases t <;> try (simp [matchTy] at h; done)
  obtain ⟨q, cs, hq, rfl, hcs⟩ := match_plain h
  simp only [keyOf, keyC, hq, heads_of_match hcs]

/-- A type that is not a variable. -/
def notVar (vars : List String) : RustCode.Ty → Bool
  | .path [x] _ => !vars.contains x
  | .path _ _ => true
  | _ => false

theorem head_of_match' {names : List (String × List String)} {m : String} {vars : List String} {t : RustCode.Ty} {c : CTy}
    {a : List (String × CTy)} (hv : notVar vars t = true) (h : matchTy names m vars t c = some a) :
    headOf names m t = headC c := by
  cases t <;> try (simp [notVar] at hv; done)
  rename_i p args
  unfold matchTy at h
  cases c with
  | array t n => split at h <;> simp at h; all_goals (simp_all [notVar])
  | named q cs =>
    split at h
    · simp only [notVar, Bool.not_eq_true'] at hv
      simp only [hv, Bool.false_eq_true, if_false] at h
      split at h
      · next hq => exact hq
      · cases h
    · simp only at h
      split at h
      · next hq => exact hq
      · cases h

theorem std_distinct (l : Layout) : ((stdDefs l).map fun d => headOf jx.names d.module d.self).Nodup := by
  cases l <;> decide +kernel

theorem std_notVar (l : Layout) : ((stdDefs l).all fun d => notVar d.params d.self && d.traitArgs.isEmpty) = true := by
  cases l <;> decide +kernel

theorem pod_distinct (t : String) : ((podDefs t).map fun d => headOf jx.names d.module d.self).Nodup := by
  have : ((podDefs t).map fun d => headOf jx.names d.module d.self) =
      (podDefs "Pod").map fun d => headOf jx.names d.module d.self := rfl
  rw [this]
  decide +kernel

theorem pod_notVar (t : String) : ((podDefs t).all fun d => notVar d.params d.self && d.traitArgs.isEmpty) = true := by
  have : ((podDefs t).all fun d => notVar d.params d.self && d.traitArgs.isEmpty) =
      ((podDefs "Pod").all fun d => notVar d.params d.self && d.traitArgs.isEmpty) := rfl
  rw [this]
  decide +kernel

theorem glsl_distinct : (glslDefs.map fun d => keyOf jx.names d.module d.self).Nodup := by decide +kernel

theorem glsl_closed : (glslDefs.all fun d => d.params.isEmpty && d.traitArgs.isEmpty) = true := by decide +kernel

theorem one_of_heads {g : Sem} {c : CTy} {ds : List ImplDef} (hd : (ds.map fun d => headOf jx.names d.module d.self).Nodup)
    (hv : (ds.all fun d => notVar d.params d.self && d.traitArgs.isEmpty) = true) {fs : List Found}
    (h : filterMapM (applies jx g [] c) ds = some fs) : fs.length ≤ 1 := by
  refine filterMapM_le_one (k := headC c) hd (fun d hm f hf => ?_) h
  have := List.all_eq_true.1 hv d hm
  rw [Bool.and_eq_true] at this
  obtain ⟨a, ha, -⟩ := applies_inv (List.isEmpty_iff.1 this.2) hf
  exact head_of_match' this.1 ha

theorem one_of_keys {g : Sem} {c : CTy} {ds : List ImplDef} (hd : (ds.map fun d => keyOf jx.names d.module d.self).Nodup)
    (hv : (ds.all fun d => d.params.isEmpty && d.traitArgs.isEmpty) = true) {fs : List Found}
    (h : filterMapM (applies jx g [] c) ds = some fs) : fs.length ≤ 1 := by
  refine filterMapM_le_one (k := keyC c) hd (fun d hm f hf => ?_) h
  have := List.all_eq_true.1 hv d hm
  rw [Bool.and_eq_true] at this
  obtain ⟨a, ha, -⟩ := applies_inv (List.isEmpty_iff.1 this.2) hf
  rw [List.isEmpty_iff.1 this.1] at ha
  exact key_of_match ha

/-- The traits whose implementations have types without variables at the top. -/
def rootedTraits : List (List String) :=
  [["std140", "Std140"], ["std430", "Std430"], ["glsl", "Glsl"], ["Zeroable"], ["Pod"]]

theorem rooted_one {env : ForeignEnv} {t : List String} (ht : t ∈ rootedTraits) (n : Nat) {c : CTy} {fs : List Found}
    (h : (G env n).candidates t [] c = some fs) : fs.length ≤ 1 := by
  cases n with
  | zero => cases h
  | succ n =>
    have e : filterMapM (applies jx (G env n) [] c) (jx.impls t) = some fs := h
    simp only [rootedTraits, List.mem_cons, List.not_mem_nil, or_false] at ht
    rcases ht with rfl | rfl | rfl | rfl | rfl
    · exact one_of_heads (std_distinct .std140) (std_notVar .std140) e
    · exact one_of_heads (std_distinct .std430) (std_notVar .std430) e
    · exact one_of_keys glsl_distinct glsl_closed e
    · exact one_of_heads (pod_distinct "Zeroable") (pod_notVar "Zeroable") e
    · exact one_of_heads (pod_distinct "Pod") (pod_notVar "Pod") e

end Crevice.Tables
