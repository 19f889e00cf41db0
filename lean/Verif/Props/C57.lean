import Verif.Spec.Work
import Verif.Props.C30_C31
/-
C57: the compile-time work of the generated padding functions.
-/
namespace Crevice

theorem Runs.fn {α : Type} {fns : List (String × CExpr α)} {fs : List String} {a b : Nat}
    (h : Runs fns fs a) (h' : Runs fns fs b) : a = b := by
  induction h generalizing b with
  | nil => cases h'; rfl
  | cons h1 _ _ ih1 ih2 =>
    cases h' with
    | cons g1 g2 g3 =>
      rw [h1, Option.some.injEq] at g1
      subst g1
      rw [ih1 g2, ih2 g3]

theorem Runs.append {α : Type} {fns : List (String × CExpr α)} {fs gs : List String} {a b : Nat}
    (h : Runs fns fs a) (h' : Runs fns gs b) : Runs fns (fs ++ gs) (a + b) := by
  induction h with
  | nil => simpa using h'
  | cons h1 h2 _ _ ih2 =>
    rw [List.cons_append, Nat.add_assoc]
    exact .cons h1 h2 ih2

/-- Functions that each call all the earlier ones. -/
theorem runs_range {α : Type} {fns : List (String × CExpr α)} {name : Nat → String} {n : Nat}
    (h : ∀ i < n, ∃ b, fns.lookup (name i) = some b ∧ b.calls = (List.range i).map name) (k : Nat)
    (hk : k ≤ n) : Runs fns ((List.range k).map name) (2 ^ k - 1) := by
  induction k with
  | zero => exact .nil
  | succ k ih =>
    obtain ⟨b, h1, h2⟩ := h k (by omega)
    have hr := ih (by omega)
    have hs : Runs fns [name k] (1 + (2 ^ k - 1) + 0) := .cons h1 (h2 ▸ hr) .nil
    have := hr.append hs
    rw [List.range_succ, List.map_append, List.map_singleton]
    have hp : 0 < 2 ^ k := Nat.two_pow_pos k
    rw [show 2 ^ (k + 1) - 1 = 2 ^ k - 1 + (1 + (2 ^ k - 1) + 0) by rw [Nat.pow_succ]; omega]
    exact this

theorem padFns_body {α : Type} {l : Layout} {input : DeriveInput α} {g : Generated α}
    (hg : emitLayout l input = .ok g) : ∀ i < g.padFns.length, ∃ b,
      g.padFns.lookup (padFnName l input.ident i) = some b ∧
      b.calls = (List.range i).map (padFnName l input.ident) := by
  obtain ⟨fs, -, -, h2, -⟩ := emitLayout_inv hg
  intro i hi
  have hif : i < fs.length := by simpa [h2] using hi
  refine ⟨_, by rw [h2]; exact lookup_padFns hif, ?_⟩
  rw [dif_pos hif, calls_padBody]

/-- C57, one function: calling the padding function with index `i`, without remembering results,
executes `2 ^ i` functions. -/
theorem C57_one {α : Type} {l : Layout} {input : DeriveInput α} {g : Generated α}
    (hg : emitLayout l input = .ok g) (i : Nat) (hi : i < g.padFns.length) (k : Nat) :
    Runs g.padFns [g.padFns[i].1] k ↔ k = 2 ^ i := by
  obtain ⟨b, h1, h2⟩ := padFns_body hg i hi
  have hr := runs_range (padFns_body hg) i (Nat.le_of_lt hi)
  have hn : g.padFns[i].1 = padFnName l input.ident i := by
    obtain ⟨fs, -, -, h2, -⟩ := emitLayout_inv hg
    simp [h2]
  have hs : Runs g.padFns [g.padFns[i].1] (2 ^ i) := by
    rw [hn]
    have : Runs g.padFns [padFnName l input.ident i] (1 + (2 ^ i - 1) + 0) := .cons h1 (h2 ▸ hr) .nil
    have hp : 0 < 2 ^ i := Nat.two_pow_pos i
    rwa [show 1 + (2 ^ i - 1) + 0 = 2 ^ i by omega] at this
  exact ⟨fun h => h.fn hs, fun h => h ▸ hs⟩

theorem lengthCalls_eq {α : Type} {l : Layout} {input : DeriveInput α} {g : Generated α}
    (hg : emitLayout l input = .ok g) :
    g.lengthCalls = (List.range g.padFns.length).map (padFnName l input.ident) := by
  obtain ⟨fs, -, -, h2, h3, -⟩ := emitLayout_inv hg
  have hlen : g.padFns.length = fs.length := by simp [h2]
  rw [Generated.lengthCalls, h3, hlen]
  clear h2 h3 hlen hg
  suffices h : ∀ k, ((fs.zipIdx k).map fun x => [(x.1.1, GenTy.layoutOf x.1.2),
      (padFieldName x.2, GenTy.padBytes (padFnName l input.ident x.2))]).flatten.filterMap
        (fun x : String × GenTy α => match x.2 with
          | .layoutOf _ => none
          | .padBytes f => some f) = (List.range' k fs.length).map (padFnName l input.ident) by
    rw [List.range_eq_range']
    exact h 0
  intro k
  induction fs generalizing k with
  | nil => rfl
  | cons f r ih =>
    rw [List.zipIdx_cons, List.map_cons, List.flatten_cons, List.filterMap_append, ih,
      List.length_cons, List.range'_succ, List.map_cons]
    rfl

/-- C57, a whole struct: evaluating the array lengths of a generated struct with `n` fields,
without remembering results, executes `2 ^ n - 1` functions. -/
theorem C57_all {α : Type} {l : Layout} {input : DeriveInput α} {g : Generated α}
    {fs : List (String × α)} (hd : input.data = .structNamed fs) (hg : emitLayout l input = .ok g)
    (k : Nat) : Runs g.padFns g.lengthCalls k ↔ k + 1 = 2 ^ fs.length := by
  have hlen : g.padFns.length = fs.length := by
    obtain ⟨fs', he, -, h2, -⟩ := emitLayout_inv hg
    rw [hd] at he
    injection he with he
    subst he
    simp [h2]
  have hr := runs_range (padFns_body hg) _ (Nat.le_refl _)
  rw [← lengthCalls_eq hg, hlen] at hr
  have hp : 0 < 2 ^ fs.length := Nat.two_pow_pos _
  exact ⟨fun h => by rw [h.fn hr]; omega, fun h => by
    rw [show k = 2 ^ fs.length - 1 by omega]; exact hr⟩

theorem sum_range_triangle (n : Nat) : 2 * (List.range n).sum + n = n * n := by
  induction n with
  | zero => rfl
  | succ n ih =>
    simp only [List.range_succ, List.sum_append, List.sum_cons, List.sum_nil]
    have : (n + 1) * (n + 1) = n * n + 2 * n + 1 := by
      rw [Nat.add_mul, Nat.mul_add]; omega
    omega

/-- C57, the text: the generated functions are as many as the fields, the struct calls each of them
once, and they contain `n * (n - 1) / 2` calls of each other. So an evaluator that remembers the
result of every function executes `n` of them, and looks up `n * (n - 1) / 2` results. -/
theorem C57_text {α : Type} {l : Layout} {input : DeriveInput α} {g : Generated α}
    {fs : List (String × α)} (hd : input.data = .structNamed fs)
    (hg : emitLayout l input = .ok g) :
    g.lengthCalls = g.padFns.map Prod.fst ∧ g.lengthCalls.Nodup ∧
    g.lengthCalls.length = fs.length ∧
    2 * g.callSites + fs.length = fs.length * fs.length := by
  have hl := lengthCalls_eq hg
  obtain ⟨fs', he, -, h2, -⟩ := emitLayout_inv hg
  rw [hd] at he
  injection he with he
  subst he
  have hlen : g.padFns.length = fs.length := by simp [h2]
  refine ⟨?_, ?_, by rw [hl]; simp [hlen], ?_⟩
  · rw [hl, hlen, h2, List.map_map]
    rfl
  · rw [hl]
    exact nodup_map_of_injective (fun a b hab => padFnName_inj hab) List.nodup_range
  · have : g.callSites = (List.range fs.length).sum := by
      rw [Generated.callSites, h2, List.map_map]
      congr 1
      refine List.ext_getElem (by simp) fun i h1 _ => ?_
      have hif : i < fs.length := by simpa using h1
      simp [hif, calls_padBody]
    rw [this]
    exact sum_range_triangle _

/-- A struct with twenty fields: more than a million executions. -/
example (g : Generated Ty) (name : String)
    (hg : emitLayout .std140 ⟨name, [], .structNamed ((List.range 20).map fun i => (toString i, Ex.vec3))⟩
      = .ok g) : Runs g.padFns g.lengthCalls 1048575 :=
  (C57_all rfl hg _).2 (by simp)

/-- And there is such an expansion. -/
example : ∃ g, emitLayout .std140 ⟨"Big", [], .structNamed ((List.range 20).map fun i =>
    (toString i, Ex.vec3))⟩ = .ok g :=
  (C30_macro _ _).1 _ rfl

end Crevice
