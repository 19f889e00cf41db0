import Verif.Proof.FeatureTables
/-
What may be mentioned with a set of features: everything but the libraries that are off and what needs `std`.
-/
namespace Crevice.Tables
open RustCode RustTypes TypeNames

/-- The libraries that are off. -/
def offLib (f : Features) (x : String) : Bool :=
  (x == "cgmath" && !f.cgmath) || (x == "glam" && !f.glam) || (x == "nalgebra" && !f.nalgebra)

/-- A name that is there with the given features. -/
def Fine (f : Features) (x : String) : Prop := (gone f.std).contains x = false ∧ offLib f x = false

/-- The traits that matter. -/
def coreTraits : List (List String) :=
  [["std140", "AsStd140"], ["std430", "AsStd430"], ["std140", "Std140"], ["std430", "Std430"], ["Zeroable"], ["Pod"],
    ["Copy"], ["Clone"], ["Debug"], ["glsl", "Glsl"], ["From"]]

/-- Their associated items. -/
def coreAssoc : List String :=
  ["ALIGNMENT", "Output", "as_std140", "from_std140", "as_std430", "from_std430", "NAME", "zeroed"]

/-- What may be mentioned. -/
def view (f : Features) : View :=
  { path := fun _ p => ∀ x ∈ p, Fine f x
    via := fun m p => (∀ x ∈ p, Fine f x) ∧ ∀ q, resolveName theNames m p = some q → q ∈ coreTraits
    named := fun p => ∀ x ∈ p, Fine f x
    trait := fun t => t ∈ coreTraits
    item := fun a => a ∈ coreAssoc
    sized := False }

variable {f : Features}

theorem fine_of {x : String}
    (h : ["WriteStd140", "WriteStd430", "Writer", "GlslStruct", "cgmath", "glam", "nalgebra"].contains x = false) :
    Fine f x := by
  simp only [List.contains_cons, List.contains_nil, Bool.or_false, Bool.or_eq_false_iff] at h
  obtain ⟨h1, h2, h3, h4, h5, h6, h7⟩ := h
  refine ⟨?_, ?_⟩
  · unfold gone
    split
    · rfl
    · simp only [List.contains_cons, List.contains_nil, h1, h2, h3, h4, Bool.or_false]
  · unfold offLib
    rw [h5, h6, h7]
    rfl

theorem fine_all {p : List String}
    (h : p.any ["WriteStd140", "WriteStd430", "Writer", "GlslStruct", "cgmath", "glam", "nalgebra"].contains = false) :
    ∀ x ∈ p, Fine f x := by
  intro x hx
  refine fine_of ?_
  rw [List.any_eq_false] at h
  exact Bool.eq_false_iff.2 (h x hx)

/-! ### Names -/

theorem lookup_map {β γ : Type} (names : List (String × β)) (φ : β → γ) (m : String) :
    (names.map fun n => (n.1, φ n.2)).lookup m = (names.lookup m).map φ := by
  induction names with
  | nil => rfl
  | cons n names ih =>
    obtain ⟨k, v⟩ := n
    simp only [List.map_cons, List.lookup_cons]
    split <;> simp [ih]

theorem contains_filter {l g : List String} {x : String} (h : g.contains x = false) :
    (l.filter fun y => !g.contains y).contains x = l.contains x := by
  rw [Bool.eq_iff_iff, List.contains_iff_mem, List.contains_iff_mem, List.mem_filter]
  simp only [h, Bool.not_false, and_true]

theorem resolve_filter {names : List (String × List String)} {g : List String} {m : String} {p : List String}
    (h : ∀ x ∈ p, g.contains x = false) :
    resolveName (names.map fun n => (n.1, n.2.filter fun y => !g.contains y)) m p = resolveName names m p := by
  have hl : ∀ m x, g.contains x = false →
      (((names.map fun n => (n.1, n.2.filter fun y => !g.contains y)).lookup m).getD []).contains x =
        ((names.lookup m).getD []).contains x := by
    intro m x hx
    rw [lookup_map]
    cases names.lookup m with
    | none => rfl
    | some l => exact contains_filter hx
  have hf : ∀ x, g.contains x = false →
      (names.map fun n => (n.1, n.2.filter fun y => !g.contains y)).filter (fun n => n.1 != "" && n.2.contains x) =
        (names.filter fun n => n.1 != "" && n.2.contains x).map fun n => (n.1, n.2.filter fun y => !g.contains y) := by
    intro x hx
    rw [List.filter_map]
    congr 1
    refine List.filter_congr fun n _ => ?_
    exact congrArg (n.1 != "" && ·) (contains_filter hx)
  rcases p with _ | ⟨a, _ | ⟨b, _ | ⟨c, _ | ⟨d, p⟩⟩⟩⟩
  · rfl
  · unfold resolveName
    dsimp only
    rw [hl m a (h a (by simp)), hf a (h a (by simp))]
    generalize names.filter (fun n => n.1 != "" && n.2.contains a) = ns
    rcases ns with _ | ⟨n, _ | ⟨n', ns⟩⟩ <;> rfl
  · rfl
  · unfold resolveName
    dsimp only
    rw [hl b c (h c (by simp))]
  · rfl

theorem fine_key {n : String × List String} (h : n ∈ theNames) : Fine f n.1 := by
  have : ∀ n ∈ theNames, ["WriteStd140", "WriteStd430", "Writer", "GlslStruct", "cgmath", "glam", "nalgebra"].contains n.1 = false := by
    decide +kernel
  exact fine_of (this n h)

theorem lookup_key {names : List (String × List String)} {m x : String} (h : ((names.lookup m).getD []).contains x = true) :
    ∃ n ∈ names, n.1 = m := by
  cases hl : names.lookup m with
  | none => rw [hl] at h; cases h
  | some l => exact ⟨(m, l), lookup_mem hl, rfl⟩

theorem resolve_fine {m : String} {p q : List String} (h : ∀ x ∈ p, Fine f x) (hq : resolveName theNames m p = some q) :
    ∀ x ∈ q, Fine f x := by
  have same : some p = some q → ∀ x ∈ q, Fine f x := by
    intro e
    injection e with e
    subst e
    exact h
  rcases p with _ | ⟨a, _ | ⟨b, _ | ⟨c, _ | ⟨d, p⟩⟩⟩⟩
  · exact same hq
  · unfold resolveName at hq
    dsimp only at hq
    have ha := h a (by simp)
    split at hq
    · next hm =>
      injection hq with hq
      subst hq
      obtain ⟨n, hn, rfl⟩ := lookup_key hm
      intro x hx
      simp only [List.mem_cons, List.not_mem_nil, or_false] at hx
      rcases hx with rfl | rfl
      · exact fine_key hn
      · exact ha
    · split at hq
      · exact same hq
      · next n hn =>
        injection hq with hq
        subst hq
        have hm : n ∈ theNames := (List.mem_filter.1 (hn ▸ List.mem_singleton.2 rfl)).1
        intro x hx
        simp only [List.mem_cons, List.not_mem_nil, or_false] at hx
        rcases hx with rfl | rfl
        · exact fine_key hm
        · exact ha
      · cases hq
  · exact same hq
  · unfold resolveName at hq
    dsimp only at hq
    split at hq
    · split at hq
      · injection hq with hq
        subst hq
        exact fun x hx => h x (List.mem_cons_of_mem _ hx)
      · cases hq
    · exact same hq
  · exact same hq

/-! ### Implementations -/

theorem path_ok {m : String} {p : List String} {args : List RustCode.Ty}
    (h : p.any ["WriteStd140", "WriteStd430", "Writer", "GlslStruct", "cgmath", "glam", "nalgebra"].contains = false)
    (ha : TysOk (view f) m args) : TyOk (view f) m (.path p args) := by
  unfold TyOk
  exact ⟨fine_all h, ha⟩

theorem ty_ok {m x : String}
    (h : ["WriteStd140", "WriteStd430", "Writer", "GlslStruct", "cgmath", "glam", "nalgebra"].contains x = false) :
    TyOk (view f) m (ty x) := by
  unfold TyOk
  refine ⟨fun y hy => ?_, by unfold TysOk; trivial⟩
  rw [List.mem_singleton.1 hy]
  exact fine_of h

theorem via_ok {m : String} {p : List String} {q : List String}
    (h : p.any ["WriteStd140", "WriteStd430", "Writer", "GlslStruct", "cgmath", "glam", "nalgebra"].contains = false)
    (hq : resolveName theNames m p = some q) (ht : q ∈ coreTraits) : (view f).via m p := by
  refine ⟨fine_all h, fun q' hq' => ?_⟩
  rw [hq] at hq'
  injection hq' with hq'
  exact hq' ▸ ht

/-- Every name in the list is fine. -/
macro "fine" : tactic => `(tactic| first | exact fine_all (by decide) | exact fine_of (by decide))

theorem plain_ok {m : String} {self : RustCode.Ty} {items : List Assoc} (hs : TyOk (view f) m self)
    (hi : ∀ a ∈ items, AssocOk (view f) m a) : ImplOk (view f) (plainDef m self items) :=
  { self := hs
    args := by unfold plainDef TysOk; trivial
    bounds := fun b hb => by cases hb
    items := hi }

theorem stdVia (l : Layout) : (view f).via (mod l) [stdTrait l] := by
  cases l
  · exact via_ok (q := ["std140", "Std140"]) (by decide) (by decide +kernel) (by decide)
  · exact via_ok (q := ["std430", "Std430"]) (by decide) (by decide +kernel) (by decide)

theorem asVia (l : Layout) (m : String) : (view f).via m ["crate", mod l, asTrait l] := by
  cases l
  · exact via_ok (q := ["std140", "AsStd140"]) (by decide) (by kernel_rfl) (by decide)
  · exact via_ok (q := ["std430", "AsStd430"]) (by decide) (by kernel_rfl) (by decide)

theorem self_ok (m : String) : TyOk (view f) m (ty "Self") := ty_ok (by decide)
theorem selfOutput_ok (m : String) : TyOk (view f) m selfOutput := path_ok (by decide) (by unfold TysOk; trivial)

theorem blanket_ok (l : Layout) : ImplOk (view f) (blanketDef l) where
  self := ty_ok (by decide)
  args := by unfold blanketDef TysOk; trivial
  bounds := by
    intro b hb
    simp only [blanketDef, List.mem_cons, List.not_mem_nil, or_false] at hb
    rcases hb with rfl | rfl
    · exact ⟨ty_ok (by decide), fun t ht => by cases ht⟩
    · refine ⟨ty_ok (by decide), fun t ht => ?_⟩
      rw [List.mem_singleton.1 ht]
      exact stdVia l
  items := by
    intro a ha
    simp only [blanketDef, List.mem_cons, List.not_mem_nil, or_false] at ha
    rcases ha with rfl | rfl | rfl
    · intro u hu
      injection hu with hu
      subst hu
      exact self_ok _
    · refine ⟨self_ok _, fun b hb => ?_⟩
      injection hb with hb
      subst hb
      simp only [ExprOk, StmtsOk, and_self]
    · refine ⟨self_ok _, fun b hb => ?_⟩
      injection hb with hb
      subst hb
      simp only [ExprOk, StmtsOk, and_self]

theorem as_item (l : Layout) : (view f).item (asName l) := by cases l <;> (show _ ∈ coreAssoc; decide)
theorem from_item (l : Layout) : (view f).item (fromName l) := by cases l <;> (show _ ∈ coreAssoc; decide)
theorem name_item : (view f).item "NAME" := by show _ ∈ coreAssoc; decide

theorem asVia140 : (view f).via "std140" ["AsStd140"] :=
  via_ok (q := ["std140", "AsStd140"]) (by decide) (by kernel_rfl) (by decide)

theorem dynamic_ok : ImplOk (view f) dynamicDef where
  self := path_ok (by decide) (by simp only [TysOk, and_true]; exact ty_ok (by decide))
  args := by unfold dynamicDef TysOk; trivial
  bounds := by
    intro b hb
    rw [List.mem_singleton.1 hb]
    refine ⟨ty_ok (by decide), fun t ht => ?_⟩
    rw [List.mem_singleton.1 ht]
    exact asVia140
  items := by
    intro a ha
    simp only [dynamicDef, List.mem_cons, List.not_mem_nil, or_false] at ha
    rcases ha with rfl | rfl | rfl
    · intro u hu
      injection hu with hu
      subst hu
      refine path_ok (by decide) ?_
      simp only [TysOk, and_true]
      unfold TyOk
      exact ⟨ty_ok (by decide), asVia140⟩
    · refine ⟨selfOutput_ok _, fun b hb => ?_⟩
      injection hb with hb
      subst hb
      simp only [ExprOk, StmtsOk, ExprsOk, CalleeOk, CalledOk, implies_true, true_and, and_true]
      exact ⟨fine_all (by decide), .inr (as_item .std140)⟩
    · refine ⟨self_ok _, fun b hb => ?_⟩
      injection hb with hb
      subst hb
      simp only [ExprOk, StmtsOk, ExprsOk, CalleeOk, CalledOk, PathOk, implies_true, true_and, and_true]
      refine ⟨fine_all (by decide), ty_ok (by decide), asVia140, fun a ha => ?_⟩
      rw [List.mem_singleton.1 ha]
      exact from_item .std140

theorem boolDef_ok (l : Layout) : ImplOk (view f) (boolDef l) := by
  refine plain_ok (ty_ok (by decide)) fun a ha => ?_
  simp only [List.mem_cons, List.not_mem_nil, or_false] at ha
  rcases ha with rfl | rfl | rfl
  · intro u hu
    injection hu with hu
    subst hu
    exact ty_ok (by decide)
  · refine ⟨selfOutput_ok _, fun b hb => ?_⟩
    injection hb with hb
    subst hb
    simp only [ExprOk, StmtsOk, ExprsOk, true_or, and_self]
  · refine ⟨self_ok _, fun b hb => ?_⟩
    injection hb with hb
    subst hb
    simp only [ExprOk, StmtsOk, ExprsOk, true_or, and_self]

/-- The library of a math type is on. -/
def LibOn (f : Features) (m : MathTy) : Prop := offLib f (libName m.lib) = false

theorem mathName_fine (m : MathTy) : Fine f (mathName m) := by
  obtain ⟨lib, kind, s, d⟩ := m
  refine fine_of ?_
  cases lib <;> cases kind <;> (unfold mathName; dsimp only; split <;> decide +kernel)

theorem math_ok {m : MathTy} (h : LibOn f m) (md : String) : TyOk (view f) md (mathRustTy m) := by
  unfold mathRustTy TyOk
  refine ⟨fun x hx => ?_, ?_⟩
  · simp only [List.mem_cons, List.not_mem_nil, or_false] at hx
    rcases hx with rfl | rfl
    · refine ⟨?_, h⟩
      obtain ⟨lib, kind, s, d⟩ := m
      dsimp only
      unfold gone
      cases f.std <;> cases lib <;> decide
    · exact mathName_fine m
  · unfold TysOk
    refine ⟨ty_ok ?_, by unfold TysOk; trivial⟩
    cases m.scalar <;> decide

theorem zeroed_ok (m : String) : ExprOk (view f) m (.call (.path (.path ["bytemuck", "Zeroable", "zeroed"] [])) []) := by
  simp only [ExprOk, ExprsOk, CalleeOk, and_true]
  exact ⟨⟨fine_all (by decide), fun h => absurd h (by decide)⟩, fun h => by cases h⟩

theorem exprs_map {α : Type} {m : String} {xs : List α} {e : α → Expr} (h : ∀ x, ExprOk (view f) m (e x)) :
    ExprsOk (view f) m (xs.map e) := by
  rw [exprsOk_iff]
  intro a ha
  obtain ⟨x, -, rfl⟩ := List.mem_map.1 ha
  exact h x

theorem easyAssoc_ok {l : Layout} {stdName : String} (hn : Fine f stdName) (fields : List String) (m : String) :
    ∀ a ∈ easyAssoc l stdName fields, AssocOk (view f) m a := by
  have hp : TyOk (view f) m (inMod l stdName) := by
    unfold inMod TyOk
    refine ⟨fun x hx => ?_, by unfold TysOk; trivial⟩
    simp only [List.mem_cons, List.not_mem_nil, or_false] at hx
    rcases hx with rfl | rfl | rfl
    · fine
    · cases l <;> fine
    · exact hn
  intro a ha
  simp only [easyAssoc, List.mem_cons, List.not_mem_nil, or_false] at ha
  rcases ha with rfl | rfl | rfl
  · intro u hu
    injection hu with hu
    subst hu
    exact hp
  · refine ⟨selfOutput_ok _, fun b hb => ?_⟩
    injection hb with hb
    subst hb
    unfold easyAs ExprOk
    refine ⟨by unfold StmtsOk; trivial, ?_⟩
    unfold ExprOk
    refine ⟨hp, exprs_map fun x => ?_, zeroed_ok m⟩
    simp only [ExprOk, ExprsOk, true_and, and_true]
    exact .inr (as_item l)
  · refine ⟨self_ok _, fun b hb => ?_⟩
    injection hb with hb
    subst hb
    unfold easyFrom ExprOk
    refine ⟨by unfold StmtsOk; trivial, ?_⟩
    unfold ExprOk
    refine ⟨self_ok _, exprs_map fun x => ?_⟩
    simp only [ExprOk, ExprsOk, CalleeOk, CalledOk, PathOk, implies_true, and_true]
    refine ⟨ty_ok (by decide), asVia l m, fun a ha => ?_⟩
    rw [List.mem_singleton.1 ha]
    exact from_item l

theorem easyDef_ok {l : Layout} {r : EasyRow} (h : LibOn f r.ty) (hn : Fine f r.stdName) : ImplOk (view f) (easyDef l r) :=
  plain_ok (math_ok h _) (easyAssoc_ok hn _ _)

theorem mintyAssoc_ok {l : Layout} {mint : RustCode.Ty} {m : String} (hm : TyOk (view f) m mint) :
    ∀ a ∈ mintyAssoc l mint, AssocOk (view f) m a := by
  intro a ha
  simp only [mintyAssoc, List.mem_cons, List.not_mem_nil, or_false] at ha
  rcases ha with rfl | rfl | rfl
  · intro u hu
    injection hu with hu
    subst hu
    unfold TyOk
    exact ⟨hm, asVia l m⟩
  · refine ⟨selfOutput_ok _, fun b hb => ?_⟩
    injection hb with hb
    subst hb
    simp only [ExprOk, StmtsOk, StmtOk, ExprsOk, true_or, true_and, and_true]
    exact ⟨hm, .inr (as_item l)⟩
  · refine ⟨self_ok _, fun b hb => ?_⟩
    injection hb with hb
    subst hb
    simp only [ExprOk, StmtsOk, ExprsOk, CalleeOk, CalledOk, PathOk, implies_true, true_or, true_and, and_true]
    refine ⟨hm, by unfold ViaOk; trivial, fun a ha => ?_⟩
    rw [List.mem_singleton.1 ha]
    exact from_item l

theorem mintyDef_ok {l : Layout} {r : MintyRow} (h : LibOn f r.mint) (hf : TyOk (view f) "imp" (foreignRustTy r.foreign)) :
    ImplOk (view f) (mintyDef l r) :=
  plain_ok hf (mintyAssoc_ok (math_ok h _))

theorem alignDef_ok {l : Layout} {t : String} {n : Nat} (h : Fine f t) : ImplOk (view f) (alignDef l t n) := by
  refine plain_ok ?_ fun a ha => ?_
  · unfold TyOk
    refine ⟨fun y hy => ?_, by unfold TysOk; trivial⟩
    rw [List.mem_singleton.1 hy]
    exact h
  · rw [List.mem_singleton.1 ha]
    intro u hu
    injection hu with hu
    subst hu
    unfold ExprOk
    trivial

theorem fineTy {m x : String} (h : Fine f x) : TyOk (view f) m (ty x) := by
  unfold TyOk
  refine ⟨fun y hy => ?_, by unfold TysOk; trivial⟩
  rw [List.mem_singleton.1 hy]
  exact h

theorem dynamicStdDef_ok : ImplOk (view f) dynamicStdDef where
  self := path_ok (by decide) (by simp only [TysOk, and_true]; exact ty_ok (by decide))
  args := by unfold dynamicStdDef TysOk; trivial
  bounds := by
    intro b hb
    rw [List.mem_singleton.1 hb]
    refine ⟨ty_ok (by decide), fun t ht => ?_⟩
    rw [List.mem_singleton.1 ht]
    exact stdVia .std140
  items := by
    intro a ha
    rw [List.mem_singleton.1 ha]
    intro u hu
    injection hu with hu
    subst hu
    simp only [ExprOk, ExprsOk, CalleeOk, CalledOk, PathOk, implies_true, true_and, and_true]
    refine ⟨fine_all (by decide), fine_all (by decide), fun x hx => ?_⟩
    injection hx with hx
    subst hx
    show _ ∈ coreAssoc
    decide

theorem dynamicPodDef_ok {t : String} (ht : t = "Zeroable" ∨ t = "Pod") : ImplOk (view f) (dynamicPodDef t) where
  self := path_ok (by decide) (by simp only [TysOk, and_true]; exact ty_ok (by decide))
  args := by unfold dynamicPodDef TysOk; trivial
  bounds := by
    intro b hb
    rw [List.mem_singleton.1 hb]
    refine ⟨ty_ok (by decide), fun u hu => ?_⟩
    rw [List.mem_singleton.1 hu]
    rcases ht with rfl | rfl
    · exact via_ok (q := ["Zeroable"]) (by decide) (by kernel_rfl) (by decide)
    · exact via_ok (q := ["Pod"]) (by decide) (by kernel_rfl) (by decide)
  items := fun a ha => by cases ha

theorem name_ok {m : String} {e : Expr} (h : ExprOk (view f) m e) : ∀ a ∈ nameItems e, AssocOk (view f) m a := by
  intro a ha
  rw [List.mem_singleton.1 ha]
  intro u hu
  injection hu with hu
  subst hu
  exact h

theorem prims_fine {l : Layout} {n : String} (h : n ∈ primNames l) : Fine f n := by
  have : ∀ l, ∀ n ∈ primNames l,
      ["WriteStd140", "WriteStd430", "Writer", "GlslStruct", "cgmath", "glam", "nalgebra"].contains n = false := by
    intro l
    cases l <;> decide +kernel
  exact fine_of (this l n h)

theorem easyName_ok {r : EasyRow} (h : LibOn f r.ty) (hn : Fine f r.stdName) : ImplOk (view f) (easyName r) := by
  refine plain_ok (math_ok h _) (name_ok ?_)
  simp only [ExprOk, PathOk]
  refine ⟨fun x hx => ?_, fun x hx => ?_⟩
  · simp only [List.dropLast, List.mem_cons, List.not_mem_nil, or_false] at hx
    rcases hx with rfl | rfl | rfl
    · fine
    · fine
    · exact hn
  · injection hx with hx
    subst hx
    exact name_item

theorem mintyName_ok {r : MintyRow} (h : LibOn f r.mint) (hf : TyOk (view f) "imp" (foreignRustTy r.foreign)) :
    ImplOk (view f) (mintyName r) := by
  refine plain_ok hf (name_ok ?_)
  simp only [ExprOk, PathOk]
  refine ⟨math_ok h _, by unfold ViaOk; trivial, fun a ha => ?_⟩
  rw [List.mem_singleton.1 ha]
  exact name_item

end Crevice.Tables
