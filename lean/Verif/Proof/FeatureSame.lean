import Verif.Proof.FeatureView
import Verif.Proof.TextOnly
/-
With any set of features the text says the same about what may be mentioned.
-/
namespace Crevice.Tables
open RustCode RustTypes TypeNames

variable {f : Features}

/-- The implementations of a trait that are there with the given features. -/
def keep (f : Features) (i : ImplDef) : Bool :=
  match i.self with
  | .path (x :: _) _ => !offLib f x
  | _ => true

/-- The library of a row of `minty_impl!`. -/
def foreignLib (s : String) : String := String.ofList (s.toList.takeWhile (· != ':'))

theorem keep_math (m : MathTy) (d : RustCode.Ty → ImplDef) (hd : ∀ t, (d t).self = t) :
    keep f (d (mathRustTy m)) = !offLib f (libName m.lib) := by
  unfold keep
  rw [hd]
  rfl

theorem keep_foreign (s : String) (d : RustCode.Ty → ImplDef) (hd : ∀ t, (d t).self = t) :
    keep f (d (foreignRustTy s)) = !offLib f (foreignLib s) := by
  unfold keep
  rw [hd]
  rfl

/-- A name that no feature takes away. -/
def Always (x : String) : Bool :=
  !["WriteStd140", "WriteStd430", "Writer", "GlslStruct", "cgmath", "glam", "nalgebra"].contains x

/-- The type that an implementation is for begins with a name that no feature takes away. -/
def alwaysSelf (i : ImplDef) : Bool :=
  match i.self with
  | .path (x :: _) _ => Always x
  | _ => true

theorem always_fine {x : String} (h : Always x = true) : Fine f x := fine_of (by simpa [Always] using h)

theorem keep_always {i : ImplDef} (h : alwaysSelf i = true) : keep f i = true := by
  unfold keep alwaysSelf at *
  split
  · next hx =>
    rw [hx] at h
    rw [(always_fine (f := f) h).2]
    rfl
  · rfl

theorem filter_always {is : List ImplDef} (h : is.all alwaysSelf = true) : is.filter (keep f) = is :=
  List.filter_eq_self.2 fun i hi => keep_always (List.all_eq_true.1 h i hi)

theorem filter_easy {d : EasyRow → ImplDef} (hd : ∀ r, (d r).self = mathRustTy r.ty) :
    (easyRows.map d).filter (keep f) = (easyWith f).map d := by
  have hk : ∀ r, keep f (d r) = !offLib f (libName r.ty.lib) := by
    intro r
    unfold keep
    rw [hd]
    rfl
  have hm : ∀ r ∈ mintRows, r.ty.lib = .mint := by decide +kernel
  have hc : ∀ r ∈ cgmathRows, r.ty.lib = .cgmath := by decide +kernel
  have h1 : (mintRows.map d).filter (keep f) = mintRows.map d := by
    refine List.filter_eq_self.2 fun i hi => ?_
    obtain ⟨r, hr, rfl⟩ := List.mem_map.1 hi
    rw [hk, hm r hr]
    rfl
  have h2 : (cgmathRows.map d).filter (keep f) = (if f.cgmath then cgmathRows else []).map d := by
    split
    · next h =>
      refine List.filter_eq_self.2 fun i hi => ?_
      obtain ⟨r, hr, rfl⟩ := List.mem_map.1 hi
      rw [hk, hc r hr]
      simp [offLib, libName, h]
    · next h =>
      refine List.filter_eq_nil_iff.2 fun i hi => ?_
      obtain ⟨r, hr, rfl⟩ := List.mem_map.1 hi
      rw [hk, hc r hr]
      simp [offLib, libName, h]
  unfold easyRows easyWith
  rw [List.map_append, List.filter_append, h1, h2, List.map_append]

theorem filter_minty {d : MintyRow → ImplDef} (hd : ∀ r, (d r).self = foreignRustTy r.foreign) :
    (mintyRows.map d).filter (keep f) = (mintyWith f).map d := by
  have hk : ∀ r, keep f (d r) = !offLib f (foreignLib r.foreign) := by
    intro r
    unfold keep
    rw [hd]
    rfl
  have hm : ∀ r ∈ glamRows, foreignLib r.foreign = "glam" := by decide +kernel
  have hc : ∀ r ∈ nalgebraRows, foreignLib r.foreign = "nalgebra" := by decide +kernel
  have h1 : (glamRows.map d).filter (keep f) = (if f.glam then glamRows else []).map d := by
    split
    · next h =>
      refine List.filter_eq_self.2 fun i hi => ?_
      obtain ⟨r, hr, rfl⟩ := List.mem_map.1 hi
      rw [hk, hm r hr]
      simp [offLib, h]
    · next h =>
      refine List.filter_eq_nil_iff.2 fun i hi => ?_
      obtain ⟨r, hr, rfl⟩ := List.mem_map.1 hi
      rw [hk, hm r hr]
      simp [offLib, h]
  have h2 : (nalgebraRows.map d).filter (keep f) = (if f.nalgebra then nalgebraRows else []).map d := by
    split
    · next h =>
      refine List.filter_eq_self.2 fun i hi => ?_
      obtain ⟨r, hr, rfl⟩ := List.mem_map.1 hi
      rw [hk, hc r hr]
      simp [offLib, h]
    · next h =>
      refine List.filter_eq_nil_iff.2 fun i hi => ?_
      obtain ⟨r, hr, rfl⟩ := List.mem_map.1 hi
      rw [hk, hc r hr]
      simp [offLib, h]
  unfold mintyRows mintyWith
  rw [List.map_append, List.filter_append, h1, h2, List.map_append]

theorem asDefs_split (l : Layout) : asDefs l = asCore l ++ (easyRows.map (easyDef l) ++ mintyRows.map (mintyDef l)) := by
  unfold asDefs asCore
  rw [← List.append_assoc]
  rfl

theorem glslDefs_split : glslDefs = glslCore ++ (easyRows.map easyName ++ mintyRows.map mintyName) := by
  unfold glslDefs glslCore easyName mintyName
  simp only [List.append_assoc]

theorem impls_filter {t : List String} (ht : t ∈ coreTraits) : (indexWith f).impls t = (jx.impls t).filter (keep f) := by
  have hc : ∀ {is : List ImplDef}, is.all alwaysSelf = true → is ++ [] = is.filter (keep f) := by
    intro is h
    rw [filter_always h, List.append_nil]
  have has : ∀ l, asCore l ++ ((easyWith f).map (easyDef l) ++ (mintyWith f).map (mintyDef l)) =
      (asDefs l).filter (keep f) := by
    intro l
    rw [asDefs_split, List.filter_append, List.filter_append, filter_easy (fun _ => rfl), filter_minty (fun _ => rfl),
      filter_always (by cases l <;> decide +kernel)]
  rw [with_impls_eq]
  simp only [coreTraits, List.mem_cons, List.not_mem_nil, or_false] at ht
  rcases ht with rfl | rfl | rfl | rfl | rfl | rfl | rfl | rfl | rfl | rfl | rfl
  · rw [show (coreIndex f.std).impls ["std140", "AsStd140"] = asCore .std140 from core_as f.std .std140]
    exact has .std140
  · rw [show (coreIndex f.std).impls ["std430", "AsStd430"] = asCore .std430 from core_as f.std .std430]
    exact has .std430
  · rw [show (coreIndex f.std).impls ["std140", "Std140"] = stdDefs .std140 from core_std f.std .std140]
    exact hc (by decide +kernel)
  · rw [show (coreIndex f.std).impls ["std430", "Std430"] = stdDefs .std430 from core_std f.std .std430]
    exact hc (by decide +kernel)
  · rw [core_zeroable]
    exact hc (by decide +kernel)
  · rw [core_pod]
    exact hc (by decide +kernel)
  · rw [core_copy]
    exact hc (by decide +kernel)
  · rw [core_clone]
    exact hc (by decide +kernel)
  · rw [core_debug]
    exact hc (by decide +kernel)
  · rw [core_glsl]
    show glslCore ++ ((easyWith f).map easyName ++ (mintyWith f).map mintyName) = glslDefs.filter (keep f)
    rw [glslDefs_split, List.filter_append, List.filter_append, filter_easy (fun _ => rfl), filter_minty (fun _ => rfl),
      filter_always (by decide +kernel)]
  · rw [core_from]
    exact hc (by decide +kernel)

/-! ### Implementations that are there -/

theorem easy_std_fine {r : EasyRow} (hr : r ∈ easyRows) : Fine f r.stdName := by
  have : ∀ r ∈ easyRows, Always r.stdName = true := by decide +kernel
  exact always_fine (this r hr)

theorem minty_mint_on {r : MintyRow} (hr : r ∈ mintyRows) : LibOn f r.mint := by
  have : ∀ r ∈ mintyRows, r.mint.lib = .mint := by decide +kernel
  unfold LibOn
  rw [this r hr]
  rfl

/-- The names in a type that is a path with at most one argument. -/
def namesOf : RustCode.Ty → List String
  | .path p args => p ++ args.flatMap fun a => match a with | .path q _ => q | _ => []
  | _ => []

theorem foreign_ok {r : MintyRow} (hr : r ∈ mintyRows) (h : offLib f (foreignLib r.foreign) = false) (m : String) :
    TyOk (view f) m (foreignRustTy r.foreign) := by
  have h1 : ∀ r ∈ mintyRows, (namesOf (foreignRustTy r.foreign)).tail.all Always = true := by decide +kernel
  have h2 : ∀ r ∈ mintyRows, foreignLib r.foreign = "glam" ∨ foreignLib r.foreign = "nalgebra" := by decide +kernel
  have h3 := List.all_eq_true.1 (h1 r hr)
  have hl : Fine f (foreignLib r.foreign) := by
    refine ⟨?_, h⟩
    unfold gone
    rcases h2 r hr with e | e <;> rw [e] <;> cases f.std <;> decide
  unfold foreignRustTy at h3 ⊢
  dsimp only at h3 ⊢
  unfold TyOk
  refine ⟨fun x hx => ?_, ?_⟩
  · simp only [List.mem_cons, List.not_mem_nil, or_false] at hx
    rcases hx with rfl | rfl
    · exact hl
    · exact always_fine (h3 _ (by simp [namesOf]))
  · split
    · unfold TysOk
      trivial
    · next hne =>
      rw [if_neg hne] at h3
      unfold TysOk
      exact ⟨fineTy (always_fine (h3 _ (by simp [namesOf]))), by unfold TysOk; trivial⟩

theorem fineSelf {m x : String} {items : List Assoc} (h : Always x = true) (hi : ∀ a ∈ items, AssocOk (view f) m a) :
    ImplOk (view f) (plainDef m (ty x) items) := plain_ok (fineTy (always_fine h)) hi

theorem prims_always {l : Layout} {n : String} (h : n ∈ primNames l) : Always n = true := by
  have : ∀ l, ∀ n ∈ primNames l, Always n = true := by
    intro l
    cases l <;> decide +kernel
  exact this l n h

theorem podDefs_ok {t : String} (ht : t = "Zeroable" ∨ t = "Pod") : ∀ i ∈ podDefs t, ImplOk (view f) i := by
  intro i hi
  unfold podDefs at hi
  simp only [List.mem_append, List.mem_map, List.mem_singleton] at hi
  have no : ∀ m, ∀ a ∈ ([] : List Assoc), AssocOk (view f) m a := fun m a ha => by cases ha
  rcases hi with ((rfl | ⟨n, hn, rfl⟩) | ⟨n, hn, rfl⟩) | rfl
  · exact dynamicPodDef_ok ht
  · exact fineSelf (prims_always hn) (no _)
  · exact fineSelf (prims_always hn) (no _)
  · exact fineSelf (by decide) (no _)

theorem stdDefs_ok (l : Layout) : ∀ i ∈ stdDefs l, ImplOk (view f) i := by
  intro i hi
  unfold stdDefs at hi
  simp only [List.mem_append, List.mem_map] at hi
  rcases hi with ((hi | hi) | ⟨r, hr, rfl⟩) | ⟨r, hr, rfl⟩
  · cases l with
    | std140 =>
      rw [List.mem_singleton.1 hi]
      exact dynamicStdDef_ok
    | std430 => cases hi
  · simp only [List.mem_cons, List.not_mem_nil, or_false] at hi
    rcases hi with rfl | rfl | rfl | rfl | rfl <;> exact alignDef_ok (fine_of (by decide))
  · exact alignDef_ok (prims_fine (l := l) (List.mem_append_left _ (List.mem_map_of_mem hr)))
  · exact alignDef_ok (prims_fine (l := l) (List.mem_append_right _ (List.mem_map_of_mem hr)))

theorem glslPrims_ok (l : Layout) : ∀ i ∈ glslPrimDefs l, ImplOk (view f) i := by
  intro i hi
  obtain ⟨r, hr, rfl⟩ := List.mem_map.1 hi
  have : r.1 ∈ primNames l := by
    unfold primNames
    rcases List.mem_append.1 hr with hr | hr
    · obtain ⟨v, hv, rfl⟩ := List.mem_map.1 hr
      exact List.mem_append_left _ (List.mem_map_of_mem hv)
    · obtain ⟨v, hv, rfl⟩ := List.mem_map.1 hr
      exact List.mem_append_right _ (List.mem_map_of_mem hv)
  refine fineSelf (prims_always this) (name_ok ?_)
  unfold ExprOk
  trivial

theorem from_ok : ∀ i ∈ fromDefs, ImplOk (view f) i := by
  intro i hi
  simp only [fromDefs, List.mem_cons, List.not_mem_nil, or_false] at hi
  rcases hi with rfl | rfl
  · refine ⟨ty_ok (by decide), ?_, (fun b hb => by cases hb), fun a ha => ?_⟩
    · simp only [plainDef, TysOk, and_true]
      exact ty_ok (by decide)
    · rw [List.mem_singleton.1 ha]
      refine ⟨ty_ok (by decide), fun b hb => ?_⟩
      injection hb with hb
      subst hb
      simp only [ExprOk, StmtsOk, ExprsOk, CalleeOk, CalledOk, implies_true, true_and, and_true]
      exact ⟨fine_all (by decide), ty_ok (by decide)⟩
  · refine ⟨ty_ok (by decide), ?_, (fun b hb => by cases hb), fun a ha => ?_⟩
    · simp only [plainDef, TysOk, and_true]
      exact ty_ok (by decide)
    · rw [List.mem_singleton.1 ha]
      refine ⟨ty_ok (by decide), fun b hb => ?_⟩
      injection hb with hb
      subst hb
      simp only [ExprOk, StmtsOk, and_self]

/-- What is there can be mentioned, and what is not there is for types that cannot be mentioned. -/
def Kept (f : Features) (i : ImplDef) : Prop :=
  (keep f i = true → ImplOk (view f) i) ∧
    (keep f i = false → ∀ c, COk (view f) c → matchTy jx.names i.module i.params i.self c = none)

theorem kept_ok {i : ImplDef} (hk : alwaysSelf i = true) (h : ImplOk (view f) i) : Kept f i :=
  ⟨fun _ => h, fun hn => by rw [keep_always hk] at hn; cases hn⟩

theorem kept_row {i : ImplDef} {lib name : String} {args : List RustCode.Ty} (hp : i.params = [])
    (hs : i.self = .path [lib, name] args) (h : offLib f lib = false → ImplOk (view f) i) : Kept f i := by
  have hk : keep f i = !offLib f lib := by
    unfold keep
    rw [hs]
  refine ⟨fun e => h (by rw [hk] at e; simpa using e), fun e c hc => ?_⟩
  rw [hk] at e
  have e : offLib f lib = true := by simpa using e
  rw [hp, hs]
  cases hm : matchTy jx.names i.module [] (.path [lib, name] args) c with
  | none => rfl
  | some a =>
    obtain ⟨q, cs, hq, rfl, -⟩ := match_plain hm
    injection hq with hq
    subst hq
    unfold COk at hc
    have := (hc.1 lib (by simp)).2
    rw [e] at this
    cases this

theorem easy_kept {d : EasyRow → ImplDef} (hp : ∀ r, (d r).params = []) (hs : ∀ r, (d r).self = mathRustTy r.ty)
    (h : ∀ r ∈ easyRows, LibOn f r.ty → ImplOk (view f) (d r)) : ∀ i ∈ easyRows.map d, Kept f i := by
  intro i hi
  obtain ⟨r, hr, rfl⟩ := List.mem_map.1 hi
  exact kept_row (hp r) (hs r) (h r hr)

theorem minty_kept {d : MintyRow → ImplDef} (hp : ∀ r, (d r).params = []) (hs : ∀ r, (d r).self = foreignRustTy r.foreign)
    (h : ∀ r ∈ mintyRows, TyOk (view f) "imp" (foreignRustTy r.foreign) → ImplOk (view f) (d r)) :
    ∀ i ∈ mintyRows.map d, Kept f i := by
  intro i hi
  obtain ⟨r, hr, rfl⟩ := List.mem_map.1 hi
  exact kept_row (hp r) (hs r) fun e => h r hr (foreign_ok hr e _)

theorem core_kept {is : List ImplDef} (h : is.all alwaysSelf = true) (ho : ∀ i ∈ is, ImplOk (view f) i) :
    ∀ i ∈ is, Kept f i := fun i hi => kept_ok (List.all_eq_true.1 h i hi) (ho i hi)

theorem as_kept (l : Layout) : ∀ i ∈ asDefs l, Kept f i := by
  rw [asDefs_split]
  intro i hi
  rcases List.mem_append.1 hi with hi | hi
  · refine core_kept (is := asCore l) (by cases l <;> decide +kernel) (fun i hi => ?_) i hi
    unfold asCore at hi
    simp only [List.mem_append, List.mem_singleton] at hi
    rcases hi with (rfl | hi) | rfl
    · exact blanket_ok l
    · cases l with
      | std140 =>
        rw [List.mem_singleton.1 hi]
        exact dynamic_ok
      | std430 => cases hi
    · exact boolDef_ok l
  rcases List.mem_append.1 hi with hi | hi
  · exact easy_kept (fun _ => rfl) (fun _ => rfl) (fun r hr h => easyDef_ok h (easy_std_fine hr)) i hi
  · exact minty_kept (fun _ => rfl) (fun _ => rfl) (fun r hr h => mintyDef_ok (minty_mint_on hr) h) i hi

theorem glsl_kept : ∀ i ∈ glslDefs, Kept f i := by
  rw [glslDefs_split]
  intro i hi
  rcases List.mem_append.1 hi with hi | hi
  · refine core_kept (is := glslCore) (by decide +kernel) (fun i hi => ?_) i hi
    unfold glslCore at hi
    rcases List.mem_append.1 hi with hi | hi
    · rcases List.mem_append.1 hi with hi | hi
      · exact glslPrims_ok .std140 i hi
      · exact glslPrims_ok .std430 i hi
    · obtain ⟨r, hr, rfl⟩ := List.mem_map.1 hi
      simp only [List.mem_cons, List.not_mem_nil, or_false] at hr
      have str : ∀ s, ∀ a ∈ nameItems (.str s), AssocOk (view f) "glsl" a :=
        fun s => name_ok (by unfold ExprOk; trivial)
      rcases hr with rfl | rfl | rfl | rfl <;> exact fineSelf (by decide) (str _)
  rcases List.mem_append.1 hi with hi | hi
  · exact easy_kept (fun _ => rfl) (fun _ => rfl) (fun r hr h => easyName_ok h (easy_std_fine hr)) i hi
  · exact minty_kept (fun _ => rfl) (fun _ => rfl) (fun r hr h => mintyName_ok (minty_mint_on hr) h) i hi

theorem impls_kept {t : List String} (ht : t ∈ coreTraits) : ∀ i ∈ jx.impls t, Kept f i := by
  simp only [coreTraits, List.mem_cons, List.not_mem_nil, or_false] at ht
  rcases ht with rfl | rfl | rfl | rfl | rfl | rfl | rfl | rfl | rfl | rfl | rfl
  · exact as_kept .std140
  · exact as_kept .std430
  · exact core_kept (is := stdDefs .std140) (by decide +kernel) (stdDefs_ok .std140)
  · exact core_kept (is := stdDefs .std430) (by decide +kernel) (stdDefs_ok .std430)
  · exact core_kept (is := podDefs "Zeroable") (by decide +kernel) (podDefs_ok (.inl rfl))
  · exact core_kept (is := podDefs "Pod") (by decide +kernel) (podDefs_ok (.inr rfl))
  · exact fun i hi => by cases hi
  · exact fun i hi => by cases hi
  · refine core_kept (is := [plainDef "bool" (ty "Bool") [.fn Parsed.bool7_fmt]]) (by decide +kernel) fun i hi => ?_
    rw [List.mem_singleton.1 hi]
    refine fineSelf (by decide) fun a ha => ?_
    rw [List.mem_singleton.1 ha]
    refine ⟨path_ok (by decide) (by unfold TysOk; trivial), fun b hb => ?_⟩
    injection hb with hb
    subst hb
    simp only [ExprOk, StmtsOk, and_self]
  · exact glsl_kept
  · exact core_kept (is := fromDefs) (by decide +kernel) from_ok

end Crevice.Tables
