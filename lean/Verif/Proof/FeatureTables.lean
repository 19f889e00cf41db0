import Verif.Proof.FeatureIndex
import Verif.Proof.Conserve
/-
The items of the crate with any set of features, as tables.
-/
namespace Crevice.Tables
open RustCode RustTypes TypeNames

/-- What is only there with `std`. -/
def gone (b : Bool) : List String := if b then [] else ["WriteStd140", "WriteStd430", "Writer", "GlslStruct"]

/-- The names that the modules declare. -/
def namesWith (b : Bool) : List (String × List String) :=
  theNames.map fun n => (n.1, n.2.filter fun x => !(gone b).contains x)

/-- The items of the modules other than `imp`, sorted. -/
def coreIndex (b : Bool) : Index := indexItems (coreModules b ++ [("imp", [])])

theorem core_names (b : Bool) : (coreIndex b).names = namesWith b := by cases b <;> kernel_rfl

theorem core_structs (b : Bool) :
    (coreIndex b).structs = theStructs.filter fun s => !s.1.any (gone b).contains := by cases b <;> kernel_rfl

theorem core_owners (b : Bool) :
    (coreIndex b).owners = theOwners.filter fun s => !s.2.any (gone b).contains := by cases b <;> kernel_rfl

theorem core_fns (b : Bool) : (coreIndex b).fns = theFns := by cases b <;> kernel_rfl

/-- The implementations of `AsStdN` outside of `imp`. -/
def asCore (l : Layout) : List ImplDef :=
  [blanketDef l] ++ (match l with | .std140 => [dynamicDef] | .std430 => []) ++ [boolDef l]

/-- The implementations of `Glsl` outside of `imp`. -/
def glslCore : List ImplDef :=
  glslPrimDefs .std140 ++ glslPrimDefs .std430 ++
    [("f32", "float"), ("f64", "double"), ("i32", "int"), ("u32", "uint")].map (fun r =>
      plainDef "glsl" (ty r.1) (nameItems (.str r.2)))

/-- The implementation of `Glsl` for a row of `easy_impl!`. -/
def easyName (r : EasyRow) : ImplDef :=
  plainDef "imp" (mathRustTy r.ty) (nameItems (.path (.path ["crate", "std140", r.stdName, "NAME"] [])))

/-- The implementation of `Glsl` for a row of `minty_impl!`. -/
def mintyName (r : MintyRow) : ImplDef :=
  plainDef "imp" (foreignRustTy r.foreign) (nameItems (.path (.proj (mathRustTy r.mint) .unit ["NAME"])))

theorem core_as (b : Bool) (l : Layout) : (coreIndex b).impls [mod l, asTrait l] = asCore l := by
  cases b <;> cases l <;> kernel_rfl

theorem core_std (b : Bool) (l : Layout) : (coreIndex b).impls [mod l, stdTrait l] = stdDefs l := by
  cases b <;> cases l <;> kernel_rfl

theorem core_zeroable (b : Bool) : (coreIndex b).impls ["Zeroable"] = podDefs "Zeroable" := by cases b <;> kernel_rfl
theorem core_pod (b : Bool) : (coreIndex b).impls ["Pod"] = podDefs "Pod" := by cases b <;> kernel_rfl
theorem core_copy (b : Bool) : (coreIndex b).impls ["Copy"] = [] := by cases b <;> kernel_rfl
theorem core_clone (b : Bool) : (coreIndex b).impls ["Clone"] = [] := by cases b <;> kernel_rfl
theorem core_debug (b : Bool) :
    (coreIndex b).impls ["Debug"] = [plainDef "bool" (ty "Bool") [.fn Parsed.bool7_fmt]] := by cases b <;> kernel_rfl
theorem core_glsl (b : Bool) : (coreIndex b).impls ["glsl", "Glsl"] = glslCore := by cases b <;> kernel_rfl
theorem core_from (b : Bool) : (coreIndex b).impls ["From"] = fromDefs := by cases b <;> kernel_rfl

/-- The items of the crate with the given features, sorted. -/
def indexWith (f : Features) : Index := indexItems (crateModulesWith f)

/-- The items of `imp`. -/
abbrev impItems (f : Features) : List Item := (easyWith f).flatMap easyItems ++ (mintyWith f).flatMap mintyItems

theorem imp_declared (f : Features) : (impItems f).filterMap declared = [] := by
  rw [List.filterMap_eq_nil_iff]
  intro i hi
  rcases List.mem_append.1 hi with hi | hi
  · obtain ⟨r, -, hr⟩ := List.mem_flatMap.1 hi
    simp only [easyItems, easyConv, List.mem_cons, List.not_mem_nil, or_false] at hr
    rcases hr with rfl | rfl | rfl <;> rfl
  · obtain ⟨r, -, hr⟩ := List.mem_flatMap.1 hi
    simp only [mintyItems, mintyConv, List.mem_cons, List.not_mem_nil, or_false] at hr
    rcases hr with rfl | rfl | rfl <;> rfl

theorem imp_impl (f : Features) : ∀ i ∈ impItems f, ∃ g via self as, i = .impl g via self as := by
  intro i hi
  rcases List.mem_append.1 hi with hi | hi
  · obtain ⟨r, -, hr⟩ := List.mem_flatMap.1 hi
    simp only [easyItems, easyConv, List.mem_cons, List.not_mem_nil, or_false] at hr
    rcases hr with rfl | rfl | rfl <;> exact ⟨_, _, _, _, rfl⟩
  · obtain ⟨r, -, hr⟩ := List.mem_flatMap.1 hi
    simp only [mintyItems, mintyConv, List.mem_cons, List.not_mem_nil, or_false] at hr
    rcases hr with rfl | rfl | rfl <;> exact ⟨_, _, _, _, rfl⟩

theorem with_names (f : Features) : (indexWith f).names = namesWith f.std := by
  rw [← core_names]
  unfold indexWith coreIndex indexItems
  rw [modules_eq]
  simp only [List.map_append, List.map_cons, List.map_nil, imp_declared, List.filterMap_nil]

theorem with_structs (f : Features) :
    (indexWith f).structs = theStructs.filter fun s => !s.1.any (gone f.std).contains := by
  rw [← core_structs]
  unfold indexWith coreIndex indexItems
  rw [modules_eq]
  simp only [List.flatMap_append, List.flatMap_cons, List.flatMap_nil, List.append_nil, List.filterMap_append, List.map_nil,
    List.filterMap_nil, List.append_right_eq_self]
  rw [List.filterMap_eq_nil_iff]
  intro x hx
  obtain ⟨i, hi, rfl⟩ := List.mem_map.1 hx
  obtain ⟨g, via, self, as, rfl⟩ := imp_impl f i hi
  rfl

theorem with_owners (f : Features) :
    (indexWith f).owners = theOwners.filter fun s => !s.2.any (gone f.std).contains := by
  rw [← core_owners]
  unfold indexWith coreIndex indexItems
  rw [modules_eq]
  simp only [List.flatMap_append, List.flatMap_cons, List.flatMap_nil, List.append_nil, List.map_nil,
    List.append_right_eq_self]
  rw [List.flatMap_eq_nil_iff]
  intro x hx
  obtain ⟨i, hi, rfl⟩ := List.mem_map.1 hx
  obtain ⟨g, via, self, as, rfl⟩ := imp_impl f i hi
  rfl

theorem with_fns (f : Features) : (indexWith f).fns = theFns := by
  rw [← core_fns f.std]
  unfold indexWith coreIndex indexItems
  rw [modules_eq]
  simp only [List.flatMap_append, List.flatMap_cons, List.flatMap_nil, List.append_nil, List.filterMap_append, List.map_nil,
    List.filterMap_nil, List.append_right_eq_self]
  rw [List.filterMap_eq_nil_iff]
  intro x hx
  obtain ⟨i, hi, rfl⟩ := List.mem_map.1 hx
  obtain ⟨g, via, self, as, rfl⟩ := imp_impl f i hi
  rfl

/-- The implementation of a trait that an item is. -/
def implOf (names : List (String × List String)) (m : String) (trait : List String) : Item → Option ImplDef
  | .impl g via self as => (implTrait names m via).bind fun t =>
    if t.1 = trait then
      some { module := m, traitArgs := t.2, params := g.types, bounds := g.bounds, self := self, items := as }
    else none
  | _ => none

theorem impls_flat (ms : List (String × List Item)) (t : List String) : (indexItems ms).impls t =
    ms.flatMap fun m => m.2.filterMap (implOf (indexItems ms).names m.1 t) := by
  have e : ∀ (ms : List (String × List Item)) (names : List (String × List String)),
      ((ms.flatMap fun m => m.2.map fun i => (m.1, i)).filterMap fun i =>
        match i.2 with
        | .impl g via self as => (implTrait names i.1 via).bind fun t' =>
          if t'.1 = t then
            some { module := i.1, traitArgs := t'.2, params := g.types, bounds := g.bounds, self := self, items := as }
          else none
        | _ => (none : Option ImplDef)) = ms.flatMap fun m => m.2.filterMap (implOf names m.1 t) := by
    intro ms names
    induction ms with
    | nil => rfl
    | cons m ms ih =>
      rw [List.flatMap_cons, List.filterMap_append, ih, List.flatMap_cons, List.filterMap_map]
      rfl
  exact e ms (indexItems ms).names

theorem with_impls (f : Features) (t : List String) : (indexWith f).impls t =
    (coreIndex f.std).impls t ++ (impItems f).filterMap (implOf (namesWith f.std) "imp" t) := by
  rw [← with_names]
  have hn : (indexWith f).names = (coreIndex f.std).names := by rw [with_names, core_names]
  have e1 : (indexWith f).impls t = (crateModulesWith f).flatMap fun m => m.2.filterMap (implOf (indexWith f).names m.1 t) := by
    unfold indexWith
    exact impls_flat _ t
  have e2 : (coreIndex f.std).impls t = (coreModules f.std ++ [("imp", [])]).flatMap fun (m : String × List Item) =>
      m.2.filterMap (implOf (coreIndex f.std).names m.1 t) := by
    unfold coreIndex
    exact impls_flat _ t
  rw [e1, e2, modules_eq, hn]
  simp only [List.flatMap_append, List.flatMap_cons, List.flatMap_nil, List.append_nil, List.filterMap_nil]

theorem imp_trait (b : Bool) (l : Layout) :
    implTrait (namesWith b) "imp" (inMod l (asTrait l)) = some ([mod l, asTrait l], []) := by
  cases b <;> cases l <;> kernel_rfl

theorem imp_glslTrait (b : Bool) :
    implTrait (namesWith b) "imp" (.path ["crate", "glsl", "Glsl"] []) = some (["glsl", "Glsl"], []) := by
  cases b <;> kernel_rfl

/-- The implementations of a trait in `imp`. -/
def impOf (f : Features) (t : List String) : List ImplDef :=
  if t = ["std140", "AsStd140"] then (easyWith f).map (easyDef .std140) ++ (mintyWith f).map (mintyDef .std140)
  else if t = ["std430", "AsStd430"] then (easyWith f).map (easyDef .std430) ++ (mintyWith f).map (mintyDef .std430)
  else if t = ["glsl", "Glsl"] then (easyWith f).map easyName ++ (mintyWith f).map mintyName
  else []

theorem flat_one {α β γ : Type} {rows : List α} {items : α → List β} {sel : β → Option γ} {d : α → γ}
    (h : ∀ r, (items r).filterMap sel = [d r]) : (rows.flatMap items).filterMap sel = rows.map d := by
  induction rows with
  | nil => rfl
  | cons r rows ih => rw [List.flatMap_cons, List.filterMap_append, ih, h]; rfl

theorem flat_none {α β γ : Type} {rows : List α} {items : α → List β} {sel : β → Option γ}
    (h : ∀ r, (items r).filterMap sel = []) : (rows.flatMap items).filterMap sel = [] := by
  induction rows with
  | nil => rfl
  | cons r rows ih => rw [List.flatMap_cons, List.filterMap_append, ih, h]; rfl

theorem imp_impls (f : Features) (t : List String) :
    (impItems f).filterMap (implOf (namesWith f.std) "imp" t) = impOf f t := by
  have e140 : implTrait (namesWith f.std) "imp" (inMod .std140 (asTrait .std140)) = some (["std140", "AsStd140"], []) :=
    imp_trait f.std .std140
  have e430 : implTrait (namesWith f.std) "imp" (inMod .std430 (asTrait .std430)) = some (["std430", "AsStd430"], []) :=
    imp_trait f.std .std430
  have eg := imp_glslTrait f.std
  rw [List.filterMap_append]
  unfold impOf
  split
  · next h =>
    subst h
    rw [flat_one (d := easyDef .std140), flat_one (d := mintyDef .std140)]
    · intro r
      simp only [mintyItems, mintyConv, List.filterMap_cons, List.filterMap_nil, implOf, e140, e430, eg, Option.bind_some]
      rfl
    · intro r
      simp only [easyItems, easyConv, List.filterMap_cons, List.filterMap_nil, implOf, e140, e430, eg, Option.bind_some]
      rfl
  split
  · next h =>
    subst h
    rw [flat_one (d := easyDef .std430), flat_one (d := mintyDef .std430)]
    · intro r
      simp only [mintyItems, mintyConv, List.filterMap_cons, List.filterMap_nil, implOf, e140, e430, eg, Option.bind_some]
      rfl
    · intro r
      simp only [easyItems, easyConv, List.filterMap_cons, List.filterMap_nil, implOf, e140, e430, eg, Option.bind_some]
      rfl
  split
  · next h =>
    subst h
    rw [flat_one (d := easyName), flat_one (d := mintyName)]
    · intro r
      simp only [mintyItems, mintyConv, List.filterMap_cons, List.filterMap_nil, implOf, e140, e430, eg, Option.bind_some]
      rfl
    · intro r
      simp only [easyItems, easyConv, List.filterMap_cons, List.filterMap_nil, implOf, e140, e430, eg, Option.bind_some]
      rfl
  · next h1 h2 h3 =>
    rw [flat_none, flat_none, List.append_nil]
    · intro r
      simp only [mintyItems, mintyConv, List.filterMap_cons, List.filterMap_nil, implOf, e140, e430, eg, Option.bind_some,
        if_neg (Ne.symm h1), if_neg (Ne.symm h2), if_neg (Ne.symm h3)]
    · intro r
      simp only [easyItems, easyConv, List.filterMap_cons, List.filterMap_nil, implOf, e140, e430, eg, Option.bind_some,
        if_neg (Ne.symm h1), if_neg (Ne.symm h2), if_neg (Ne.symm h3)]

theorem with_impls_eq (f : Features) (t : List String) :
    (indexWith f).impls t = (coreIndex f.std).impls t ++ impOf f t := by rw [with_impls, imp_impls]

end Crevice.Tables
