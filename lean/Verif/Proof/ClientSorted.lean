import Verif.Proof.ClientIndex
/-
The items of a crate that uses crevice and of crevice, sorted.
-/
namespace Crevice.ClientProof
open RustCode RustTypes TypeNames ClientText Tables

variable {k : Client}

/-- Structs of items. -/
def structOf (i : String × Item) : Option (List String × StructDef) :=
  match i.2 with
  | .struct attrs n g fs => some ([i.1, n], {
      module := i.1
      params := g.types
      fields := fs
      reprC := attrs.any (attrHas "repr" "C")
      transparent := attrs.any (attrHas "repr" "transparent")
      derives := attrs.flatMap attrDerives })
  | _ => none

/-- Functions of items. -/
def fnOf (i : String × Item) : Option (List String × Fn) :=
  match i.2 with
  | .fn f => some ([i.1, f.name], f)
  | _ => none

/-- Associated items of traits. -/
def ownersOf (i : String × Item) : List (String × List String) :=
  match i.2 with
  | .trait n as => as.map fun a => (Assoc.name a, [i.1, n])
  | _ => []

/-- Implementations of items. -/
def implOf (names : List (String × List String)) (trait : List String) (i : String × Item) : Option ImplDef :=
  match i.2 with
  | .impl g via self as => (implTrait names i.1 via).bind fun t =>
    if t.1 = trait then
      some { module := i.1, traitArgs := t.2, params := g.types, bounds := g.bounds, self := self, items := as }
    else none
  | _ => none

/-- The items of modules. -/
def every (modules : List (String × List Item)) : List (String × Item) := modules.flatMap fun m => m.2.map fun i => (m.1, i)

theorem indexItems_eq (modules : List (String × List Item)) : indexItems modules =
    { names := modules.map fun m => (m.1, m.2.filterMap declared)
      structs := (every modules).filterMap structOf
      owners := (every modules).flatMap ownersOf
      fns := (every modules).filterMap fnOf
      impls := fun t => (every modules).filterMap (implOf (modules.map fun m => (m.1, m.2.filterMap declared)) t) } := rfl

/-- The items of the crate. -/
def clientEvery (k : Client) : List (String × Item) := k.allItems.map fun i => ("", i)

theorem every_eq (k : Client) : every k.modules = every theModules ++ clientEvery k := by
  unfold every Client.modules
  rw [crateModules_eq, List.flatMap_append]
  simp [clientEvery]

theorem clientEvery_eq (k : Client) : clientEvery k = (k.cs.map fun c => ("", c.item)) ++
    ((k.ds.flatMap fun d => (pieceItems d).map fun i => ("", i)) ++
      k.gs.flatMap fun c => (glslPiece c).map fun i => ("", i)) := by
  unfold clientEvery
  rw [allItems_eq, List.map_append, List.map_append, List.map_map, List.map_flatMap, List.map_flatMap]
  rfl

theorem filterMap_flatMap' {α β γ : Type} (xs : List α) (f : α → List β) (g : β → Option γ) :
    (xs.flatMap f).filterMap g = xs.flatMap fun x => (f x).filterMap g := by
  induction xs with
  | nil => rfl
  | cons x xs ih => rw [List.flatMap_cons, List.flatMap_cons, List.filterMap_append, ih]

theorem flatMap_singletons {α β : Type} (xs : List α) (f : α → List β) (g : α → β) (h : ∀ x, f x = [g x]) :
    xs.flatMap f = xs.map g := by
  induction xs with
  | nil => rfl
  | cons x xs ih => rw [List.flatMap_cons, h, ih]; rfl

theorem flatMap_nils {α β : Type} (xs : List α) (f : α → List β) (h : ∀ x, f x = []) : xs.flatMap f = [] := by
  induction xs with
  | nil => rfl
  | cons x xs ih => rw [List.flatMap_cons, h, ih]; rfl

theorem flatMap_same {α β : Type} {xs : List α} {f g : α → List β} (h : ∀ x ∈ xs, f x = g x) : xs.flatMap f = xs.flatMap g := by
  induction xs with
  | nil => rfl
  | cons x xs ih =>
    rw [List.flatMap_cons, List.flatMap_cons, h x List.mem_cons_self, ih fun y hy => h y (List.mem_cons_of_mem _ hy)]

theorem filterMap_nones {α β : Type} (xs : List α) : xs.filterMap (fun _ => (none : Option β)) = [] := by
  induction xs with
  | nil => rfl
  | cons x xs ih => rw [List.filterMap_cons, ih]

theorem filterMap_toList {α β : Type} (xs : List α) (f : α → Option β) : xs.filterMap f = xs.flatMap fun x => (f x).toList := by
  induction xs with
  | nil => rfl
  | cons x xs ih =>
    rw [List.filterMap_cons, List.flatMap_cons, ih]
    cases f x <;> rfl

/-- The implementations of `Glsl` and `GlslStruct` are nothing else. -/
theorem glsl_nones {β : Type} (gs : List ClientStruct) (g : String × Item → Option β)
    (h : ∀ a b c d e, g (a, .impl b c d e) = none) :
    (gs.flatMap fun c => (glslPiece c).map fun i => (("", i) : String × Item)).filterMap g = [] := by
  rw [filterMap_flatMap']
  refine flatMap_nils _ _ fun c => ?_
  rw [glslPiece_eq]
  simp only [List.map_cons, List.map_nil, List.filterMap_cons, h, List.filterMap_nil]

theorem client_structs (k : Client) : (clientEvery k).filterMap structOf =
    (k.cs.map fun c => (["", c.name], srcDef c)) ++ k.ds.map fun d => (["", generatedName d.2 d.1.name], genDef d) := by
  rw [clientEvery_eq, List.filterMap_append, List.filterMap_append, glsl_nones _ _ (fun _ _ _ _ _ => rfl), List.append_nil]
  congr 1
  · rw [List.filterMap_map]
    induction k.cs with
    | nil => rfl
    | cons c cs ih => rw [List.filterMap_cons, ih]; rfl
  · rw [filterMap_flatMap']
    refine flatMap_singletons _ _ _ fun d => ?_
    rw [pieceItems_eq, List.map_append, List.filterMap_append, List.map_map, List.filterMap_map]
    rw [show (structOf ∘ ((fun i => ("", i)) ∘ fun f => Item.fn (padCode d.2 f))) = fun _ => none from rfl]
    rw [filterMap_nones, List.nil_append]
    rfl

theorem client_fns (k : Client) : (clientEvery k).filterMap fnOf =
    k.ds.flatMap fun d => (genOf d.1 d.2).padFns.map fun f => (["", f.1], padCode d.2 f) := by
  rw [clientEvery_eq, List.filterMap_append, List.filterMap_append, glsl_nones _ _ (fun _ _ _ _ _ => rfl), List.append_nil]
  have : (k.cs.map fun c => (("", c.item) : String × Item)).filterMap fnOf = [] := by
    rw [List.filterMap_map]
    induction k.cs with
    | nil => rfl
    | cons c cs ih => rw [List.filterMap_cons, ih]; rfl
  rw [this, List.nil_append, filterMap_flatMap']
  refine flatMap_same fun d _ => ?_
  rw [pieceItems_eq, List.map_append, List.filterMap_append, List.map_map, List.filterMap_map]
  have h2 : ∀ (xs : List (String × CExpr RustCode.Ty)),
      xs.filterMap (fnOf ∘ ((fun i => ("", i)) ∘ fun f => Item.fn (padCode d.2 f))) =
        xs.map fun f => (["", f.1], padCode d.2 f) := by
    intro xs
    induction xs with
    | nil => rfl
    | cons x xs ih =>
      rw [List.filterMap_cons, ih]
      show ((["", (padCode d.2 x).name], padCode d.2 x) :: _) = _
      rw [padCode_name]
      rfl
  rw [h2]
  exact List.append_nil _

theorem client_owners (k : Client) : (clientEvery k).flatMap ownersOf = [] := by
  rw [clientEvery_eq, List.flatMap_append, List.flatMap_append]
  have hg : (k.gs.flatMap fun c => (glslPiece c).map fun i => (("", i) : String × Item)).flatMap ownersOf = [] := by
    rw [List.flatMap_assoc]
    refine flatMap_nils _ _ fun c => ?_
    rw [glslPiece_eq]
    rfl
  have : (k.cs.map fun c => (("", c.item) : String × Item)).flatMap ownersOf = [] := by
    rw [List.flatMap_map]
    exact flatMap_nils _ _ fun c => rfl
  rw [this, hg, List.nil_append, List.append_nil, List.flatMap_assoc]
  refine flatMap_nils _ _ fun d => ?_
  rw [pieceItems_eq, List.map_append, List.flatMap_append, List.map_map, List.flatMap_map, flatMap_nils _ _ fun x => ?_]
  · rfl
  · rfl

theorem mem_names {d : ClientStruct × Layout} (hd : d ∈ k.ds) : generatedName d.2 d.1.name ∈ k.names ∧ d.1.name ∈ k.names := by
  unfold Client.names
  rw [allItems_eq, List.filterMap_append, List.filterMap_append]
  constructor
  · refine List.mem_append_right _ (List.mem_append_left _ <| List.mem_filterMap.2 ⟨.struct
      [[.id "derive", .op .lparen, .id "Debug", .op .comma, .id "Clone", .op .comma, .id "Copy", .op .rparen],
        [.id "repr", .op .lparen, .id "C", .op .rparen], [.id "doc", .op .lparen, .id "hidden", .op .rparen],
        [.id "allow", .op .lparen, .id "warnings", .op .rparen]] (generatedName d.2 d.1.name) noGenerics (genFields d), ?_, rfl⟩)
    refine List.mem_flatMap.2 ⟨d, hd, ?_⟩
    rw [pieceItems_eq]
    exact List.mem_append_right _ List.mem_cons_self
  · exact List.mem_append_left _ (List.mem_filterMap.2 ⟨d.1.item, List.mem_map_of_mem (k.known d hd), rfl⟩)

theorem impl_parts (names : List (String × List String)) (t : List String) (d : ClientStruct × Layout)
    (h1 : resolveName names "" ["Zeroable"] = some ["Zeroable"]) (h2 : resolveName names "" ["Pod"] = some ["Pod"])
    (h3 : resolveName names "" ["crate", mod d.2, stdTrait d.2] = some [mod d.2, stdTrait d.2])
    (h4 : resolveName names "" ["crate", mod d.2, asTrait d.2] = some [mod d.2, asTrait d.2]) :
    ((pieceItems d).map fun i => (("", i) : String × Item)).filterMap (implOf names t) = implsFor t d := by
  rw [pieceItems_eq, List.map_append, List.filterMap_append, List.map_map, List.filterMap_map]
  rw [show (implOf names t ∘ ((fun i => ("", i)) ∘ fun f => Item.fn (padCode d.2 f))) = fun _ => none from rfl]
  rw [filterMap_nones, List.nil_append, filterMap_toList]
  have e : ∀ (p r : List String) (self : RustCode.Ty) (as : List Assoc), resolveName names "" p = some r →
      (implOf names t ("", .impl noGenerics (.path p []) self as)).toList =
        if t = r then [{ module := "", traitArgs := [], params := [], bounds := [], self := self, items := as }] else [] := by
    intro p r self as h
    unfold implOf implTrait
    dsimp only
    rw [h]
    simp only [Option.map_some, Option.bind_some]
    split
    · next h => rw [if_pos h.symm]; rfl
    · next h => rw [if_neg fun e => h e.symm]; rfl
  simp only [List.map_cons, List.map_nil, List.flatMap_cons, List.flatMap_nil]
  rw [show implOf names t ("", .impl noGenerics .unit (ty (generatedName d.2 d.1.name)) (asBytesItem d)) = none from rfl,
    show ty "Zeroable" = .path ["Zeroable"] [] from rfl, show ty "Pod" = .path ["Pod"] [] from rfl,
    show inMod d.2 (stdTrait d.2) = .path ["crate", mod d.2, stdTrait d.2] [] from rfl,
    show inMod d.2 (asTrait d.2) = .path ["crate", mod d.2, asTrait d.2] [] from rfl,
    e _ _ _ _ h1, e _ _ _ _ h2, e _ _ _ _ h3, e _ _ _ _ h4]
  unfold implsFor
  simp only [List.append_assoc, List.append_nil]
  rfl

theorem crate_impls (k : Client) (t : List String) : (every theModules).filterMap (implOf (allNames k) t) = jx.impls t := by
  have h : jx.impls t = (every theModules).filterMap (implOf theNames t) := by
    rw [← impls_eq, ← ix_names]
    rfl
  rw [h]
  refine filterMap_same fun i hi => ?_
  have hv := List.all_eq_true.1 vias_ok i hi
  obtain ⟨m, it⟩ := i
  cases it with
  | impl g via self as =>
    cases via with
    | path p args =>
      simp only [viaOk, Bool.and_eq_true, bne_iff_ne, ne_eq, Bool.not_eq_true', List.contains_eq_mem, decide_eq_false_iff_not] at hv
      unfold implOf implTrait
      dsimp only
      rw [show allNames k = theNames ++ [("", k.names)] from rfl, resolve_client k.names hv.1 hv.2]
    | _ => rfl
  | _ => rfl

theorem free_of {x : String} (hk : k.Ok) (h : x ∈ ["Self", "f32", "f64", "i32", "u32", "u8", "bool", "Zeroable", "Pod"]) :
    x ∉ k.names := fun hx => hk.free x hx h

theorem resolve_std (k : Client) (l : Layout) :
    resolveName (allNames k) "" ["crate", mod l, stdTrait l] = some [mod l, stdTrait l] := by
  rw [resolve_long (by cases l <;> decide)]
  cases l <;> decide +kernel

theorem resolve_as (k : Client) (l : Layout) :
    resolveName (allNames k) "" ["crate", mod l, asTrait l] = some [mod l, asTrait l] := by
  rw [resolve_long (by cases l <;> decide)]
  cases l <;> decide +kernel

theorem resolve_glsl (k : Client) (x : String) (hx : x ∈ ["Glsl", "GlslStruct", "GlslField"]) :
    resolveName (allNames k) "" ["crate", "glsl", x] = some ["glsl", x] := by
  rw [resolve_long (by decide)]
  have : ∀ x ∈ ["Glsl", "GlslStruct", "GlslField"], resolveName theNames "" ["crate", "glsl", x] = some ["glsl", x] := by
    decide +kernel
  exact this x hx

theorem glsl_parts (names : List (String × List String)) (t : List String) (c : ClientStruct)
    (h1 : resolveName names "" ["crate", "glsl", "Glsl"] = some ["glsl", "Glsl"])
    (h2 : resolveName names "" ["crate", "glsl", "GlslStruct"] = some ["glsl", "GlslStruct"]) :
    ((glslPiece c).map fun i => (("", i) : String × Item)).filterMap (implOf names t) = glslFor t c := by
  have e : ∀ (p r : List String) (self : RustCode.Ty) (as : List Assoc), resolveName names "" p = some r →
      (implOf names t ("", .impl noGenerics (.path p []) self as)).toList =
        if t = r then [{ module := "", traitArgs := [], params := [], bounds := [], self := self, items := as }] else [] := by
    intro p r self as h
    unfold implOf implTrait
    dsimp only
    rw [h]
    simp only [Option.map_some, Option.bind_some]
    split
    · next h => rw [if_pos h.symm]; rfl
    · next h => rw [if_neg fun e => h e.symm]; rfl
  rw [glslPiece_eq, filterMap_toList]
  simp only [List.map_cons, List.map_nil, List.flatMap_cons, List.flatMap_nil]
  rw [show inGlsl "Glsl" = .path ["crate", "glsl", "Glsl"] [] from rfl,
    show inGlsl "GlslStruct" = .path ["crate", "glsl", "GlslStruct"] [] from rfl, e _ _ _ _ h1, e _ _ _ _ h2]
  unfold glslFor
  rw [List.append_nil]
  rfl

theorem client_impls (hk : k.Ok) (t : List String) :
    (clientEvery k).filterMap (implOf (allNames k) t) = k.ds.flatMap (implsFor t) ++ k.gs.flatMap (glslFor t) := by
  rw [clientEvery_eq, List.filterMap_append, List.filterMap_append]
  have : (k.cs.map fun c => (("", c.item) : String × Item)).filterMap (implOf (allNames k) t) = [] := by
    rw [List.filterMap_map]
    induction k.cs with
    | nil => rfl
    | cons c cs ih => rw [List.filterMap_cons, ih]; rfl
  rw [this, List.nil_append, filterMap_flatMap', filterMap_flatMap', flatMap_same fun c _ => glsl_parts _ t c (resolve_glsl k "Glsl"
    (by decide)) (resolve_glsl k "GlslStruct" (by decide))]
  congr 1
  refine flatMap_same fun d _ => impl_parts _ t d ?_ ?_ (resolve_std k d.2) (resolve_as k d.2)
  · rw [resolve_undeclared (free_of hk (by decide))]
    decide +kernel
  · rw [resolve_undeclared (free_of hk (by decide))]
    decide +kernel

theorem ix_parts : theStructs = (every theModules).filterMap structOf ∧ theOwners = (every theModules).flatMap ownersOf ∧
    theFns = (every theModules).filterMap fnOf := by
  rw [← ix_structs, ← ix_owners, ← ix_fns]
  unfold ix
  rw [indexItems_eq]
  generalize every theModules = M
  generalize theModules = N
  exact ⟨rfl, rfl, rfl⟩

theorem index_eq (hk : k.Ok) : indexItems k.modules = kx k := by
  have hn : (k.modules.map fun m => (m.1, m.2.filterMap declared)) = allNames k := by
    unfold Client.modules allNames
    rw [crateModules_eq, List.map_append, ← ix_names]
    rfl
  rw [indexItems_eq, hn, every_eq]
  have e1 := client_structs k
  have e2 := client_owners k
  have e3 := client_fns k
  have e4 := fun t => client_impls hk t
  have e5 := fun t => crate_impls k t
  obtain ⟨i1, i2, i3⟩ := ix_parts
  generalize every theModules = M at *
  generalize clientEvery k = C at *
  unfold kx
  rw [List.filterMap_append, List.filterMap_append, List.flatMap_append, e1, e2, e3, i1, i2, i3, List.append_nil]
  congr 1
  funext t
  rw [List.filterMap_append, e4, e5]

end Crevice.ClientProof
