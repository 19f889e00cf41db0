import Verif.Proof.TextIndex
import Verif.Proof.Conserve
import Verif.Model.TextClient
import Verif.Props.C64
/-
The items of a crate that uses crevice, sorted.
-/
namespace Crevice.ClientProof
open RustCode RustTypes TypeNames ClientText Tables

/-! ### The items of a derive -/

/-- What a derive macro generates for a struct. -/
def genOf (c : ClientStruct) (l : Layout) : Generated RustCode.Ty :=
  { structName := generatedName l c.name
    structParams := []
    outputArgs := []
    padFns := (List.range c.fields.length).map fun i => (padFnName l c.name i,
      if h : i < c.fields.length then padBody l c.fields (padFnNames l c.name c.fields.length) i h else .lit 0)
    fields := (c.fields.zipIdx.map fun x => [(x.1.1, GenTy.layoutOf x.1.2),
      (padFieldName x.2, GenTy.padBytes (padFnName l c.name x.2))]).flatten
    alignment := structAlignment l c.fields
    asInit := []
    fromInit := [] }

theorem expansion_items {l : Layout} {c : ClientStruct} {is : List (RustSyntax.Item RustCode.Ty)} (h : Expansion l c is) :
    is = Tokens.ast l c.vis c.name [] c.fields (genOf c l) := by
  obtain ⟨ts, h1, h2⟩ := h
  have h3 := h1 5 (by omega)
  rw [C64_layout false l c.vis _ (by omega), emitAll_false] at h3
  rcases Tokens.emit_sim l c.vis { ident := c.name, data := .structNamed c.fields } with
    ⟨ts', fields, g, pads, str, k1, k2, k3, -, -, k4, -⟩ | ⟨e, k1, -⟩
  case inr => rw [k1] at h3; cases h3
  rw [k1] at h3
  injection h3 with h3
  injection h3 with h3
  subst h3
  injection k2 with k2
  subst k2
  rw [Reads.unique h2 k4]
  obtain ⟨g', e1, e2, e3, e4, e5, -, -, e6, -⟩ := emitLayout_ok l c.name c.fields
  rw [k3] at e1
  injection e1 with e1
  subst e1
  simp only [Tokens.ast, Tokens.structAst, e2, e3, e4, e5, e6, genOf]

/-- The items that stand in the crate for a derive. -/
def pieceItems (d : ClientStruct × Layout) : List Item :=
  (Tokens.ast d.2 d.1.vis d.1.name [] d.1.fields (genOf d.1 d.2)).map codeItem

theorem derived_items {ds : List (ClientStruct × Layout)} {items : List Item} (h : Derived ds items) :
    items = ds.flatMap pieceItems := by
  induction h with
  | nil => rfl
  | cons h _ ih =>
    rw [List.flatMap_cons, ← ih, expansion_items h]
    rfl

theorem glslExpansion_items {c : ClientStruct} {is : List (RustSyntax.Item RustCode.Ty)} (h : GlslExpansion c is) :
    is = Tokens.glslAst c.name [] c.fields := by
  obtain ⟨ts, h1, h2⟩ := h
  have h3 := h1 3 (by omega)
  rw [C64_glsl false c.vis _ (by omega)] at h3
  obtain ⟨fields, e1, e2⟩ := Tokens.glsl_reads { ident := c.name, data := .structNamed c.fields } rfl
  injection e1 with e1
  subst e1
  injection h3 with h3
  injection h3 with h3
  subst h3
  exact Reads.unique h2 e2

/-- The items that stand in the crate for `#[derive(GlslStruct)]`. -/
def glslPiece (c : ClientStruct) : List Item := (Tokens.glslAst c.name [] c.fields).map codeItem

theorem glslDerived_items {gs : List ClientStruct} {items : List Item} (h : GlslDerived gs items) :
    items = gs.flatMap glslPiece := by
  induction h with
  | nil => rfl
  | cons h _ ih =>
    rw [List.flatMap_cons, ← ih, glslExpansion_items h]
    rfl

/-- `<T as AsStdN>::Output` -/
def outTy (l : Layout) (t : RustCode.Ty) : RustCode.Ty := .proj t (inMod l (asTrait l)) ["Output"]

/-- A padding function. -/
def padCode (l : Layout) (f : String × CExpr RustCode.Ty) : Fn :=
  match f.2 with
  | .alignOffset off al => codeFn (Tokens.padFnAst l f.1 off al)
  | e => codeFn (Tokens.padFnAst l f.1 e e)

/-- The fields of the generated struct. -/
def genFields (d : ClientStruct × Layout) : List (String × RustCode.Ty) :=
  (genOf d.1 d.2).fields.map fun f => (f.1,
    match f.2 with
    | .layoutOf t => outTy d.2 t
    | .padBytes f => .array (ty "u8") (.call (.var f) []))

/-- The generated struct. -/
def genDef (d : ClientStruct × Layout) : StructDef :=
  { module := ""
    params := []
    fields := genFields d
    reprC := true
    transparent := false
    derives := ["Debug", "Clone", "Copy"] }

/-- `self.f.as_stdN()` -/
def asCode (l : Layout) (f : String) : Expr := .method (.field (.var "self") f) (asName l) []
/-- `AsStdN::from_stdN(input.f)` -/
def fromCode (l : Layout) (f : String) : Expr :=
  .call (.path (.path ["crate", mod l, asTrait l, fromName l] [])) [.field (.var "input") f]

/-- `as_stdN` -/
def asFnCode (d : ClientStruct × Layout) : Fn :=
  { name := asName d.2
    generics := noGenerics
    receiver := .ref
    params := []
    ret := .path ["Self", "Output"] []
    body := some (.block [] (.structBase (.path ["Self", "Output"] []) (d.1.fields.map Prod.fst)
      (d.1.fields.map fun f => asCode d.2 f.1) (.call (.path (.path ["bytemuck", "Zeroable", "zeroed"] [])) []))) }

/-- `from_stdN` -/
def fromFnCode (d : ClientStruct × Layout) : Fn :=
  { name := fromName d.2
    generics := noGenerics
    receiver := .static
    params := [("input", .path ["Self", "Output"] [])]
    ret := .path ["Self"] []
    body := some (.block [] (.struct (.path ["Self"] []) (d.1.fields.map Prod.fst)
      (d.1.fields.map fun f => fromCode d.2 f.1))) }

/-- An implementation in the crate. -/
def clientDef (self : String) (items : List Assoc) : ImplDef :=
  { module := "", traitArgs := [], params := [], bounds := [], self := ty self, items := items }

/-- `impl AsStdN for ..` -/
def asDef (d : ClientStruct × Layout) : ImplDef :=
  clientDef d.1.name [.type "Output" (some (ty (generatedName d.2 d.1.name))), .fn (asFnCode d), .fn (fromFnCode d)]

/-- `impl StdN for ..` -/
def stdDef (d : ClientStruct × Layout) : ImplDef :=
  clientDef (generatedName d.2 d.1.name)
    [.const "ALIGNMENT" (ty "usize") (some (codeExpr (Tokens.rust d.2 (structAlignment d.2 d.1.fields))))]

/-- `impl Zeroable for ..`, `impl Pod for ..` -/
def podDef (d : ClientStruct × Layout) : ImplDef := clientDef (generatedName d.2 d.1.name) []

theorem codeInits_map {β : Type} (xs : List β) (n : β → String) (e : β → RustSyntax.Expr RustCode.Ty) :
    codeInits (xs.map fun x => (n x, e x)) = xs.map fun x => codeExpr (e x) := by
  induction xs with
  | nil => rfl
  | cons x xs ih => rw [List.map_cons, codeInits, ih, List.map_cons]

theorem code_fields (l : Layout) (fs : List (String × GenTy RustCode.Ty)) :
    ((fs.map (Tokens.fieldAst l)).map fun f => (f.name, codeTy f.ty)) = fs.map fun f => (f.1,
      match f.2 with
      | .layoutOf t => outTy l t
      | .padBytes f => .array (ty "u8") (.call (.var f) [])) := by
  rw [List.map_map]
  refine List.map_congr_left fun f _ => ?_
  obtain ⟨n, t⟩ := f
  cases t <;> cases l <;> rfl

theorem code_as (d : ClientStruct × Layout) : codeFn (Tokens.asFnAst d.2 d.1.fields) = asFnCode d := by
  obtain ⟨c, l⟩ := d
  unfold codeFn Tokens.asFnAst asFnCode
  dsimp only
  rw [codeExpr, codeInits_map, List.map_map]
  cases l <;> rfl

theorem code_from (d : ClientStruct × Layout) : codeFn (Tokens.fromFnAst d.2 d.1.fields) = fromFnCode d := by
  obtain ⟨c, l⟩ := d
  unfold codeFn Tokens.fromFnAst fromFnCode
  dsimp only
  rw [codeExpr, codeInits_map, List.map_map]
  cases l <;> rfl

/-- The method `as_bytes` of the generated struct. -/
def asBytesItem (d : ClientStruct × Layout) : List Assoc :=
  match codeItem (Tokens.asBytesAst d.2 (generatedName d.2 d.1.name) []) with
  | .impl _ _ _ as => as
  | _ => []

theorem pieceItems_eq (d : ClientStruct × Layout) : pieceItems d =
    ((genOf d.1 d.2).padFns.map fun f => Item.fn (padCode d.2 f)) ++
    [.struct [[.id "derive", .op .lparen, .id "Debug", .op .comma, .id "Clone", .op .comma, .id "Copy", .op .rparen],
        [.id "repr", .op .lparen, .id "C", .op .rparen], [.id "doc", .op .lparen, .id "hidden", .op .rparen],
        [.id "allow", .op .lparen, .id "warnings", .op .rparen]] (generatedName d.2 d.1.name) noGenerics (genFields d),
      .impl noGenerics .unit (ty (generatedName d.2 d.1.name)) (asBytesItem d),
      .impl noGenerics (ty "Zeroable") (ty (generatedName d.2 d.1.name)) [],
      .impl noGenerics (ty "Pod") (ty (generatedName d.2 d.1.name)) [],
      .impl noGenerics (inMod d.2 (stdTrait d.2)) (ty (generatedName d.2 d.1.name)) (stdDef d).items,
      .impl noGenerics (inMod d.2 (asTrait d.2)) (ty d.1.name) (asDef d).items] := by
  unfold pieceItems Tokens.ast
  rw [List.map_append, List.map_map]
  congr 1
  · refine List.map_congr_left fun f _ => ?_
    obtain ⟨n, e⟩ := f
    cases e <;> rfl
  · simp only [List.map_cons, List.map_nil]
    refine List.cons_eq_cons.2 ⟨?_, ?_⟩
    · unfold Tokens.structAst codeItem
      dsimp only
      rw [code_fields]
      rfl
    · refine List.cons_eq_cons.2 ⟨rfl, List.cons_eq_cons.2 ⟨rfl, List.cons_eq_cons.2 ⟨rfl, List.cons_eq_cons.2 ⟨?_, ?_⟩⟩⟩⟩
      · obtain ⟨c, l⟩ := d
        cases l <;> rfl
      · refine List.cons_eq_cons.2 ⟨?_, rfl⟩
        unfold Tokens.asTraitAst codeItem
        simp only [List.map_cons, List.map_nil, codeAssoc, code_as, code_from]
        obtain ⟨c, l⟩ := d
        cases l <;> rfl

/-- `crate::glsl::x` -/
def inGlsl (x : String) : RustCode.Ty := .path ["crate", "glsl", x] []

/-- `GlslField { ty: <T as Glsl>::NAME, name: ".." }` -/
def fieldCode (f : String × RustCode.Ty) : Expr :=
  .struct (inGlsl "GlslField") ["ty", "name"] [.path (.proj f.2 (inGlsl "Glsl") ["NAME"]), .str f.1]

/-- `impl Glsl for ..` -/
def nameDef (c : ClientStruct) : ImplDef :=
  clientDef c.name [.const "NAME" (.ref false (ty "str")) (some (.str c.name))]

/-- `impl GlslStruct for ..` -/
def fieldsDef (c : ClientStruct) : ImplDef :=
  clientDef c.name [.const "FIELDS" (.ref false (.slice (inGlsl "GlslField"))) (some (.ref false (.array (c.fields.map fieldCode))))]

theorem codeExprs_map {β : Type} (xs : List β) (e : β → RustSyntax.Expr RustCode.Ty) :
    codeExprs (xs.map e) = xs.map fun x => codeExpr (e x) := by
  induction xs with
  | nil => rfl
  | cons x xs ih => rw [List.map_cons, codeExprs, ih, List.map_cons]

theorem glslPiece_eq (c : ClientStruct) : glslPiece c =
    [.impl noGenerics (inGlsl "Glsl") (ty c.name) (nameDef c).items,
      .impl noGenerics (inGlsl "GlslStruct") (ty c.name) (fieldsDef c).items] := by
  unfold glslPiece Tokens.glslAst
  simp only [List.map_cons, List.map_nil]
  refine List.cons_eq_cons.2 ⟨rfl, List.cons_eq_cons.2 ⟨?_, rfl⟩⟩
  unfold codeItem
  simp only [List.map_cons, List.map_nil, codeAssoc, codeExpr, codeExprs_map]
  rfl

/-! ### Names -/

theorem lookup_append_ne {β : Type} (xs : List (String × β)) (y : String × β) {m : String} (h : m ≠ y.1) :
    (xs ++ [y]).lookup m = xs.lookup m := by
  induction xs with
  | nil =>
    obtain ⟨a, b⟩ := y
    have : (m == a) = false := by simpa using h
    simp [List.lookup, this]
  | cons x xs ih =>
    obtain ⟨a, b⟩ := x
    rw [List.cons_append, List.lookup_cons, List.lookup_cons, ih]

theorem lookup_append_none {β : Type} (xs : List (String × β)) (y : String × β) (h : ∀ x ∈ xs, x.1 ≠ y.1) :
    (xs ++ [y]).lookup y.1 = some y.2 := by
  induction xs with
  | nil => simp [List.lookup]
  | cons x xs ih =>
    obtain ⟨a, b⟩ := x
    have h1 : (y.1 == a) = false := by
      have := h (a, b) List.mem_cons_self
      simpa using fun e => this e.symm
    rw [List.cons_append, List.lookup_cons, h1]
    exact ih fun x hx => h x (List.mem_cons_of_mem _ hx)

theorem resolve_client {names : List (String × List String)} (D : List String) {m : String} {p : List String}
    (hm : m ≠ "") (hp : "" ∉ p) : resolveName (names ++ [("", D)]) m p = resolveName names m p := by
  have hf : ∀ x, (names ++ [("", D)]).filter (fun n => n.1 != "" && n.2.contains x) =
      names.filter fun n => n.1 != "" && n.2.contains x := by
    intro x
    rw [List.filter_append]
    simp
  rcases p with _ | ⟨a, _ | ⟨b, _ | ⟨c, _ | ⟨d, p⟩⟩⟩⟩
  · rfl
  · unfold resolveName
    dsimp only
    rw [lookup_append_ne _ _ hm, hf]
  · rfl
  · unfold resolveName
    dsimp only
    rw [lookup_append_ne _ _ (fun e => hp (by simp [show b = "" from e]))]
  · rfl

/-- The names that the crate declares. -/
def _root_.Crevice.Client.names (k : Client) : List String := k.allItems.filterMap declared

/-- All names. -/
def allNames (k : Client) : List (String × List String) := theNames ++ [("", k.names)]

theorem theNames_ne : ∀ n ∈ theNames, n.1 ≠ "" := by decide +kernel

theorem resolve_declared {k : Client} {x : String} (h : x ∈ k.names) : resolveName (allNames k) "" [x] = some ["", x] := by
  unfold resolveName allNames
  dsimp only
  have : (theNames ++ [("", k.names)]).lookup "" = some k.names := lookup_append_none theNames ("", k.names) theNames_ne
  rw [this, if_pos]
  simpa using h

theorem resolve_undeclared {k : Client} {x : String} (h : x ∉ k.names) :
    resolveName (allNames k) "" [x] = resolveName theNames "" [x] := by
  unfold resolveName allNames
  dsimp only
  have h1 : (theNames ++ [("", k.names)]).lookup "" = some k.names := lookup_append_none theNames ("", k.names) theNames_ne
  have h2 : theNames.lookup "" = none := by decide +kernel
  rw [h1, h2, if_neg, if_neg, List.filter_append]
  · simp
  · simp
  · simpa using h

theorem resolve_long {k : Client} {a b : String} {p : List String} (h : b ≠ "") :
    resolveName (allNames k) "" (a :: b :: p) = resolveName theNames "" (a :: b :: p) := by
  rcases p with _ | ⟨c, _ | ⟨d, p⟩⟩
  · rfl
  · unfold resolveName allNames
    dsimp only
    rw [lookup_append_ne _ _ h]
  · rfl

/-! ### The index -/

/-- A struct of the crate. -/
def srcDef (c : ClientStruct) : StructDef :=
  { module := "", params := [], fields := c.fields, reprC := false, transparent := false, derives := [] }

/-- The implementations of a trait that come from a derive. -/
def implsFor (t : List String) (d : ClientStruct × Layout) : List ImplDef :=
  (if t = ["Zeroable"] then [podDef d] else []) ++ (if t = ["Pod"] then [podDef d] else []) ++
    (if t = [mod d.2, stdTrait d.2] then [stdDef d] else []) ++ (if t = [mod d.2, asTrait d.2] then [asDef d] else [])

/-- The implementations of a trait that come from `#[derive(GlslStruct)]`. -/
def glslFor (t : List String) (c : ClientStruct) : List ImplDef :=
  (if t = ["glsl", "Glsl"] then [nameDef c] else []) ++ (if t = ["glsl", "GlslStruct"] then [fieldsDef c] else [])

/-- The items of the crate and of crevice, sorted. -/
def kx (k : Client) : Index :=
  { names := allNames k
    structs := theStructs ++ ((k.cs.map fun c => (["", c.name], srcDef c)) ++
      k.ds.map fun d => (["", generatedName d.2 d.1.name], genDef d))
    owners := theOwners
    fns := theFns ++ k.ds.flatMap fun d => (genOf d.1 d.2).padFns.map fun f => (["", f.1], padCode d.2 f)
    impls := fun t => jx.impls t ++ (k.ds.flatMap (implsFor t) ++ k.gs.flatMap (glslFor t)) }

/-- The trait of an implementation is written without empty names. -/
def viaOk (i : String × Item) : Bool :=
  match i.2 with
  | .impl _ (.path p _) _ _ => i.1 != "" && !p.contains ""
  | _ => true

theorem vias_ok : (theModules.flatMap fun m => m.2.map fun i => (m.1, i)).all viaOk = true := by decide +kernel

theorem allItems_eq (k : Client) : k.allItems = k.cs.map ClientStruct.item ++
    (k.ds.flatMap pieceItems ++ k.gs.flatMap glslPiece) := by
  unfold Client.allItems
  rw [derived_items k.derived, glslDerived_items k.glslDerived]

theorem padCode_name (l : Layout) (f : String × CExpr RustCode.Ty) : (padCode l f).name = f.1 := by
  unfold padCode
  split <;> rfl

end Crevice.ClientProof
