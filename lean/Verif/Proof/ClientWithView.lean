import Verif.Proof.ClientWithIndex
import Verif.Proof.ClientGlsl
import Verif.Proof.Joint
/-
What may be mentioned in a crate that uses crevice with a set of features: what crevice has with these features, and some of
the structs of the crate with what their derives wrote.
-/
namespace Crevice.ClientProof
open RustCode RustTypes TypeNames ClientText Tables

/-- The traits that matter. Paths that end in a function of `internal` are read as if they named a trait first. -/
def traitsF (f : Features) (t : List String) : Prop :=
  t ∈ coreTraits ∨ (f.std = true ∧ t = ["glsl", "GlslStruct"]) ∨ t = ["crate", "internal"]

/-- The names of some structs and of what their derives wrote. -/
def Owned (k : Client) (A : ClientStruct → Prop) (x : String) : Prop :=
  ∃ c ∈ k.cs, A c ∧ (x = c.name ∨ ∃ l, (c, l) ∈ k.ds ∧ x ∈ pieceNames (c, l))

/-- What may be mentioned. -/
def viewF (k : Client) (f : Features) (A : ClientStruct → Prop) : View :=
  { path := fun m p => ((view f).path m p ∧ (viewC k).path m p) ∨ (m = "" ∧ ∃ x, Owned k A x ∧ p = [x])
    via := fun m p => (view f).path m p ∧ (viewC k).path m p ∧ ∀ q, resolveName theNames m p = some q → traitsF f q
    named := fun q => ((view f).named q ∧ (viewC k).named q) ∨ ∃ x, Owned k A x ∧ q = ["", x]
    trait := traitsF f
    item := fun a => a ∈ coreAssoc
    sized := True }

variable {k : Client} {f : Features} {A : ClientStruct → Prop}

theorem joint (m : String) : Joint (view f) (viewC k) (viewF k f A) m where
  path := fun _ h1 h2 => .inl ⟨h1, h2⟩
  via := fun _ h1 h2 => ⟨h1.1, h2.1, fun q hq => .inl (h1.2 q hq)⟩
  item := fun _ h => h
  sized := fun h => h.elim

theorem owned_mem {x : String} (h : Owned k A x) : x ∈ k.names := by
  obtain ⟨c, hc, -, rfl | ⟨l, hl, hx⟩⟩ := h
  · exact src_mem hc
  · rw [names_eq]
    exact List.mem_append_right _ (List.mem_flatMap.2 ⟨_, hl, hx⟩)

theorem piece_inj (hk : k.Ok) {d e : ClientStruct × Layout} (hd : d ∈ k.ds) (he : e ∈ k.ds) {x : String} (h1 : x ∈ pieceNames d)
    (h2 : x ∈ pieceNames e) : e = d := by
  obtain ⟨as, bs, h, ho⟩ := split_ds hk hd
  rw [h] at he
  rcases List.mem_append.1 he with he | he
  · exact absurd h1 (ho e (.inl he) x h2)
  · rcases List.mem_cons.1 he with he | he
    · exact he
    · exact absurd h1 (ho e (.inr he) x h2)

theorem piece_src (hk : k.Ok) {d : ClientStruct × Layout} (hd : d ∈ k.ds) {c : ClientStruct} (hc : c ∈ k.cs) : c.name ∉ pieceNames d :=
  fun h => (List.nodup_append.1 (names_nodup hk)).2.2 c.name (List.mem_map.2 ⟨c, hc, rfl⟩) _
    (List.mem_flatMap.2 ⟨d, hd, h⟩) rfl

theorem owned_src (hk : k.Ok) {c : ClientStruct} (hc : c ∈ k.cs) (h : Owned k A c.name) : A c := by
  obtain ⟨e, he, ha, hn | ⟨l, hl, hx⟩⟩ := h
  · rw [name_inj hk he hc hn]
    exact ha
  · exact absurd hx (piece_src hk hl hc)

theorem owned_piece (hk : k.Ok) {d : ClientStruct × Layout} (hd : d ∈ k.ds) {x : String} (hx : x ∈ pieceNames d) (h : Owned k A x) :
    A d.1 := by
  obtain ⟨e, he, ha, rfl | ⟨l, hl, hy⟩⟩ := h
  · exact absurd hx (piece_src hk hd he)
  · rw [← piece_inj hk hd hl hx hy]
    exact ha

/-! ### Paths -/

theorem far_path {p : List String} (h : p.any ["WriteStd140", "WriteStd430", "Writer", "GlslStruct", "cgmath", "glam", "nalgebra"].contains = false)
    (hf : full p = true) (hl : p.length ≠ 1) : (view f).path "" p ∧ (viewC k).path "" p :=
  ⟨fine_all h, full_iff.1 hf, fun _ x e => absurd (by rw [e]; rfl) hl⟩

theorem near_path (hk : k.Ok) {x : String} (h : x ∈ ["Self", "u8"]) : (view f).path "" [x] ∧ (viewC k).path "" [x] := by
  have h1 : ∀ x ∈ ["Self", "u8"], [x].any ["WriteStd140", "WriteStd430", "Writer", "GlslStruct", "cgmath", "glam", "nalgebra"].contains = false ∧
      full [x] = true ∧ x ∈ ["Self", "f32", "f64", "i32", "u32", "u8", "bool", "Zeroable", "Pod"] := by decide
  obtain ⟨e1, e2, e3⟩ := h1 x h
  refine ⟨fine_all e1, full_iff.1 e2, fun _ y hy => ?_⟩
  injection hy with hy
  subst hy
  exact free_of hk e3

theorem near_ty (hk : k.Ok) {x : String} (h : x ∈ ["Self", "u8"]) : TyOk (viewF k f A) "" (ty x) := by
  unfold TyOk
  exact ⟨.inl (near_path hk h), by unfold TysOk; trivial⟩

theorem own_ty {x : String} (h : Owned k A x) : TyOk (viewF k f A) "" (ty x) := by
  unfold TyOk
  exact ⟨.inr ⟨rfl, x, h, rfl⟩, by unfold TysOk; trivial⟩

theorem selfOut_ty : TyOk (viewF k f A) "" (.path ["Self", "Output"] []) := by
  unfold TyOk
  exact ⟨.inl (far_path (by decide) (by decide) (by decide)), by unfold TysOk; trivial⟩

theorem core_via {m x : String} (h : [m, x] ∈ coreTraits) : (viewF k f A).via "" ["crate", m, x] := by
  have key : ∀ t ∈ coreTraits, t.length = 2 →
      ("crate" :: t).any ["WriteStd140", "WriteStd430", "Writer", "GlslStruct", "cgmath", "glam", "nalgebra"].contains = false ∧
      full ("crate" :: t) = true ∧ resolveName theNames "" ("crate" :: t) = some t := by decide +kernel
  obtain ⟨h1, h2, h3⟩ := key _ h rfl
  obtain ⟨h4, h5⟩ := far_path (k := k) (f := f) h1 h2 (by simp)
  refine ⟨h4, h5, fun q hq => ?_⟩
  rw [h3] at hq
  injection hq with hq
  exact .inl (hq ▸ h)

theorem asVia_ok (l : Layout) : (viewF k f A).via "" ["crate", mod l, asTrait l] := core_via (by cases l <;> decide)
theorem stdVia_ok (l : Layout) : (viewF k f A).via "" ["crate", mod l, stdTrait l] := core_via (by cases l <;> decide)

theorem internal_via : (viewF k f A).via "" ["crate", "internal"] := by
  obtain ⟨h4, h5⟩ := far_path (k := k) (f := f) (p := ["crate", "internal"]) (by decide) (by decide) (by decide)
  refine ⟨h4, h5, fun q hq => ?_⟩
  injection hq with hq
  exact .inr (.inr hq.symm)

/-! ### What the derives wrote -/

theorem outTy_ok {l : Layout} {t : RustCode.Ty} (h : TyOk (viewF k f A) "" t) : TyOk (viewF k f A) "" (outTy l t) := by
  unfold outTy TyOk
  exact ⟨h, asVia_ok l⟩

theorem size_ok {l : Layout} {t : RustCode.Ty} (h : TyOk (viewF k f A) "" t) :
    ExprOk (viewF k f A) "" (codeExpr (Tokens.rust l (.sizeOf t))) := by
  rw [size_code]
  simp only [ExprOk, ExprsOk, CalleeOk, and_true]
  exact ⟨⟨.inl (far_path (by decide) (by decide) (by decide)), fun _ => ⟨trivial, by simp only [TysOk, and_true]; exact outTy_ok h⟩⟩,
    fun e => by cases e⟩

theorem al_ok {l : Layout} {t : RustCode.Ty} (h : TyOk (viewF k f A) "" t) :
    ExprOk (viewF k f A) "" (codeExpr (Tokens.rust l (.alignmentOf t))) := by
  rw [al_code]
  simp only [ExprOk, PathOk]
  refine ⟨outTy_ok h, stdVia_ok l, fun a ha => ?_⟩
  rw [List.mem_singleton.1 ha]
  show _ ∈ coreAssoc
  decide

theorem structAl_ok {l : Layout} {fs : List (String × RustCode.Ty)} (h : ∀ x ∈ fs, TyOk (viewF k f A) "" x.2) :
    ExprOk (viewF k f A) "" (codeExpr (Tokens.rust l (structAlignment l fs))) := by
  rw [struct_code]
  simp only [ExprOk, ExprsOk, CalleeOk, CalledOk, and_true, true_and]
  refine ⟨⟨.inl (far_path (by decide) (by decide) (by decide)), fun e => absurd e (by decide)⟩, fun _ => internal_via, ?_⟩
  rw [exprsOk_iff]
  intro e he
  obtain ⟨x, hx, rfl⟩ := List.mem_map.1 he
  exact al_ok (h x hx)

theorem off_ok {l : Layout} {fs : List (String × RustCode.Ty)} (h : ∀ x ∈ fs, TyOk (viewF k f A) "" x.2) {pads : List String}
    (hp : ∀ x ∈ pads, Owned k A x) : ∀ j, ExprOk (viewF k f A) "" (codeExpr (Tokens.rust l (offExpr fs pads j)))
  | 0 => by
    simp only [offExpr, Tokens.rust, codeExpr, ExprOk]
  | j + 1 => by
    rw [offExpr]
    cases h1 : fs[j]? with
    | none =>
      cases h2 : pads[j]? <;> simp only [Tokens.rust, codeExpr, ExprOk]
    | some x =>
      cases h2 : pads[j]? with
      | none => simp only [Tokens.rust, codeExpr, ExprOk]
      | some p =>
        have e : codeExpr (Tokens.rust l (.add (.add (offExpr fs pads j) (.sizeOf x.2)) (.call p))) =
            .bin .add (.bin .add (codeExpr (Tokens.rust l (offExpr fs pads j))) (codeExpr (Tokens.rust l (.sizeOf x.2))))
              (.call (.var p) []) := rfl
        dsimp only
        rw [e]
        simp only [ExprOk, ExprsOk, CalleeOk, CalledOk, implies_true, and_true]
        exact ⟨⟨off_ok h hp j, size_ok (h x (List.mem_of_getElem? h1))⟩, .inr ⟨rfl, p, hp p (List.mem_of_getElem? h2), rfl⟩⟩

theorem pad_fn_ok {l : Layout} {name : String} {off al : CExpr RustCode.Ty}
    (h1 : ExprOk (viewF k f A) "" (codeExpr (Tokens.rust l off))) (h2 : ExprOk (viewF k f A) "" (codeExpr (Tokens.rust l al)))
    {b : Expr} (hb : (codeFn (Tokens.padFnAst l name off al)).body = some b) : ExprOk (viewF k f A) "" b := by
  injection hb with hb
  subst hb
  have e : codeExpr (Tokens.padFnAst l name off al).value =
      .call (.path (.path ["crate", "internal", "align_offset"] [])) [.var "starting_offset", .var "alignment"] := rfl
  rw [e]
  simp only [Tokens.padFnAst, List.map_cons, List.map_nil, ExprOk, StmtsOk, StmtOk, ExprsOk, CalleeOk, CalledOk, TyOk, and_true, true_and,
    implies_true]
  exact ⟨⟨h1, h2⟩, ⟨.inl (far_path (by decide) (by decide) (by decide)), fun e => absurd e (by decide)⟩, fun e => absurd e (by decide)⟩

theorem pad_names {d : ClientStruct × Layout} {x : String} (h : x ∈ padFnNames d.2 d.1.name d.1.fields.length) : x ∈ pieceNames d := by
  unfold padFnNames at h
  obtain ⟨i, hi, rfl⟩ := List.mem_map.1 h
  unfold pieceNames genOf
  refine List.mem_append_left _ ?_
  rw [List.map_map]
  exact List.mem_map.2 ⟨i, hi, rfl⟩

/-- What is needed of a struct. -/
structure Known (k : Client) (f : Features) (A : ClientStruct → Prop) (c : ClientStruct) : Prop where
  mem : c ∈ k.cs
  sat : A c
  fields : ∀ x ∈ c.fields, TyOk (viewF k f A) "" x.2

theorem Known.owned {c : ClientStruct} (h : Known k f A c) : Owned k A c.name := ⟨c, h.mem, h.sat, .inl rfl⟩
theorem Known.piece {d : ClientStruct × Layout} (h : Known k f A d.1) (hd : d ∈ k.ds) {x : String} (hx : x ∈ pieceNames d) : Owned k A x :=
  ⟨d.1, h.mem, h.sat, .inr ⟨d.2, hd, hx⟩⟩

theorem padCode_ok {d : ClientStruct × Layout} (h : Known k f A d.1) (hd : d ∈ k.ds) {g : String × CExpr RustCode.Ty}
    (hg : g ∈ (genOf d.1 d.2).padFns) {b : Expr} (hb : (padCode d.2 g).body = some b) : ExprOk (viewF k f A) "" b := by
  unfold genOf at hg
  obtain ⟨i, hi, rfl⟩ := List.mem_map.1 hg
  have hi : i < d.1.fields.length := List.mem_range.1 hi
  rw [dif_pos hi] at hb
  refine pad_fn_ok ?_ ?_ hb
  · have e : codeExpr (Tokens.rust d.2 (.add (offExpr d.1.fields (padFnNames d.2 d.1.name d.1.fields.length) i) (.sizeOf d.1.fields[i].2))) =
      .bin .add (codeExpr (Tokens.rust d.2 (offExpr d.1.fields (padFnNames d.2 d.1.name d.1.fields.length) i)))
        (codeExpr (Tokens.rust d.2 (.sizeOf d.1.fields[i].2))) := rfl
    rw [e]
    unfold ExprOk
    exact ⟨off_ok h.fields (fun x hx => h.piece hd (pad_names hx)) i, size_ok (h.fields _ (List.getElem_mem hi))⟩
  · cases hn : d.1.fields[i + 1]? with
    | none => exact structAl_ok h.fields
    | some x => exact al_ok (h.fields x (List.mem_of_getElem? hn))

theorem genFields_ok {d : ClientStruct × Layout} (h : Known k f A d.1) (hd : d ∈ k.ds) (hk : k.Ok) :
    ∀ x ∈ genFields d, TyOk (viewF k f A) "" x.2 := by
  intro x hx
  unfold genFields genOf at hx
  obtain ⟨y, hy, rfl⟩ := List.mem_map.1 hx
  obtain ⟨ys, hys, hy⟩ := List.mem_flatten.1 hy
  obtain ⟨z, hz, rfl⟩ := List.mem_map.1 hys
  have hzf : z.1 ∈ d.1.fields := List.mem_of_getElem? (List.mk_mem_zipIdx_iff_getElem?.1 hz)
  simp only [List.mem_cons, List.not_mem_nil, or_false] at hy
  rcases hy with rfl | rfl
  · exact outTy_ok (h.fields z.1 hzf)
  · show TyOk _ _ (.array (ty "u8") _)
    have hi : z.2 < d.1.fields.length := (List.getElem?_eq_some_iff.1 (List.mk_mem_zipIdx_iff_getElem?.1 hz)).1
    unfold TyOk
    refine ⟨near_ty hk (by decide), ?_⟩
    simp only [ExprOk, ExprsOk, CalleeOk, CalledOk, implies_true, and_true]
    refine .inr ⟨rfl, _, h.piece hd (pad_names (List.mem_map.2 ⟨z.2, List.mem_range.2 hi, rfl⟩)), rfl⟩

theorem clientDef_ok {x : String} {items : List Assoc} (hx : Owned k A x) (h : ∀ a ∈ items, AssocOk (viewF k f A) "" a) :
    ImplOk (viewF k f A) (clientDef x items) :=
  { self := own_ty hx
    args := by unfold clientDef TysOk; trivial
    bounds := fun b hb => by cases hb
    items := h }

theorem asDef_ok {d : ClientStruct × Layout} (h : Known k f A d.1) (hd : d ∈ k.ds) (hk : k.Ok) : ImplOk (viewF k f A) (asDef d) := by
  refine clientDef_ok h.owned fun a ha => ?_
  simp only [List.mem_cons, List.not_mem_nil, or_false] at ha
  rcases ha with rfl | rfl | rfl
  · intro u hu
    injection hu with hu
    subst hu
    exact own_ty (h.piece hd (gen_mem d))
  · refine ⟨selfOut_ty, fun b hb => ?_⟩
    injection hb with hb
    subst hb
    unfold ExprOk
    refine ⟨by unfold StmtsOk; trivial, ?_⟩
    unfold ExprOk
    refine ⟨selfOut_ty, ?_, ?_⟩
    · rw [exprsOk_iff]
      intro e he
      obtain ⟨x, -, rfl⟩ := List.mem_map.1 he
      simp only [asCode, ExprOk, ExprsOk, true_and, and_true]
      refine .inr ?_
      show _ ∈ coreAssoc
      cases d.2 <;> decide
    · simp only [ExprOk, ExprsOk, CalleeOk, and_true]
      exact ⟨⟨.inl (far_path (by decide) (by decide) (by decide)), fun e => absurd e (by decide)⟩, fun e => by cases e⟩
  · refine ⟨near_ty hk (by decide), fun b hb => ?_⟩
    injection hb with hb
    subst hb
    unfold ExprOk
    refine ⟨by unfold StmtsOk; trivial, ?_⟩
    unfold ExprOk
    refine ⟨near_ty hk (by decide), ?_⟩
    rw [exprsOk_iff]
    intro e he
    obtain ⟨x, -, rfl⟩ := List.mem_map.1 he
    simp only [fromCode, ExprOk, ExprsOk, CalleeOk, CalledOk, and_true]
    refine ⟨⟨.inl (far_path ?_ ?_ (by simp)), fun e => ?_⟩, fun _ => asVia_ok d.2⟩
    · cases d.2 <;> decide
    · cases d.2 <;> decide
    · exact absurd e (by simp)

theorem stdDef_ok {d : ClientStruct × Layout} (h : Known k f A d.1) (hd : d ∈ k.ds) : ImplOk (viewF k f A) (stdDef d) := by
  refine clientDef_ok (h.piece hd (gen_mem d)) fun a ha => ?_
  rw [List.mem_singleton.1 ha]
  intro b hb
  injection hb with hb
  subst hb
  exact structAl_ok h.fields

theorem podDef_ok {d : ClientStruct × Layout} (h : Known k f A d.1) (hd : d ∈ k.ds) : ImplOk (viewF k f A) (podDef d) :=
  clientDef_ok (h.piece hd (gen_mem d)) fun a ha => by cases ha

theorem nameDef_ok {c : ClientStruct} (h : Known k f A c) : ImplOk (viewF k f A) (nameDef c) := by
  refine clientDef_ok h.owned fun a ha => ?_
  rw [List.mem_singleton.1 ha]
  intro b hb
  injection hb with hb
  subst hb
  unfold ExprOk
  trivial

theorem fieldsDef_ok {c : ClientStruct} (h : Known k f A c) : ImplOk (viewF k f A) (fieldsDef c) := by
  refine clientDef_ok h.owned fun a ha => ?_
  rw [List.mem_singleton.1 ha]
  intro b hb
  injection hb with hb
  subst hb
  unfold ExprOk
  trivial

end Crevice.ClientProof
