import Verif.Proof.PublicNames
import Verif.Proof.Names
import Verif.Proof.SyntaxGlsl
/-
The names that derived code refers to.
-/
namespace Crevice.NameProof
open RustCode RustSyntax Expand Tokens

attribute [local irreducible] provided


variable {α : Type}

/-- A name that is there. -/
def Ok (f : Features) (self : String) (is : List (RustSyntax.Item α)) (r : Ref) : Prop :=
  provided f r = true ∨ fromScope self is r

section
variable {f : Features} {self : String} {is : List (RustSyntax.Item α)}

theorem named {p : Path} {args ts vs : List String} (hp : p.free ts = true → Ok f self is (.type p)) (ha : ∀ x ∈ args, x ∈ ts) :
    ∀ r ∈ tyRefs ts vs (.path p args : TyExpr α), Ok f self is r := by
  intro r hr
  have : (args.filter fun x => !ts.contains x) = [] := by
    rw [List.filter_eq_nil_iff]
    intro x hx
    simp [ha x hx]
  rw [tyRefs, this] at hr
  by_cases h : p.free ts = true
  · simp only [h, if_true, List.map_nil, List.append_nil, List.mem_singleton] at hr
    exact hr ▸ hp h
  · simp [h] at hr

theorem ver (l : Layout) (x : α) (ts vs : List String) : ∀ r ∈ tyRefs ts vs (verTy l x), Ok f self is r := by
  intro r hr
  simp only [verTy, tyRefs, List.nil_append, List.mem_cons, List.not_mem_nil, or_false] at hr
  rcases hr with rfl | rfl
  · exact .inl (as_trait f l)
  · exact .inl (as_output f l)

theorem al (l : Layout) (x : α) (ts vs : List String) : ∀ r ∈ exprRefs ts vs (alExpr l x), Ok f self is r := by
  intro r hr
  simp only [alExpr, exprRefs, List.mem_append, List.mem_cons, List.not_mem_nil, or_false] at hr
  rcases hr with hr | rfl | rfl
  · exact ver l x ts vs r hr
  · exact .inl (std_trait f l)
  · exact .inl (std_alignment f l)

mutual
/-- The functions that an expression calls. -/
def Calls : CExpr α → List String
  | .lit _ => []
  | .sizeOf _ => []
  | .alignmentOf _ => []
  | .call f => [f]
  | .add a b => Calls a ++ Calls b
  | .alignOffset a b => Calls a ++ Calls b
  | .maxArr es => CallsAll es
/-- All of them. -/
def CallsAll : List (CExpr α) → List String
  | [] => []
  | e :: es => Calls e ++ CallsAll es
end

theorem global_value {p : Path} (hp : p.global = true) (h : provided f (.value p) = true) (ts vs : List String) :
    ∀ r ∈ exprRefs ts vs (.path p : RustSyntax.Expr α), Ok f self is r := by
  intro r hr
  have : p.free vs = true := by simp [Path.free, hp]
  simp only [exprRefs, this, if_true, List.mem_singleton] at hr
  exact hr ▸ .inl h

theorem local_call {g : String} (hg : g ∈ fnNames is) (ts vs : List String) :
    ∀ r ∈ exprRefs ts vs (callExpr g : RustSyntax.Expr α), Ok f self is r := by
  intro r hr
  simp only [callExpr, exprRefs, exprsRefs, List.append_nil] at hr
  split at hr
  · simp only [List.mem_singleton] at hr
    exact hr ▸ .inr ⟨rfl, g, rfl, hg⟩
  · cases hr

mutual
theorem rust_ok (l : Layout) (ts vs : List String) :
    ∀ (e : CExpr α), (∀ g ∈ Calls e, g ∈ fnNames is) → ∀ r ∈ exprRefs ts vs (rust l e), Ok f self is r
  | .lit n, _, r, hr => by simp [rust, exprRefs] at hr
  | .sizeOf x, _, r, hr => by
    simp only [rust, sizeExpr, exprRefs, exprsRefs, Path.free, Bool.true_or, if_true, List.append_nil, List.mem_append,
      List.mem_singleton] at hr
    rcases hr with rfl | hr
    · exact .inl (size_of f)
    · exact ver l x ts vs r hr
  | .alignmentOf x, _, r, hr => al l x ts vs r hr
  | .call g, h, r, hr => local_call (h g (by simp [Calls])) ts vs r hr
  | .add a b, h, r, hr => by
    rw [rust, exprRefs, List.mem_append] at hr
    rcases hr with hr | hr
    · exact rust_ok l ts vs a (fun g hg => h g (by simp [Calls, hg])) r hr
    · exact rust_ok l ts vs b (fun g hg => h g (by simp [Calls, hg])) r hr
  | .alignOffset a b, h, r, hr => by
    rw [rust, exprRefs, exprsRefs, exprsRefs, exprsRefs, List.append_nil, List.mem_append, List.mem_append] at hr
    rcases hr with hr | hr | hr
    · exact global_value rfl (internal_fns f).1 ts vs r hr
    · exact rust_ok l ts vs a (fun g hg => h g (by simp [Calls, hg])) r hr
    · exact rust_ok l ts vs b (fun g hg => h g (by simp [Calls, hg])) r hr
  | .maxArr es, h, r, hr => by
    rw [rust, exprRefs, exprsRefs, exprsRefs, List.append_nil, List.mem_append, exprRefs] at hr
    rcases hr with hr | hr
    · exact global_value rfl (internal_fns f).2 ts vs r hr
    · exact rusts_ok l ts vs es (fun g hg => h g (by simpa [Calls] using hg)) r hr
theorem rusts_ok (l : Layout) (ts vs : List String) :
    ∀ (es : List (CExpr α)), (∀ g ∈ CallsAll es, g ∈ fnNames is) → ∀ r ∈ exprsRefs ts vs (rusts l es), Ok f self is r
  | [], _, r, hr => by simp [rusts, exprsRefs] at hr
  | e :: es, h, r, hr => by
    rw [rusts, exprsRefs, List.mem_append] at hr
    rcases hr with hr | hr
    · exact rust_ok l ts vs e (fun g hg => h g (by simp [CallsAll, hg])) r hr
    · exact rusts_ok l ts vs es (fun g hg => h g (by simp [CallsAll, hg])) r hr
end

end

theorem calls_alignments (fields : List (String × α)) : CallsAll (fields.map fun x => CExpr.alignmentOf x.2) = [] := by
  induction fields with
  | nil => rfl
  | cons x r ih => exact ih

theorem calls_alignment (l : Layout) (fields : List (String × α)) : Calls (structAlignment l fields) = [] := by
  rw [structAlignment, Calls, CallsAll, calls_alignments]
  rfl

theorem calls_offset (fields : List (String × α)) (pads : List String) (i : Nat) :
    ∀ g ∈ Calls (offExpr fields pads i), g ∈ pads := by
  induction i with
  | zero => intro g hg; simp [offExpr, Calls] at hg
  | succ i ih =>
    intro g hg
    rw [offExpr] at hg
    cases h1 : fields[i]? with
    | none => simp [h1, Calls] at hg
    | some x =>
      cases h2 : pads[i]? with
      | none => simp [h1, h2, Calls] at hg
      | some p =>
        simp only [h1, h2, Calls, List.append_nil, List.mem_append, List.mem_singleton] at hg
        rcases hg with hg | rfl
        · exact ih g hg
        · exact List.mem_of_getElem? h2

theorem calls_pad (l : Layout) (fields : List (String × α)) (pads : List String) (i : Nat) (h : i < fields.length) :
    ∀ g ∈ Calls (padBody l fields pads i h), g ∈ pads := by
  intro g hg
  rw [padBody, Calls, Calls, Calls, List.append_nil, List.mem_append] at hg
  rcases hg with hg | hg
  · exact calls_offset fields pads i g hg
  · cases h1 : fields[i + 1]? with
    | some x => simp [h1, Calls] at hg
    | none => simp [h1, calls_alignment] at hg

theorem fnNames_append (a b : List (RustSyntax.Item α)) : fnNames (a ++ b) = fnNames a ++ fnNames b := by
  induction a with
  | nil => rfl
  | cons i r ih =>
    cases i with
    | fn g => exact congrArg _ ih
    | struct _ _ _ _ _ => exact ih
    | impl _ _ _ _ _ => exact ih

theorem structNames_append (a b : List (RustSyntax.Item α)) : structNames (a ++ b) = structNames a ++ structNames b := by
  induction a with
  | nil => rfl
  | cons i r ih =>
    cases i with
    | fn g => exact ih
    | struct _ _ _ _ _ => exact congrArg _ ih
    | impl _ _ _ _ _ => exact ih

theorem fnNames_pads (l : Layout) (ps : List (String × CExpr α)) : fnNames (ps.map (padFnItem l)) = ps.map Prod.fst := by
  induction ps with
  | nil => rfl
  | cons p r ih =>
    obtain ⟨x, e⟩ := p
    cases e <;> exact congrArg _ ih

section
variable {f : Features} {self : String} {is : List (RustSyntax.Item α)}

theorem prim (x : String) (hx : x ∈ ["u8", "usize", "str"]) (ts vs : List String) :
    ∀ r ∈ tyRefs ts vs (.path ⟨false, [x]⟩ [] : TyExpr α), Ok f self is r :=
  named (fun _ => .inr ⟨rfl, x, rfl, .inr (.inr hx)⟩) (by simp)

theorem padFn_ok (l : Layout) (x : String) (off al : CExpr α) (h1 : ∀ g ∈ Calls off, g ∈ fnNames is)
    (h2 : ∀ g ∈ Calls al, g ∈ fnNames is) : ∀ r ∈ fnRefs [] (padFnAst l x off al), Ok f self is r := by
  intro r hr
  simp only [fnRefs, padFnAst, paramRefs, paramNames, bodyRefs, List.nil_append, List.mem_append] at hr
  rcases hr with hr | hr | hr | hr
  · exact prim "usize" (by simp) _ _ r hr
  · exact rust_ok l _ _ off h1 r hr
  · exact rust_ok l _ _ al h2 r hr
  · rw [exprRefs, List.mem_append] at hr
    rcases hr with hr | hr
    · exact global_value rfl (internal_fns f).1 _ _ r hr
    · simp [exprsRefs, exprRefs, Path.free] at hr

theorem padItem_ok (l : Layout) (p : String × CExpr α) (h : ∀ g ∈ Calls p.2, g ∈ fnNames is) :
    ∀ r ∈ itemRefs (padFnItem l p), Ok f self is r := by
  obtain ⟨x, e⟩ := p
  cases e with
  | alignOffset a b =>
    exact padFn_ok l x a b (fun g hg => h g (by simp [Calls, hg])) (fun g hg => h g (by simp [Calls, hg]))
  | _ => exact padFn_ok l x _ _ h h

theorem field_ok (l : Layout) (x : String × GenTy α) (gs : List String)
    (h : ∀ g, x.2 = .padBytes g → g ∈ fnNames is) : ∀ r ∈ tyRefs gs [] (fieldAst l x).ty, Ok f self is r := by
  obtain ⟨n, t⟩ := x
  cases t with
  | layoutOf a => exact ver l a _ _
  | padBytes g =>
    intro r hr
    rw [fieldAst, fieldTy, tyRefs, List.mem_append] at hr
    rcases hr with hr | hr
    · exact prim "u8" (by simp) _ _ r hr
    · exact local_call (h g rfl) _ _ r hr

theorem struct_ok (l : Layout) (vis : Vis) (g : Generated α) (h : ∀ x ∈ g.fields, ∀ p, x.2 = .padBytes p → p ∈ fnNames is) :
    ∀ r ∈ itemRefs (structAst l vis g), Ok f self is r := by
  intro r hr
  rw [structAst, itemRefs, List.mem_append] at hr
  rcases hr with hr | hr
  · have : r = .derive "Debug" ∨ r = .derive "Clone" ∨ r = .derive "Copy" := by
      simpa [attrRefs, idents] using hr
    rcases this with rfl | rfl | rfl <;> exact .inr (by simp [fromScope])
  · rw [List.flatMap_map, List.mem_flatMap] at hr
    obtain ⟨x, hx, hr⟩ := hr
    exact field_ok l x _ (h x hx) r hr

theorem own_name {x : String} (h : x = self ∨ x ∈ structNames is) (gs ts vs : List String) (hg : ∀ y ∈ gs, y ∈ ts) :
    ∀ r ∈ tyRefs ts vs (.path ⟨false, [x]⟩ gs : TyExpr α), Ok f self is r :=
  named (fun _ => .inr ⟨rfl, x, rfl, h.imp_right Or.inl⟩) hg

theorem impl_ok {p : Path} {x : String} {gs : List String} {items : List (RustSyntax.Assoc α)} (u : Bool)
    (h : x = self ∨ x ∈ structNames is) (hp : provided f (.trait p) = true)
    {names : List String} (hi : provided f (.impl p names) = true) (hn : items.map RustSyntax.Assoc.name = names)
    (hs : ∀ a ∈ items, ∀ r ∈ assocRefs ("Self" :: gs) a, Ok f self is r) :
    ∀ r ∈ itemRefs (.impl u gs (some p) (.path ⟨false, [x]⟩ gs) items), Ok f self is r := by
  intro r hr
  rw [itemRefs, List.mem_append, List.mem_append] at hr
  rcases hr with (hr | hr) | hr
  · simp only [List.mem_cons, List.not_mem_nil, or_false] at hr
    rcases hr with rfl | rfl
    · exact .inl hp
    · exact .inl (hn ▸ hi)
  · exact own_name h _ _ _ (fun _ h => h) r hr
  · obtain ⟨a, ha, hr⟩ := List.mem_flatMap.1 hr
    exact hs a ha r hr

theorem asBytes_ok (l : Layout) {x : String} {gs : List String} (h : x = self ∨ x ∈ structNames is) :
    ∀ r ∈ itemRefs (asBytesAst l x gs : RustSyntax.Item α), Ok f self is r := by
  intro r hr
  rw [asBytesAst, itemRefs, List.nil_append, List.mem_append] at hr
  rcases hr with hr | hr
  · exact own_name h _ _ _ (fun _ h => h) r hr
  · simp only [List.flatMap_cons, List.flatMap_nil, List.append_nil, assocRefs, fnRefs, paramRefs, paramNames, bodyRefs,
      List.nil_append, List.mem_append] at hr
    rcases hr with hr | hr
    · exact prim "u8" (by simp) ("Self" :: gs) [] r (by simpa [tyRefs] using hr)
    · rw [exprRefs, exprRefs, List.mem_append, List.mem_append] at hr
      rcases hr with (hr | hr) | hr
      · exact own_name h gs ("Self" :: gs) ["self"] (fun _ h => List.mem_cons_of_mem _ h) r hr
      · simp only [List.mem_cons, List.not_mem_nil, or_false] at hr
        rcases hr with rfl | rfl
        · exact .inl (std_trait f l)
        · exact .inl (std_as_bytes f l)
      · simp [exprsRefs, exprRefs, Path.free] at hr

theorem inits_as_ok (l : Layout) (fields : List (String × α)) (ts : List String) :
    initRefs ts ["self"] (fields.map fun x => (x.1, (asExpr l x.1 : RustSyntax.Expr α))) = [] := by
  induction fields with
  | nil => rfl
  | cons x r ih => simpa [initRefs, asExpr, exprRefs, exprsRefs, Path.free] using ih

theorem inits_from_ok (l : Layout) (fields : List (String × α)) (ts : List String) :
    ∀ r ∈ initRefs ts ["input"] (fields.map fun x => (x.1, (fromExpr l x.1 : RustSyntax.Expr α))), Ok f self is r := by
  induction fields with
  | nil => intro r hr; simp [initRefs] at hr
  | cons x rest ih =>
    intro r hr
    rw [List.map_cons, initRefs, List.mem_append] at hr
    rcases hr with hr | hr
    · rw [fromExpr, exprRefs, List.mem_append] at hr
      rcases hr with hr | hr
      · exact global_value rfl (as_from f l) _ _ r hr
      · simp [exprsRefs, exprRefs, Path.free] at hr
    · exact ih r hr

theorem asTrait_ok (l : Layout) {x : String} (gs : List String) (fields : List (String × α)) (h : x ∈ structNames is) :
    ∀ r ∈ itemRefs (asTraitAst l self x gs fields), Ok f self is r := by
  refine impl_ok false (.inl rfl) (as_trait f l) (as_impl f l) rfl fun a ha r hr => ?_
  simp only [List.mem_cons, List.not_mem_nil, or_false] at ha
  rcases ha with rfl | rfl | rfl
  · exact own_name (.inr h) [] ("Self" :: gs) [] (by simp) r hr
  · simp only [assocRefs, asFnAst, fnRefs, paramRefs, paramNames, bodyRefs, List.nil_append, exprRefs, inits_as_ok,
      exprsRefs, List.append_nil, List.mem_append] at hr
    rcases hr with hr | hr | hr
    · simp [tyRefs, Path.free] at hr
    · simp [Path.free] at hr
    · exact global_value (α := α) rfl (bytemuck_trait f).2 ("Self" :: gs) ["self"] r (by rw [exprRefs]; exact hr)
  · simp only [assocRefs, fromFnAst, fnRefs, paramRefs, paramNames, bodyRefs, List.append_nil, exprRefs,
      List.mem_append] at hr
    rcases hr with (hr | hr) | hr | hr
    · simp [tyRefs, Path.free] at hr
    · simp [tyRefs, Path.free] at hr
    · simp [Path.free] at hr
    · exact inits_from_ok l fields _ r hr

end

/-- All names in the items of a derive are there. -/
theorem derived_ok (f : Features) {l : Layout} {vis : Vis} {input : DeriveInput α} {g : Generated α} {fields : List (String × α)}
    (h : emitLayout l input = .ok g) (hf : input.data = .structNamed fields) :
    ∀ r ∈ refs (ast l vis input.ident input.generics fields g), Ok f input.ident (ast l vis input.ident input.generics fields g) r := by
  obtain ⟨fs, h1, hn, hp, hfs, ha, -⟩ := emitLayout_inv h
  rw [hf] at h1
  injection h1 with h1
  subst h1
  have hfn : ∀ y ∈ padFnNames l input.ident fields.length, y ∈ fnNames (ast l vis input.ident input.generics fields g) := by
    intro y hy
    rw [ast, fnNames_append, fnNames_pads, hp]
    refine List.mem_append.2 (Or.inl ?_)
    simpa [padFnNames] using hy
  have hst : g.structName ∈ structNames (ast l vis input.ident input.generics fields g) := by
    rw [ast, structNames_append]
    exact List.mem_append.2 (Or.inr (by simp [structAst, structNames]))
  intro r hr
  obtain ⟨i, hi, hr⟩ := List.mem_flatMap.1 hr
  have hi' := hi
  rw [ast, List.mem_append] at hi'
  rcases hi' with hi' | hi'
  · obtain ⟨p, hpm, rfl⟩ := List.mem_map.1 hi'
    refine padItem_ok l p (fun y hy => ?_) r hr
    rw [hp] at hpm
    obtain ⟨j, hj, rfl⟩ := List.mem_map.1 hpm
    have hj' : j < fields.length := List.mem_range.1 hj
    simp only [hj', dif_pos] at hy
    exact hfn y (calls_pad l fields _ j hj' y hy)
  · simp only [List.mem_cons, List.not_mem_nil, or_false] at hi'
    rcases hi' with rfl | rfl | rfl | rfl | rfl | rfl
    · refine struct_ok l vis g (fun x hx p hxp => ?_) r hr
      rw [hfs] at hx
      obtain ⟨ys, hy, hx⟩ := List.mem_flatten.1 hx
      obtain ⟨z, hz, rfl⟩ := List.mem_map.1 hy
      simp only [List.mem_cons, List.not_mem_nil, or_false] at hx
      rcases hx with rfl | rfl
      · cases hxp
      · injection hxp with hxp
        subst hxp
        refine hfn _ (List.mem_map.2 ⟨z.2, List.mem_range.2 ?_, rfl⟩)
        have := List.mem_zipIdx (x := z.1) (i := z.2) hz
        omega
    · exact asBytes_ok l (.inr hst) r hr
    · exact impl_ok true (.inr hst) ((bytemuck_trait f).1 _ (by simp)).1 ((bytemuck_trait f).1 _ (by simp)).2 rfl (by simp) r hr
    · exact impl_ok true (.inr hst) ((bytemuck_trait f).1 _ (by simp)).1 ((bytemuck_trait f).1 _ (by simp)).2 rfl (by simp) r hr
    · refine impl_ok true (.inr hst) (std_trait f l) (std_impl f l) rfl (fun a ha' r hr => ?_) r hr
      simp only [List.mem_singleton] at ha'
      subst ha'
      rw [assocRefs, List.mem_append] at hr
      rcases hr with hr | hr
      · exact prim "usize" (by simp) _ _ r hr
      · refine rust_ok l _ _ g.alignment (fun y hy => ?_) r hr
        rw [ha, calls_alignment] at hy
        cases hy
    · exact asTrait_ok l _ fields hst r hr

theorem glslFields_ok (f : Features) (self : String) (is : List (RustSyntax.Item α)) (ts : List String) (fields : List (String × α)) :
    ∀ r ∈ exprsRefs ts [] (fields.map glslFieldAst), Ok f self is r := by
  induction fields with
  | nil => intro r hr; simp [exprsRefs] at hr
  | cons x rest ih =>
    intro r hr
    rw [List.map_cons, exprsRefs, List.mem_append] at hr
    rcases hr with hr | hr
    · simp only [glslFieldAst, exprRefs, initRefs, tyRefs, List.nil_append, List.append_nil, List.mem_append, glslItem, Path.free,
        Bool.true_or, if_true, List.mem_cons, List.not_mem_nil, or_false] at hr
      rcases hr with rfl | rfl | rfl
      · exact .inl (glsl_names f).2.2.2
      · exact .inl (glsl_names f).1
      · exact .inl (glsl_names f).2.1
    · exact ih r hr

/-- All names in the items of `#[derive(GlslStruct)]` are there, with the feature `std`. -/
theorem glsl_ok (f : Features) (hs : f.std = true) (name : String) (gs : List String) (fields : List (String × α)) :
    ∀ r ∈ refs (glslAst name gs fields), Ok f name (glslAst name gs fields) r := by
  intro r hr
  obtain ⟨i, hi, hr⟩ := List.mem_flatMap.1 hr
  simp only [glslAst, List.mem_cons, List.not_mem_nil, or_false] at hi
  rcases hi with rfl | rfl
  · refine impl_ok true (.inl rfl) (glsl_names f).1 (glsl_names f).2.2.1 rfl (fun a ha r hr => ?_) r hr
    simp only [List.mem_singleton] at ha
    subst ha
    rw [assocRefs, List.mem_append] at hr
    rcases hr with hr | hr
    · exact prim "str" (by simp) ("Self" :: gs) [] r (by simpa [tyRefs] using hr)
    · simp [exprRefs] at hr
  · refine impl_ok true (.inl rfl) ((glsl_struct f).1.trans hs) ((glsl_struct f).2.trans hs) rfl (fun a ha r hr => ?_) r hr
    simp only [List.mem_singleton] at ha
    subst ha
    rw [assocRefs, List.mem_append] at hr
    rcases hr with hr | hr
    · simp only [tyRefs, List.filter_nil, List.map_nil, List.append_nil, glslItem, Path.free, Bool.true_or, if_true,
        List.mem_singleton] at hr
      exact hr ▸ .inl (glsl_names f).2.2.2
    · exact glslFields_ok f _ _ _ fields r (by simpa [exprRefs] using hr)

end Crevice.NameProof
