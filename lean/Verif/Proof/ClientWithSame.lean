import Verif.Proof.ClientWithView
/-
A crate that uses crevice says the same with any set of features about what may be mentioned.
-/
namespace Crevice.ClientProof
open RustCode RustTypes TypeNames ClientText Tables

variable {k : Client} {f : Features} {A : ClientStruct → Prop}

theorem resolve_far {m : String} {p : List String} (h1 : (view f).path m p) (h2 : (viewC k).path m p) :
    resolveName (namesF k f) m p = resolveName theNames m p :=
  (resolve_pathF h2).trans (resolve_filter fun x hx => (h1 x hx).1)

theorem own_no_matchF {x : String} (hn : x ∈ k.names) {c : CTy} (hc : ∀ q cs, c = .named q cs → q ≠ ["", x]) :
    matchTy (namesF k f) "" [] (ty x) c = none := by
  unfold ty
  rw [matchTy_path]
  simp only [List.contains_nil, Bool.false_eq_true, if_false]
  unfold matchNamed
  cases c with
  | array _ _ => rfl
  | named q cs =>
    dsimp only
    rw [resolve_declaredF hn, if_neg]
    intro e
    injection e with e
    exact hc q cs rfl e.symm

theorem ok_owned {x : String} {c : CTy} (hc : COk (viewF k f A) c) (h : ¬Owned k A x) : ∀ q cs, c = .named q cs → q ≠ ["", x] := by
  rintro q cs rfl rfl
  unfold COk at hc
  rcases hc.1 with ⟨-, h2⟩ | ⟨y, hy, e⟩
  · exact h2 "" (by simp) rfl
  · injection e with _ e
    injection e with e
    exact h (e ▸ hy)

/-- The implementations that features take away are for types of other crates. -/
def rowSelf (i : ImplDef) : Bool :=
  match i.self with
  | .path [_, _] _ => i.params.isEmpty
  | .path (x :: _) _ => Always x
  | _ => true

theorem impls_rows {t : List String} (ht : t ∈ coreTraits) : (jx.impls t).all rowSelf = true := by
  have as : ∀ l, (asDefs l).all rowSelf = true := by intro l; cases l <;> decide +kernel
  have std : ∀ l, (stdDefs l).all rowSelf = true := by intro l; cases l <;> decide +kernel
  have glsl : glslDefs.all rowSelf = true := by decide +kernel
  simp only [coreTraits, List.mem_cons, List.not_mem_nil, or_false] at ht
  rcases ht with rfl | rfl | rfl | rfl | rfl | rfl | rfl | rfl | rfl | rfl | rfl
  · exact as .std140
  · exact as .std430
  · exact std .std140
  · exact std .std430
  · show (podDefs "Zeroable").all rowSelf = true; decide +kernel
  · show (podDefs "Pod").all rowSelf = true; decide +kernel
  · rfl
  · rfl
  · show [plainDef "bool" (ty "Bool") [.fn Parsed.bool7_fmt]].all rowSelf = true; decide +kernel
  · exact glsl
  · show fromDefs.all rowSelf = true; decide +kernel

theorem row_no_match {i : ImplDef} (hr : rowSelf i = true) (hkeep : keep f i = false) {names : List (String × List String)} {c : CTy}
    (hc : COk (viewF k f A) c) : matchTy names i.module i.params i.self c = none := by
  unfold rowSelf at hr
  unfold keep at hkeep
  split at hr
  · next lib name args hs =>
    rw [hs] at hkeep
    have hoff : offLib f lib = true := by simpa using hkeep
    rw [List.isEmpty_iff.1 hr, hs]
    cases hm : matchTy names i.module [] (.path [lib, name] args) c with
    | none => rfl
    | some a =>
      obtain ⟨q, cs, hq, rfl, -⟩ := match_plain hm
      injection hq with hq
      subst hq
      unfold COk at hc
      rcases hc.1 with ⟨h1, -⟩ | ⟨y, -, e⟩
      · have := (h1 lib (by simp)).2
        rw [hoff] at this
        cases this
      · injection e with e
        subst e
        simp [offLib] at hoff
  · next x p args _ hs =>
    rw [hs] at hkeep
    have hoff : offLib f x = false := (always_fine hr).2
    simp [hoff] at hkeep
  · next h1 h2 =>
    split at hkeep
    · next x p args hs => first | exact absurd hs (h2 x p args) | exact absurd hs (h2 _ _ _)
    · cases hkeep

/-- The part of crevice. -/
theorem crate_part {t : List String} (ht : traitsF f t) : (indexWith f).impls t = (jx.impls t).filter (keep f) ∧
    ∀ i ∈ jx.impls t, implFull i = true ∧ rowSelf i = true ∧ (keep f i = true → ImplOk (view f) i) := by
  rcases ht with ht | ⟨hs, rfl⟩ | rfl
  · exact ⟨impls_filter ht, fun i hi => ⟨List.all_eq_true.1 (impls_full ht) i hi, List.all_eq_true.1 (impls_rows ht) i hi,
      (impls_kept ht i hi).1⟩⟩
  · have e : jx.impls ["glsl", "GlslStruct"] = [] := glslStruct_none
    have e' : (indexWith f).impls ["glsl", "GlslStruct"] = [] := by
      rw [with_impls_eq]
      cases f.std <;> kernel_rfl
    rw [e, e']
    exact ⟨rfl, fun i hi => by cases hi⟩
  · have e : jx.impls ["crate", "internal"] = [] := by kernel_rfl
    have e' : (indexWith f).impls ["crate", "internal"] = [] := by
      rw [with_impls_eq]
      cases f.std <;> kernel_rfl
    rw [e, e']
    exact ⟨rfl, fun i hi => by cases hi⟩

/-- The implementations that stay. -/
def keepF (f : Features) (i : ImplDef) : Bool := i.module == "" || keep f i

theorem impls_keepF (k : Client) {t : List String} (ht : traitsF f t) : (kxf k f).impls t = ((kx k).impls t).filter (keepF f) := by
  obtain ⟨h1, h2⟩ := crate_part ht
  show (indexWith f).impls t ++ (k.ds.flatMap (implsFor t) ++
      k.gs.flatMap fun c => if f.std = false ∧ t = ["glsl", "GlslStruct"] then [] else glslFor t c) =
    (jx.impls t ++ (k.ds.flatMap (implsFor t) ++ k.gs.flatMap (glslFor t))).filter (keepF f)
  have hif : ¬(f.std = false ∧ t = ["glsl", "GlslStruct"]) := by
    rintro ⟨h, rfl⟩
    rcases ht with ht | ⟨hs, -⟩ | ht
    · exact absurd ht (by decide)
    · rw [h] at hs
      cases hs
    · exact absurd ht (by decide)
  simp only [if_neg hif]
  have e1 : (jx.impls t).filter (keep f) = (jx.impls t).filter (keepF f) := by
    refine List.filter_congr fun i hi => ?_
    have := (h2 i hi).1
    simp only [implFull, Bool.and_eq_true, bne_iff_ne, ne_eq] at this
    have hm : (i.module == "") = false := by simpa using this.1.1.1.1
    unfold keepF
    rw [hm, Bool.false_or]
  have e2 : (k.ds.flatMap (implsFor t) ++ k.gs.flatMap (glslFor t)).filter (keepF f) =
      k.ds.flatMap (implsFor t) ++ k.gs.flatMap (glslFor t) := by
    refine List.filter_eq_self.2 fun i hi => ?_
    unfold keepF
    rcases List.mem_append.1 hi with hi | hi
    · obtain ⟨d, -, hi⟩ := List.mem_flatMap.1 hi
      simp [(implsFor_self hi).1]
    · obtain ⟨d, -, hi⟩ := List.mem_flatMap.1 hi
      simp [(glslFor_self hi).1]
  rw [List.filter_append, h1, e1, e2]

theorem implsFor_ok (hk : k.Ok) {d : ClientStruct × Layout} (h : Known k f A d.1) (hd : d ∈ k.ds) {t : List String} {i : ImplDef}
    (hi : i ∈ implsFor t d) : ImplOk (viewF k f A) i := by
  unfold implsFor at hi
  simp only [List.mem_append] at hi
  have one : ∀ {c : Prop} [Decidable c] {x : ImplDef}, i ∈ (if c then [x] else []) → i = x := by
    intro c _ x hi
    split at hi
    · exact List.mem_singleton.1 hi
    · cases hi
  rcases hi with ((h' | h') | h') | h' <;> rw [one h']
  · exact podDef_ok h hd
  · exact podDef_ok h hd
  · exact stdDef_ok h hd
  · exact asDef_ok h hd hk

theorem glslFor_ok {c : ClientStruct} (h : Known k f A c) {t : List String} {i : ImplDef} (hi : i ∈ glslFor t c) :
    ImplOk (viewF k f A) i := by
  unfold glslFor at hi
  simp only [List.mem_append] at hi
  rcases hi with hi | hi <;> split at hi
  · rw [List.mem_singleton.1 hi]; exact nameDef_ok h
  · cases hi
  · rw [List.mem_singleton.1 hi]; exact fieldsDef_ok h
  · cases hi

theorem outside_okF (env : ForeignEnv) {p : List String} {args : List CTy} {fs : List (String × CTy)}
    (hp : (viewF k f A).named p) (ha : COks (viewF k f A) args) (h : (outside env).fields p args = some fs) :
    ∀ x ∈ fs, COk (viewF k f A) x.2 := by
  have hs : ∀ d ∈ outsideStructs, ∀ w, d.2.2 = some w →
      w.head? = d.1.head? ∧ w.tail.all Always = true ∧ full w = true := by
    decide +kernel
  have hh : ∀ d ∈ outsideStructs, d.1.head? ≠ some "" := by decide +kernel
  unfold outside at h
  dsimp only at h
  split at h
  · next c =>
    simp only [COks, and_true] at ha
    cases hl : outsideStructs.lookup p with
    | none => rw [hl] at h; cases h
    | some d =>
      rw [hl] at h
      injection h with h
      subst h
      intro x hx
      obtain ⟨n, -, rfl⟩ := List.mem_map.1 hx
      dsimp only
      rcases hp with ⟨hp, -⟩ | ⟨y, -, rfl⟩
      case inr => exact absurd rfl (hh _ (lookup_mem hl))
      split
      · exact ha
      · next w hw =>
        obtain ⟨h1, h2, h3⟩ := hs _ (lookup_mem hl) w hw
        unfold COk
        refine ⟨.inl ⟨fun y hy => ?_, full_iff.1 h3⟩, by simp only [COks, and_true]; exact ha⟩
        cases w with
        | nil => cases hy
        | cons a w =>
          rcases List.mem_cons.1 hy with rfl | hy
          · exact hp _ (List.mem_of_mem_head? h1.symm)
          · exact always_fine (List.all_eq_true.1 h2 y hy)
  · cases h

theorem kxf_owners (k : Client) (f : Features) : (kxf k f).owners = (indexWith f).owners := by
  unfold kxf
  generalize indexWith f = I
  rfl

theorem conservesF (hk : k.Ok) (f : Features) (hA : ∀ c ∈ k.cs, A c → ∀ x ∈ c.fields, TyOk (viewF k f A) "" x.2) (tg : Target)
    (env : ForeignEnv) : Conserves (viewF k f A) (kxf k f) (kx k) (clientOutside tg env) (clientOutside tg env) where
  path := by
    intro m p h
    rcases h with ⟨h1, h2⟩ | ⟨rfl, x, hx, rfl⟩
    · refine ⟨(resolve_far h1 h2).trans (resolve_path h2), fun q hq => ?_⟩
      rw [show (kx k).names = allNames k from rfl, ← resolve_path h2] at hq
      exact .inl ⟨resolve_fine h1 hq, resolve_named h2.1 hq⟩
    · have hm := owned_mem hx
      refine ⟨(resolve_declaredF hm).trans (resolve_declared hm).symm, fun q hq => ?_⟩
      rw [show (kx k).names = allNames k from rfl, resolve_declared hm] at hq
      injection hq with hq
      exact .inr ⟨x, hx, hq.symm⟩
  via := by
    intro m p h
    obtain ⟨h1, h2, h3⟩ := h
    refine ⟨(resolve_far h1 h2).trans (resolve_path h2), fun q hq => ?_⟩
    rw [show (kx k).names = allNames k from rfl, ← resolve_path h2] at hq
    exact h3 q hq
  item := by
    intro a ha
    have e : (kxf k f).owners = theOwners.filter fun s => !s.2.any (gone f.std).contains := (kxf_owners k f).trans (with_owners f)
    have e' : (kx k).owners = theOwners := rfl
    rw [e, e']
    have h1 : ∀ b, ∀ a ∈ coreAssoc, ((theOwners.filter fun s => !s.2.any (gone b).contains).filter fun o => o.1 == a) =
        theOwners.filter fun o => o.1 == a := by
      intro b
      cases b <;> decide +kernel
    have h2 : ∀ a ∈ coreAssoc, ∀ o ∈ theOwners.filter (fun o => o.1 == a), o.2 ∈ coreTraits := by decide +kernel
    exact ⟨h1 f.std a ha, fun o ho => .inl (h2 a ha o ho)⟩
  structs := by
    intro p hp
    rcases hp with ⟨h1, h2⟩ | ⟨x, hx, rfl⟩
    · rw [structs_same p h2]
      have e : (kxf k f).structs.lookup p = (indexWith f).structs.lookup p := by
        refine lookup_append_left _ _ fun y hy e => ?_
        rcases List.mem_append.1 hy with hy | hy
        · obtain ⟨c, -, rfl⟩ := List.mem_map.1 hy
          exact h2 "" (by rw [← e]; simp) rfl
        · obtain ⟨c, -, rfl⟩ := List.mem_map.1 hy
          exact h2 "" (by rw [← e]; simp) rfl
      rw [e, with_structs]
      refine ⟨lookup_filter (k := fun (p : List String) => !p.any (gone f.std).contains) (not_gone h1), fun d hd x hx => ?_⟩
      have e1 := structs_ok (f := f) (p, d) (lookup_mem hd) x hx
      have e2 := structs_full (p, d) (lookup_mem hd)
      exact ty_joint (joint _) _ e1 (ty_up e2.1 _ (e2.2 x hx) e1)
    · have e : (kxf k f).structs.lookup ["", x] = (kx k).structs.lookup ["", x] := by
        show ((indexWith f).structs ++ _).lookup _ = (theStructs ++ _).lookup _
        rw [lookup_append_right _ _ fun s hs => structs_crate s hs _, lookup_append_right]
        intro s hs
        rw [with_structs] at hs
        exact structs_crate s (List.mem_filter.1 hs).1 _
      refine ⟨e, fun d hd => ?_⟩
      have hm := lookup_mem hd
      rcases List.mem_append.1 hm with hm | hm
      · exact absurd rfl (structs_crate _ hm x)
      rcases List.mem_append.1 hm with hm | hm
      · obtain ⟨c, hc, e⟩ := List.mem_map.1 hm
        injection e with e1 e2
        injection e1 with _ e1
        injection e1 with e1
        subst e2 e1
        exact hA c hc (owned_src hk hc hx)
      · obtain ⟨c, hc, e⟩ := List.mem_map.1 hm
        injection e with e1 e2
        injection e1 with _ e1
        injection e1 with e1
        subst e2 e1
        have ha := owned_piece hk hc (gen_mem c) hx
        exact genFields_ok ⟨k.known c hc, ha, hA _ (k.known c hc) ha⟩ hc hk
  fns := by
    intro p hp
    have e : (kxf k f).fns = (kx k).fns := by
      show (indexWith f).fns ++ _ = theFns ++ _
      rw [with_fns]
    refine ⟨by rw [e], fun g hg b hb => ?_⟩
    rcases hp with ⟨h1, h2⟩ | ⟨x, hx, rfl⟩
    · rw [fns_same p h2] at hg
      have e1 := fns_ok (f := f) (p, g) (lookup_mem hg) b hb
      have e2 : ∀ s ∈ theFns, s.1.headD "" ≠ "" ∧ (s.2.body.map exprFull).getD true = true := by decide +kernel
      have e3 := e2 _ (lookup_mem hg)
      dsimp only at e3
      rw [hb] at e3
      exact expr_joint (joint _) _ e1 (expr_up e3.1 _ e3.2 e1)
    · rcases List.mem_append.1 (lookup_mem hg) with hm | hm
      · exact absurd rfl (fns_crate _ hm x)
      · obtain ⟨d, hd, hm⟩ := List.mem_flatMap.1 hm
        obtain ⟨y, hy, e⟩ := List.mem_map.1 hm
        injection e with e1 e2
        injection e1 with _ e1
        injection e1 with e1
        subst e2 e1
        have ha := owned_piece hk hd (List.mem_append_left _ (List.mem_map.2 ⟨y, hy, rfl⟩)) hx
        exact padCode_ok ⟨k.known d hd, ha, hA _ (k.known d hd) ha⟩ hd hy hb
  outside := fun hp ha => ⟨rfl, fun fs h => outside_okF env hp ha h⟩
  traits := fun _ _ _ => rfl
  into := fun _ _ _ => rfl
  constFn := fun _ _ => rfl
  impls := by
    intro t ht
    refine ⟨keepF f, impls_keepF k ht, fun i hi => ?_⟩
    obtain ⟨-, hcrate⟩ := crate_part ht
    rcases List.mem_append.1 hi with hi | hi
    · obtain ⟨h1, h2, h3⟩ := hcrate i hi
      have hm : (i.module == "") = false := by
        have := h1
        simp only [implFull, Bool.and_eq_true, bne_iff_ne, ne_eq] at this
        simpa using this.1.1.1.1
      unfold keepF
      rw [hm, Bool.false_or]
      exact ⟨fun hkeep => .inl (impl_joint (joint _) (h3 hkeep) (impl_up h1 (h3 hkeep))), fun hkeep c hc => row_no_match h2 hkeep hc⟩
    · have known : ∀ c ∈ k.cs, A c → Known k f A c := fun c hc ha => ⟨hc, ha, hA c hc ha⟩
      rcases List.mem_append.1 hi with hi | hi
      · obtain ⟨d, hd, hi⟩ := List.mem_flatMap.1 hi
        obtain ⟨h1, h2, h3⟩ := implsFor_self hi
        refine ⟨fun _ => ?_, fun h => by simp [keepF, h1] at h⟩
        by_cases ha : A d.1
        · exact .inl (implsFor_ok hk (known _ (k.known d hd) ha) hd hi)
        · refine .inr fun c hc => ?_
          rw [h1, h2]
          rcases h3 with h3 | h3 <;> rw [h3]
          · have hno : ¬Owned k A d.1.name := fun h => ha (owned_src hk (k.known d hd) h)
            exact ⟨own_no_matchF (mem_names hd).2 (ok_owned hc hno), own_no_match (mem_names hd).2 (ok_owned hc hno)⟩
          · have hno : ¬Owned k A (generatedName d.2 d.1.name) := fun h => ha (owned_piece hk hd (gen_mem d) h)
            exact ⟨own_no_matchF (mem_names hd).1 (ok_owned hc hno), own_no_match (mem_names hd).1 (ok_owned hc hno)⟩
      · obtain ⟨d, hd, hi⟩ := List.mem_flatMap.1 hi
        obtain ⟨h1, h2, h3⟩ := glslFor_self hi
        refine ⟨fun _ => ?_, fun h => by simp [keepF, h1] at h⟩
        by_cases ha : A d
        · exact .inl (glslFor_ok (known _ (k.glslKnown d hd) ha) hi)
        · refine .inr fun c hc => ?_
          rw [h1, h2, h3]
          have hno : ¬Owned k A d.name := fun h => ha (owned_src hk (k.glslKnown d hd) h)
          have hm := src_mem (k.glslKnown d hd)
          exact ⟨own_no_matchF hm (ok_owned hc hno), own_no_match hm (ok_owned hc hno)⟩
  sized := fun _ _ => rfl
  zeroable := .inl (by decide)
  convert := .inl (by decide)
  bool := .inl ⟨fine_all (by decide), by show ∀ x ∈ ["bool"], x ≠ ""; decide⟩

end Crevice.ClientProof
