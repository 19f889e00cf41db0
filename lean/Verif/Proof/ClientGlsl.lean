import Verif.Proof.ClientUses
import Verif.Proof.GlslText
/-
`Glsl` and `GlslStruct` in a crate that derives `GlslStruct`.
-/
namespace Crevice.ClientProof
open RustCode RustTypes TypeNames ClientText Tables
open Tokens (Ev)

variable {k : Client} {tg : Target} {env : ForeignEnv}

/-- In the crate `t` stands for `c`, and its name is `x`. -/
structure Shows (k : Client) (tg : Target) (env : ForeignEnv) (t : RustCode.Ty) (c : CTy) (x : Option String) (n : Nat) : Prop where
  norm : ∀ s, Home s → (K k tg env n).norm s t = some c
  name : nameOf (K k tg env n) c = x

theorem nameOf_str (g : Sem) (c : CTy) : nameOf g c = (g.find ["glsl", "Glsl"] [] c).bind fun f =>
    ((assocConst f.items "NAME").bind (g.const f.scope [])).bind Const.str? := by
  unfold nameOf
  congr 1

/-! ### Types of crevice -/

theorem named_lib {t : RustCode.Ty} {T : Crevice.Ty} (h : Writes t T) :
    ((∃ x, T.glslName = some x) → libTy t = true) ∧ ∀ l, (∃ x, T.outputName l = some x) → libTy t = true := by
  have hf : ∀ {lib name : String} {arg : Option String}, (lib = "glam" ∨ lib = "nalgebra") → Ident name → (∀ a ∈ arg, Ident a) →
      ∀ {row : MintyRow}, mintyRow (pathText [lib, name] arg.toList) = some row → libTy (.path [lib, name] (argTys arg)) = true := by
    intro lib name arg hl hn ha row hm
    obtain ⟨hrow, hf⟩ := Tables.mintyRow_mem hm
    have h := foreignRustTy_pathText (ident_lib hl) hn ha
    rw [← hf] at h
    rw [← h]
    have : ∀ r ∈ mintyRows, libTy (foreignRustTy r.foreign) = true := by decide +kernel
    exact this row hrow
  induction h with
  | scalar s => exact ⟨fun _ => by cases s <;> decide, fun _ _ => by cases s <;> decide⟩
  | bool => exact ⟨fun _ => by decide, fun _ _ => by decide⟩
  | math m =>
    have : libTy (mathRustTy m) = true := by
      obtain ⟨lib, kind, sc, dim⟩ := m
      unfold mathRustTy mathName
      dsimp only
      cases lib <;> cases kind <;> cases sc <;> dsimp only <;> split <;> decide
    exact ⟨fun _ => this, fun _ _ => this⟩
  | foreign lib name arg hl hn ha =>
    constructor
    · rintro ⟨x, hx⟩
      cases hm : mintyRow (pathText [lib, name] arg.toList) with
      | none => simp only [Ty.glslName, hm] at hx; cases hx
      | some row => exact hf hl hn ha hm
    · rintro l ⟨x, hx⟩
      cases hm : mintyRow (pathText [lib, name] arg.toList) with
      | none => simp only [Ty.outputName, hm] at hx; cases hx
      | some row => exact hf hl hn ha hm
  | dynamic _ ih =>
    exact ⟨fun ⟨x, hx⟩ => by simp [Ty.glslName] at hx, fun l ⟨x, hx⟩ => by simp [Ty.outputName] at hx⟩
  | output l' _ ih =>
    have lift : ∀ {t : RustCode.Ty}, libTy t = true → libTy (.proj t (inMod l' (asTrait l')) ["Output"]) = true := by
      intro t ht
      simp only [libTy, ht, Bool.true_and]
      cases l' <;> decide
    constructor
    · rintro ⟨x, hx⟩
      exact lift (ih.2 l' ⟨x, by simpa [Ty.glslName] using hx⟩)
    · rintro l ⟨x, hx⟩
      simp only [Ty.outputName] at hx
      split at hx
      · exact lift (ih.2 l ⟨x, hx⟩)
      · cases hx

theorem nameOf_same {g g' : Sem} (hg : Same (viewC k) g g') {c : CTy} (hc : COk (viewC k) c) : nameOf g c = nameOf g' c := by
  rw [nameOf_str, nameOf_str]
  have nil : COks (viewC k) [] := by unfold COks; trivial
  obtain ⟨h1, h2⟩ := find_same hg (show (viewC k).trait ["glsl", "Glsl"] from by show _ ∈ coreTraits; decide) nil hc
  refine bind_same h1 fun f hf => ?_
  have hfok := h2 f hf
  rw [bind_same (rfl : assocConst f.items "NAME" = _) fun e he => hg.const hfok.scope (assocConst_ok hfok.items he)]

/-- Types of crevice: the name is the one of the model. -/
theorem lib_shows (hk : k.Ok) {t : RustCode.Ty} {T : Crevice.Ty} (h : Writes t T) (hlib : libTy t = true) :
    (∃ N, ∀ n ≥ N, (K k tg env n).norm topScope t = none) ∧ T.glslName = none ∨ ∃ c N, ∀ n ≥ N, Shows k tg env t c T.glslName n := by
  have hty := libTy_ok hk t hlib
  have htop : ScopeOk (viewC k) topScope :=
    ⟨fun x hx => (nomatch hx), fun x hx => (nomatch hx), fun x hx => (nomatch hx)⟩
  rcases agree tg env h with ⟨⟨N, hN⟩, hnm, -⟩ | ⟨c, ⟨N, hN⟩, ⟨M, hM⟩, -⟩
  · refine .inl ⟨⟨N, fun n hn => ?_⟩, hnm⟩
    rw [← ((sameC k tg env n).norm htop hty).1]
    exact hN n hn
  · refine .inr ⟨c, N + M, fun n hn => ?_⟩
    obtain ⟨e1, e2⟩ := (sameC k tg env n).norm htop hty
    have hnc := hN n (by omega)
    have hc : COk (viewC k) c := e2 c (e1 ▸ hnc)
    refine ⟨fun s hs => ?_, ?_⟩
    · rw [lib_home hk hs n t hlib, ← e1, hnc]
    · rw [← nameOf_same (sameC k tg env n) hc]
      exact hM n (by omega)

/-! ### Structs of the crate -/

theorem glsl_no_var : ((jx.impls ["glsl", "Glsl"]).all fun i => !selfVar i) = true := by decide +kernel

theorem glslStruct_none : jx.impls ["glsl", "GlslStruct"] = [] := by kernel_rfl

/-- The implementations for a struct of the crate. -/
theorem glsl_src (hk : k.Ok) {c : ClientStruct} (hc : c ∈ k.cs) {t : List String} (ht : t = ["glsl", "Glsl"] ∨ t = ["glsl", "GlslStruct"])
    (g : Sem) : ∀ i ∈ jx.impls t ++ k.ds.flatMap (implsFor t), applies (kx k) g [] (own c.name) i = some none := by
  intro i hi
  rcases List.mem_append.1 hi with hi | hi
  · rcases ht with rfl | rfl
    · refine applies_none (crate_no_match (by decide) hi ?_ _)
      simpa using List.all_eq_true.1 glsl_no_var i hi
    · rw [glslStruct_none] at hi
      cases hi
  · obtain ⟨e, -, hi⟩ := List.mem_flatMap.1 hi
    rcases implsFor_cases hi with ⟨-, h'⟩ | ⟨h', -⟩
    · exfalso
      rcases ht with rfl | rfl <;> exact absurd h' (by cases e.2 <;> decide)
    · exfalso
      unfold implsFor at hi
      rcases ht with rfl | rfl <;> (cases he : e.2 <;> simp [he, mod, stdTrait, asTrait] at hi)

theorem name_inj (hk : k.Ok) {c e : ClientStruct} (hc : c ∈ k.cs) (he : e ∈ k.cs) (hn : e.name = c.name) : e = c := by
  obtain ⟨h1, -, -⟩ := List.nodup_append.1 (names_nodup hk)
  obtain ⟨as, bs, h⟩ := List.append_of_mem he
  rw [h] at h1 hc
  rw [List.map_append, List.map_cons] at h1
  have h2 := List.nodup_append.1 h1
  rcases List.mem_append.1 hc with hc | hc
  · exact absurd hn.symm (h2.2.2 _ (List.mem_map.2 ⟨c, hc, rfl⟩) _ List.mem_cons_self)
  · rcases List.mem_cons.1 hc with hc | hc
    · exact hc.symm
    · exact absurd (List.mem_map.2 ⟨c, hc, hn.symm⟩) (List.nodup_cons.1 h2.2.1).1

/-- Other structs have other implementations. -/
theorem other_glsl (hk : k.Ok) {c : ClientStruct} (hc : c ∈ k.cs) {es : List ClientStruct} (hes : ∀ e ∈ es, e ∈ k.cs ∧ e ≠ c)
    (t : List String) (g : Sem) : ∀ i ∈ es.flatMap (glslFor t), applies (kx k) g [] (own c.name) i = some none := by
  intro i hi
  obtain ⟨e, he, hi⟩ := List.mem_flatMap.1 hi
  obtain ⟨h1, h2, h3⟩ := glslFor_self hi
  refine applies_none ?_
  rw [h1, h2, h3]
  refine own_no_match (src_mem (hes e he).1) fun q cs e1 e2 => ?_
  injection e1 with e1
  rw [← e1] at e2
  injection e2 with _ e2
  injection e2 with e2
  exact (hes e he).2 (name_inj hk hc (hes e he).1 e2.symm)

theorem glsl_cands (hk : k.Ok) {c : ClientStruct} (hc : c ∈ k.gs) {t : List String} (ht : t = ["glsl", "Glsl"] ∨ t = ["glsl", "GlslStruct"])
    {items : List Assoc} (hi : glslFor t c = [clientDef c.name items]) (n : Nat) :
    (K k tg env (n + 1)).candidates t [] (own c.name) = some [ownFound c.name items] := by
  have hcs := k.glslKnown c hc
  obtain ⟨as, bs, h⟩ := List.append_of_mem hc
  have hn := hk.glslOnce
  rw [h] at hn
  have hn := List.nodup_append.1 hn
  have h1 : ∀ e ∈ as, e ∈ k.cs ∧ e ≠ c := fun e he =>
    ⟨k.glslKnown e (by rw [h]; exact List.mem_append_left _ he), hn.2.2 e he c List.mem_cons_self⟩
  have h2 : ∀ e ∈ bs, e ∈ k.cs ∧ e ≠ c := fun e he =>
    ⟨k.glslKnown e (by rw [h]; exact List.mem_append_right _ (List.mem_cons_of_mem _ he)), fun e1 =>
      (List.nodup_cons.1 hn.2.1).1 (e1 ▸ he)⟩
  rw [cands_all, h, List.flatMap_append, List.flatMap_cons, hi, ← List.append_assoc, ← List.append_assoc]
  refine filterMapM_one (fun i hi => ?_) (own_applies _ (src_mem hcs) items) (other_glsl hk hcs h2 t _)
  rcases List.mem_append.1 hi with hi | hi
  · exact glsl_src hk hcs ht _ i hi
  · exact other_glsl hk hcs h1 t _ i hi

theorem glsl_cands_none (hk : k.Ok) {c : ClientStruct} (hc : c ∈ k.cs) (hg : c ∉ k.gs) {t : List String}
    (ht : t = ["glsl", "Glsl"] ∨ t = ["glsl", "GlslStruct"]) (n : Nat) :
    (K k tg env (n + 1)).candidates t [] (own c.name) = some [] := by
  rw [cands_all, ← List.append_assoc]
  refine filterMapM_nones fun i hi => ?_
  rcases List.mem_append.1 hi with hi | hi
  · exact glsl_src hk hc ht _ i hi
  · exact other_glsl hk hc (fun e he => ⟨k.glslKnown e he, fun h => hg (h ▸ he)⟩) t _ i hi

/-- The name of a struct. -/
theorem struct_shows (hk : k.Ok) {c : ClientStruct} (hc : c ∈ k.gs) (n : Nat) :
    Shows k tg env (ty c.name) (own c.name) (some c.name) (n + 1) := by
  have hx := src_mem (k.glslKnown c hc)
  refine ⟨fun s hs => own_norm hx (not_self hk hx) hs n, ?_⟩
  rw [nameOf_str]
  unfold Sem.find
  rw [glsl_cands (tg := tg) (env := env) hk hc (.inl rfl) (items := (nameDef c).items) rfl n]
  rfl

/-- Types that are used in the crate. -/
theorem uses_shows (hk : k.Ok) {t : RustCode.Ty} {T : Crevice.Ty} (h : GlslUses k t T) {x : String} (hx : T.glslName = some x) :
    ∃ c N, ∀ n ≥ N, Shows k tg env t c (some x) n := by
  cases h with
  | lib h =>
    rcases lib_shows (tg := tg) (env := env) hk h ((named_lib h).1 ⟨x, hx⟩) with ⟨-, h0⟩ | h
    · rw [h0] at hx
      cases hx
    · rwa [hx] at h
  | @struct c fs hc h =>
    have : x = c.name := glslName_struct hx
    subst this
    refine ⟨own c.name, 1, fun n hn => ?_⟩
    obtain ⟨m, rfl⟩ : ∃ m, n = m + 1 := ⟨n - 1, by omega⟩
    exact struct_shows hk hc m

theorem resolve_glsl_trait (k : Client) : resolveName (allNames k) "" ["crate", "glsl", "Glsl"] = some ["glsl", "Glsl"] := by
  kernel_rfl

/-- `<T as Glsl>::NAME` -/
theorem name_const {t : RustCode.Ty} {c : CTy} {x : Option String} {n : Nat} (h : Shows k tg env t c x n) {s : Scope} (hs : Home s) :
    ((K k tg env (n + 1)).const s [] (.path (.proj t (inGlsl "Glsl") ["NAME"]))).bind Const.str? = x := by
  rw [const_next, ← h.name, nameOf_str]
  unfold constRule inGlsl
  dsimp only
  rw [h.norm s hs, hs.module, show resolveName (kx k).names "" ["crate", "glsl", "Glsl"] = _ from resolve_glsl_trait k]
  simp only [Option.bind_some, Option.bind_assoc]

/-- A field. -/
theorem field_const {f : String × RustCode.Ty} {c : CTy} {x : Option String} {n : Nat} (h : Shows k tg env f.2 c x n) {s : Scope}
    (hs : Home s) : constField (K k tg env (n + 1)) s (fieldCode f) = x.map fun ty => ⟨ty, f.1⟩ := by
  have h1 := name_const h hs
  show (((K k tg env (n + 1)).const s [] (.path (.proj f.2 (inGlsl "Glsl") ["NAME"]))).bind Const.str?).bind _ = _
  rw [h1]
  cases x <;> rfl

theorem found_home (x : String) (items : List Assoc) : Home (ownFound x items).scope := by
  refine ⟨rfl, fun y hy => ?_⟩
  have : (y == "Self") = false := by simpa using hy
  show List.lookup y [("Self", own x)] = none
  simp [List.lookup, this]

/-- `NAME` and `FIELDS` of a struct, when the fields have been looked up. -/
theorem struct_consts (hk : k.Ok) {c : ClientStruct} (hc : c ∈ k.gs) (n : Nat) :
    k.glslStruct tg env (n + 1) (ty c.name) =
      (c.fields.mapM fun f => constField (K k tg env (n + 1)) (ownFound c.name (fieldsDef c).items).scope (fieldCode f)).map
        fun fs => (c.name, fs) := by
  have hx := src_mem (k.glslKnown c hc)
  have hs := struct_shows (tg := tg) (env := env) hk hc n
  have hname : k.glslName tg env (n + 1) (ty c.name) = some c.name := by
    unfold Client.glslName
    rw [sem_eq hk, hs.norm _ home_top, Option.bind_some]
    have := hs.name
    rw [nameOf_str] at this
    exact this
  unfold Client.glslStruct
  rw [hname, sem_eq hk, hs.norm _ home_top, Option.bind_some]
  unfold Sem.find
  rw [glsl_cands (tg := tg) (env := env) hk hc (.inr rfl) (items := (fieldsDef c).items) rfl n]
  have e : assocConst (fieldsDef c).items "FIELDS" = some (.ref false (.array (c.fields.map fieldCode))) := rfl
  dsimp only [Option.bind_some]
  rw [show (ownFound c.name (fieldsDef c).items).items = (fieldsDef c).items from rfl, e, Option.bind_some]
  unfold constFields
  dsimp only
  rw [mapM_map]
  cases (c.fields.mapM fun f => constField (K k tg env (n + 1)) (ownFound c.name (fieldsDef c).items).scope (fieldCode f)) <;> rfl

/-- All fields. -/
theorem uses_fields (hk : k.Ok) : ∀ {fs : List (String × RustCode.Ty)} {Fs : List (String × Crevice.Ty)}, GlslUsesFields k fs Fs →
    ∀ {ds : List GlslField}, (Fs.mapM fun f => f.2.glslName.map fun ty => GlslField.mk ty f.1) = some ds →
    Ev fun n => ∀ s, Home s → (fs.mapM fun f => constField (K k tg env n) s (fieldCode f)) = some ds
  | [], _, h, ds, hd => by
    cases h
    exact ⟨0, fun n _ s _ => hd⟩
  | f :: fs, _, h, ds, hd => by
    cases h with
    | @cons name t T _ Fs h r =>
      rw [mapM_option_cons] at hd
      simp only [Option.bind_eq_some_iff, Option.map_eq_some_iff] at hd
      obtain ⟨d, ⟨x, hx, rfl⟩, ds, hds, rfl⟩ := hd
      obtain ⟨c, hc⟩ := uses_shows (tg := tg) (env := env) hk h hx
      have h1 : Ev fun n => Shows k tg env t c (some x) n := hc
      refine ((h1.succ (Q := fun n => ∀ s, Home s → constField (K k tg env n) s (fieldCode (name, t)) = some ⟨x, name⟩)
        fun n hn s hs => field_const (f := (name, t)) hn hs).and (uses_fields hk r hds)).mono fun n hn s hs => ?_
      rw [mapM_option_cons, hn.1 s hs, hn.2 s hs]
      rfl

/-- A struct of the crate. -/
theorem uses_struct (hk : k.Ok) {c : ClientStruct} (hc : c ∈ k.gs) {Fs : List (String × Crevice.Ty)} (h : GlslUsesFields k c.fields Fs)
    {r : String × List GlslField} (hr : glslStruct c.name Fs = some r) :
    Ev fun n => k.glslStruct tg env n (ty c.name) = some r := by
  unfold glslStruct at hr
  simp only [emitGlsl, Bind.bind, Except.bind, pure, Except.pure] at hr
  rw [mapM_map] at hr
  rw [Option.map_eq_some_iff] at hr
  obtain ⟨ds, hds, rfl⟩ := hr
  obtain ⟨N, hN⟩ := uses_fields (tg := tg) (env := env) hk h hds
  refine ⟨N + 1, fun n hn => ?_⟩
  obtain ⟨m, rfl⟩ : ∃ m, n = m + 1 := ⟨n - 1, by omega⟩
  rw [struct_consts hk hc, hN (m + 1) (by omega) _ (found_home _ _)]
  rfl

theorem mapM_none {α β : Type} {f : α → Option β} {xs : List α} {x : α} (hx : x ∈ xs) (h : f x = none) : xs.mapM f = none := by
  induction xs with
  | nil => cases hx
  | cons y ys ih =>
    rw [mapM_option_cons]
    rcases List.mem_cons.1 hx with rfl | hx
    · rw [h]; rfl
    · cases f y with
      | none => rfl
      | some z => rw [ih hx]; rfl

/-- Types that have an implementation and no name. -/
theorem unnamed_shows (hk : k.Ok) {t : RustCode.Ty} {T : Crevice.Ty} (h : Writes t T) {l : Layout} (hr : (resolve tg env l T).isSome)
    (hn : T.glslName = none) : ∃ c N, ∀ n ≥ N, Shows k tg env t c none n := by
  have hlib := writes_lib (tg := tg) (env := env) h ⟨l, hr⟩
  obtain ⟨i, hi⟩ := Option.isSome_iff_exists.1 hr
  rcases lib_shows (tg := tg) (env := env) hk h hlib with ⟨⟨N, hN⟩, -⟩ | h'
  · exfalso
    obtain ⟨c, O, M, hM⟩ := lib_fits hk h hi
    have h1 := (hM (N + M) (by omega)).norm _ home_top
    rw [hN (N + M) (by omega)] at h1
    cases h1
  · rwa [hn] at h'

theorem shows_name (hk : k.Ok) {t : RustCode.Ty} {c : CTy} {x : Option String} {n : Nat} (h : Shows k tg env t c x n) :
    k.glslName tg env n t = x := by
  unfold Client.glslName
  rw [sem_eq hk, h.norm _ home_top, Option.bind_some, ← nameOf_str]
  exact h.name

theorem unnamed_struct (hk : k.Ok) {c : ClientStruct} (hc : c ∈ k.gs) {f : String × RustCode.Ty} (hf : f ∈ c.fields) {d : CTy}
    (h : Ev fun n => Shows k tg env f.2 d none n) : Ev fun n => k.glslStruct tg env n (ty c.name) = none := by
  refine h.succ fun n hn => ?_
  rw [struct_consts hk hc, mapM_none hf (field_const hn (found_home _ _))]
  rfl

/-- Without the derive. -/
theorem underived_glsl (hk : k.Ok) {c : ClientStruct} (hc : c ∈ k.cs) (hg : c ∉ k.gs) (n : Nat) :
    k.glslName tg env n (ty c.name) = none ∧ k.glslStruct tg env n (ty c.name) = none := by
  have hx := src_mem hc
  unfold Client.glslStruct Client.glslName
  rw [sem_eq hk]
  cases n with
  | zero => exact ⟨rfl, rfl⟩
  | succ n =>
    rw [own_norm hx (not_self hk hx) home_top, Option.bind_some, Option.bind_some]
    unfold Sem.find
    rw [glsl_cands_none hk hc hg (.inl rfl), glsl_cands_none hk hc hg (.inr rfl)]
    exact ⟨rfl, rfl⟩

end Crevice.ClientProof
