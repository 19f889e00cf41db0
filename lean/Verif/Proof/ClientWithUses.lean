import Verif.Proof.ClientWithSame
import Verif.Proof.FeatureTypes
import Verif.Model.TextClientFeatures
/-
Types that a crate uses with a set of features.
-/
namespace Crevice.ClientProof
open RustCode RustTypes TypeNames ClientText Tables
open Tokens (Ev)

/-- Structs whose fields are there with the features: those with an implementation and those with a name. -/
def Needs (k : Client) (f : Features) (tg : Target) (env : ForeignEnv) (c : ClientStruct) : Prop :=
  (∃ l fs, (c, l) ∈ k.ds ∧ UsesFields k l c.fields fs ∧ FieldsEnabled f fs ∧ (resolveFields tg env l fs).isSome) ∨
    ∃ fs, c ∈ k.gs ∧ GlslUsesFields k c.fields fs ∧ FieldsEnabled f fs ∧ (glslFieldNames fs).isSome

variable {k : Client} {f : Features} {tg : Target} {env : ForeignEnv}

mutual
theorem uses_ok (hk : k.Ok) {l : Layout} {t : RustCode.Ty} {T : Crevice.Ty} (h : Uses k l t T) (he : T.Enabled f)
    (hr : (resolve tg env l T).isSome) : TyOk (viewF k f (Needs k f tg env)) "" t := by
  cases h with
  | lib h =>
    have h1 : TyOk (view f) "" t := by
      by_cases ht : TyOk (view f) "" t
      · exact ht
      · rw [((none_of_not_ok tg env h he ht).1 l).1] at hr
        cases hr
    exact ty_joint (joint "") t h1 (libTy_ok hk t (writes_lib (tg := tg) (env := env) h ⟨l, hr⟩))
  | dynamic hl h =>
    subst hl
    unfold Ty.Enabled at he
    rw [resolve, Option.isSome_map] at hr
    unfold TyOk
    refine ⟨.inl (far_path (by decide) (by decide) (by decide)), ?_⟩
    simp only [TysOk, and_true]
    exact uses_ok hk h he hr
  | @output t T h =>
    unfold Ty.Enabled at he
    have hr' : (resolve tg env l (.output l T)).isSome := hr
    rw [resolve, if_pos (.inl rfl), Option.isSome_map] at hr'
    exact outTy_ok (uses_ok hk h he hr')
  | @struct c fs hc hd h =>
    unfold Ty.Enabled at he
    obtain ⟨i, hi⟩ := Option.isSome_iff_exists.1 hr
    obtain ⟨is, h1, -⟩ := resolve_rows hi
    exact own_ty ⟨c, hc, .inl ⟨l, fs, hd, h, he, by rw [h1]; rfl⟩, .inl rfl⟩
end

theorem usesFields_ok (hk : k.Ok) {l : Layout} : ∀ {fs : List (String × RustCode.Ty)} {Fs : List (String × Crevice.Ty)},
    UsesFields k l fs Fs → FieldsEnabled f Fs → (resolveFields tg env l Fs).isSome →
    ∀ x ∈ fs, TyOk (viewF k f (Needs k f tg env)) "" x.2
  | [], _, h, _, _ => fun x hx => nomatch hx
  | y :: fs, _, h, he, hr => by
    cases h with
    | @cons name t T _ Fs h r =>
      unfold FieldsEnabled at he
      rw [resolveFields] at hr
      cases h1 : resolve tg env l T with
      | none => rw [h1] at hr; cases hr
      | some i =>
        cases h2 : resolveFields tg env l Fs with
        | none => rw [h1, h2] at hr; cases hr
        | some is =>
          intro x hx
          rcases List.mem_cons.1 hx with rfl | hx
          · exact uses_ok hk h he.1 (by rw [h1]; rfl)
          · exact usesFields_ok hk r he.2 (by rw [h2]; rfl) x hx

theorem glslUses_ok (hk : k.Ok) {t : RustCode.Ty} {T : Crevice.Ty} (h : GlslUses k t T) (he : T.Enabled f)
    (hr : T.glslName.isSome) : TyOk (viewF k f (Needs k f tg env)) "" t := by
  cases h with
  | lib h =>
    have h1 : TyOk (view f) "" t := by
      by_cases ht : TyOk (view f) "" t
      · exact ht
      · rw [(none_of_not_ok tg env h he ht).2] at hr
        cases hr
    exact ty_joint (joint "") t h1 (libTy_ok hk t ((named_lib h).1 (Option.isSome_iff_exists.1 hr)))
  | @struct c fs hc h =>
    unfold Ty.Enabled at he
    simp only [Ty.glslName, emitGlsl, Bind.bind, Except.bind, pure, Except.pure, Option.isSome_map] at hr
    exact own_ty ⟨c, k.glslKnown c hc, .inr ⟨fs, hc, h, he, hr⟩, .inl rfl⟩

theorem glslUsesFields_ok (hk : k.Ok) : ∀ {fs : List (String × RustCode.Ty)} {Fs : List (String × Crevice.Ty)},
    GlslUsesFields k fs Fs → FieldsEnabled f Fs → (glslFieldNames Fs).isSome →
    ∀ x ∈ fs, TyOk (viewF k f (Needs k f tg env)) "" x.2
  | [], _, h, _, _ => fun x hx => nomatch hx
  | y :: fs, _, h, he, hr => by
    cases h with
    | @cons name t T _ Fs h r =>
      unfold FieldsEnabled at he
      rw [glslFieldNames] at hr
      cases h1 : T.glslName with
      | none => rw [h1] at hr; cases hr
      | some i =>
        cases h2 : glslFieldNames Fs with
        | none => rw [h1, h2] at hr; cases hr
        | some is =>
          intro x hx
          rcases List.mem_cons.1 hx with rfl | hx
          · exact glslUses_ok hk h he.1 (by rw [h1]; rfl)
          · exact glslUsesFields_ok hk r he.2 (by rw [h2]; rfl) x hx

theorem needs_ok (hk : k.Ok) : ∀ c ∈ k.cs, Needs k f tg env c → ∀ x ∈ c.fields, TyOk (viewF k f (Needs k f tg env)) "" x.2 := by
  intro c _ h
  rcases h with ⟨l, fs, -, h1, h2, h3⟩ | ⟨fs, -, h1, h2, h3⟩
  · exact usesFields_ok hk h1 h2 h3
  · exact glslUsesFields_ok hk h1 h2 h3

/-- The semantics of the crate with the features. -/
abbrev KF (k : Client) (f : Features) (tg : Target) (env : ForeignEnv) (n : Nat) : Sem := sem (kxf k f) (clientOutside tg env) n

theorem sem_eqF (hk : k.Ok) (f : Features) (tg : Target) (env : ForeignEnv) (n : Nat) : k.semWith f tg env n = KF k f tg env n := by
  unfold Client.semWith
  rw [index_eqF hk]

theorem sameF (hk : k.Ok) (f : Features) (tg : Target) (env : ForeignEnv) (n : Nat) :
    Same (viewF k f (Needs k f tg env)) (KF k f tg env n) (K k tg env n) :=
  sem_same (conservesF hk f (needs_ok hk) tg env) n

theorem topF {A : ClientStruct → Prop} : ScopeOk (viewF k f A) topScope :=
  ⟨fun _ hx => (nomatch hx), fun _ hx => (nomatch hx), fun _ hx => (nomatch hx)⟩

theorem constOfF {v : View} {g g' : Sem} (hg : Same v g g') {i : Found} (hi : FoundOk v i) (x : String) :
    (assocConst i.items x).bind (g.const i.scope []) = (assocConst i.items x).bind (g'.const i.scope []) :=
  bind_same rfl fun _ he => hg.const hi.scope (assocConst_ok hi.items he)

theorem semImplF {v : View} (hv : ∀ t ∈ coreTraits, v.trait t) {g g' : Sem} (hg : Same v g g') (l : Layout) {c : CTy} (hc : COk v c) :
    semImpl g l c = semImpl g' l c := by
  have nil : COks v [] := by unfold COks; trivial
  have has : v.trait [mod l, asTrait l] := hv _ (by cases l <;> decide)
  unfold semImpl
  obtain ⟨h1, h2⟩ := find_same hg has nil hc
  refine bind_same h1 fun i hi => ?_
  obtain ⟨h3, h4⟩ := project_same hg has hc "Output"
  refine bind_same h3 fun out ho => ?_
  have hout := h4 out ho
  refine bind_same (hg.layout hout) fun r _ => ?_
  obtain ⟨h5, h6⟩ := find_same hg (show v.trait [mod l, stdTrait l] from hv _ (by cases l <;> decide)) nil hout
  refine bind_same h5 fun std hs => ?_
  refine bind_same (constOfF hg (h6 std hs) "ALIGNMENT") fun al _ => ?_
  refine bind_same (hg.implements (hv _ (by decide)) hout) fun dbg _ => ?_
  cases al with
  | str s => rfl
  | nats s => rfl
  | nat al =>
    have e1 : ∀ v, g.call i (asName l) (some (c, v)) [] = g'.call i (asName l) (some (c, v)) [] := fun v =>
      (call_same hg (h2 i hi) _ (fun r hr => by injection hr with hr; subst hr; exact hc) (fun r hr => by cases hr)).1
    have e2 : ∀ v, g.call i (fromName l) none [(out, v)] = g'.call i (fromName l) none [(out, v)] := fun v =>
      (call_same hg (h2 i hi) _ (fun r hr => by cases hr)
        (fun r hr => by rw [List.mem_singleton.1 hr]; exact hout)).1
    simp only [e1, e2]

theorem semNameF {v : View} (hv : ∀ t ∈ coreTraits, v.trait t) {g g' : Sem} (hg : Same v g g') {c : CTy} (hc : COk v c) :
    semName g c = semName g' c := by
  unfold semName
  have nil : COks v [] := by unfold COks; trivial
  obtain ⟨h1, h2⟩ := find_same hg (hv ["glsl", "Glsl"] (by decide)) nil hc
  refine bind_same h1 fun i hi => ?_
  rw [constOfF hg (h2 i hi) "NAME"]

theorem implWith_same (hk : k.Ok) {l : Layout} {t : RustCode.Ty} (ht : TyOk (viewF k f (Needs k f tg env)) "" t) (n : Nat) :
    k.implWith f tg env n l t = k.impl tg env n l t := by
  unfold Client.implWith Client.impl
  rw [sem_eqF hk, sem_eq hk]
  obtain ⟨h1, h2⟩ := (sameF hk f tg env n).norm topF ht
  exact bind_same h1 fun c hc => semImplF (fun t ht => Or.inl ht) (sameF hk f tg env n) l (h2 c hc)

theorem name_str (g : Sem) (c : CTy) : semName g c = (g.find ["glsl", "Glsl"] [] c).bind fun f =>
    ((assocConst f.items "NAME").bind (g.const f.scope [])).bind Const.str? := by
  unfold semName
  congr 1

theorem nameWith_same (hk : k.Ok) {t : RustCode.Ty} (ht : TyOk (viewF k f (Needs k f tg env)) "" t) (n : Nat) :
    k.glslNameWith f tg env n t = k.glslName tg env n t := by
  unfold Client.glslNameWith Client.glslName
  rw [sem_eqF hk, sem_eq hk]
  obtain ⟨h1, h2⟩ := (sameF hk f tg env n).norm topF ht
  refine bind_same h1 fun c hc => ?_
  rw [← name_str]
  exact semNameF (fun t ht => Or.inl ht) (sameF hk f tg env n) (h2 c hc)

/-! ### `FIELDS` -/

theorem glsl_via {A : ClientStruct → Prop} : (viewF k f A).via "" ["crate", "glsl", "Glsl"] := core_via (by decide)

theorem constField_same {A : ClientStruct → Prop} {g g' : Sem} (hg : Same (viewF k f A) g g') {s : Scope} (hs : ScopeOk (viewF k f A) s)
    (hm : s.module = "") {x : String × RustCode.Ty} (hx : TyOk (viewF k f A) "" x.2) :
    constField g s (fieldCode x) = constField g' s (fieldCode x) := by
  have h1 : g.const s [] (.path (.proj x.2 (inGlsl "Glsl") ["NAME"])) = g'.const s [] (.path (.proj x.2 (inGlsl "Glsl") ["NAME"])) := by
    refine hg.const hs ?_
    simp only [ExprOk, PathOk, hm]
    refine ⟨hx, glsl_via, fun a ha => ?_⟩
    rw [List.mem_singleton.1 ha]
    show _ ∈ coreAssoc
    decide
  have h2 : g.const s [] (.str x.1) = g'.const s [] (.str x.1) := hg.const hs (by unfold ExprOk; trivial)
  show ((g.const s [] (.path (.proj x.2 (inGlsl "Glsl") ["NAME"]))).bind Const.str?).bind _ =
    ((g'.const s [] (.path (.proj x.2 (inGlsl "Glsl") ["NAME"]))).bind Const.str?).bind _
  rw [h1]
  refine bind_same rfl fun ty _ => ?_
  show ((g.const s [] (.str x.1)).bind Const.str?).map _ = ((g'.const s [] (.str x.1)).bind Const.str?).map _
  rw [h2]

theorem fieldsWith_same (hk : k.Ok) (hf : f.std = true) {c : ClientStruct} (hc : c ∈ k.gs) (hn : Needs k f tg env c) (n : Nat) :
    k.glslFieldsWith f tg env n (ty c.name) = (k.glslStruct tg env n (ty c.name)).map Prod.snd := by
  have hown : Owned k (Needs k f tg env) c.name := ⟨c, k.glslKnown c hc, hn, .inl rfl⟩
  cases n with
  | zero =>
    unfold Client.glslFieldsWith Client.glslStruct
    rw [sem_eqF hk, sem_eq hk]
    rfl
  | succ n =>
    have hS := sameF hk f tg env (n + 1)
    obtain ⟨h1, h2⟩ := hS.norm topF (own_ty hown)
    have hx := src_mem (k.glslKnown c hc)
    have hno := own_norm (tg := tg) (env := env) hx (not_self hk hx) home_top n
    rw [hno] at h1 h2
    have nil : COks (viewF k f (Needs k f tg env)) [] := by unfold COks; trivial
    obtain ⟨h3, h4⟩ := find_same hS (show (viewF k f (Needs k f tg env)).trait ["glsl", "GlslStruct"] from .inr (.inl ⟨hf, rfl⟩)) nil
      (h2 _ rfl)
    have hfind : (K k tg env (n + 1)).find ["glsl", "GlslStruct"] [] (own c.name) = some (ownFound c.name (fieldsDef c).items) := by
      unfold Sem.find
      rw [glsl_cands (tg := tg) (env := env) hk hc (.inr rfl) (items := (fieldsDef c).items) rfl n]
      rfl
    rw [hfind] at h3 h4
    rw [struct_consts hk hc, Option.map_map]
    unfold Client.glslFieldsWith
    rw [sem_eqF hk, h1, Option.bind_some, h3, Option.bind_some]
    have e : assocConst (fieldsDef c).items "FIELDS" = some (.ref false (.array (c.fields.map fieldCode))) := rfl
    rw [show (ownFound c.name (fieldsDef c).items).items = (fieldsDef c).items from rfl, e, Option.bind_some]
    unfold constFields
    dsimp only
    rw [mapM_map, mapM_same fun x hx => constField_same hS (h4 _ rfl).scope rfl (needs_ok hk c (k.glslKnown c hc) hn x hx)]
    cases (c.fields.mapM fun f => constField (K k tg env (n + 1)) (ownFound c.name (fieldsDef c).items).scope (fieldCode f)) <;> rfl

/-- Without `std`. -/
theorem no_std (hk : k.Ok) (hf : f.std = false) (n : Nat) (t : RustCode.Ty) : k.glslFieldsWith f tg env n t = none := by
  have e : (kxf k f).impls ["glsl", "GlslStruct"] = [] := by
    show (indexWith f).impls ["glsl", "GlslStruct"] ++ (k.ds.flatMap (implsFor ["glsl", "GlslStruct"]) ++
      k.gs.flatMap fun c => if f.std = false ∧ ["glsl", "GlslStruct"] = ["glsl", "GlslStruct"] then [] else
        glslFor ["glsl", "GlslStruct"] c) = []
    have h1 : (indexWith f).impls ["glsl", "GlslStruct"] = [] := by
      rw [with_impls_eq]
      cases f.std <;> kernel_rfl
    rw [h1, flatMap_nils _ _ fun c => if_pos ⟨hf, rfl⟩, flatMap_nils _ _ fun d => by
      unfold implsFor
      cases d.2 <;> rfl]
    rfl
  unfold Client.glslFieldsWith
  rw [sem_eqF hk]
  cases (KF k f tg env n).norm topScope t with
  | none => rfl
  | some c =>
    rw [Option.bind_some]
    have hc : ∀ n, (KF k f tg env n).find ["glsl", "GlslStruct"] [] c = none := by
      intro n
      unfold Sem.find
      cases n with
      | zero => rfl
      | succ n =>
        rw [Tables.candidates_next, e]
        rfl
    rw [hc]
    rfl

theorem fieldNames_of : ∀ {fs : List (String × Crevice.Ty)} {ds : List GlslField},
    (fs.mapM fun f => f.2.glslName.map fun ty => GlslField.mk ty f.1) = some ds → (glslFieldNames fs).isSome
  | [], _, _ => rfl
  | x :: fs, ds, h => by
    rw [mapM_option_cons] at h
    simp only [Option.bind_eq_some_iff, Option.map_eq_some_iff] at h
    obtain ⟨d, ⟨y, hy, rfl⟩, ds, hds, rfl⟩ := h
    obtain ⟨ns, hn⟩ := Option.isSome_iff_exists.1 (fieldNames_of hds)
    rw [glslFieldNames, hy, hn]
    rfl

theorem names_of_struct {name : String} {fs : List (String × Crevice.Ty)} {r : String × List GlslField}
    (h : glslStruct name fs = some r) : (glslFieldNames fs).isSome := by
  unfold glslStruct at h
  simp only [emitGlsl, Bind.bind, Except.bind, pure, Except.pure] at h
  rw [mapM_map, Option.map_eq_some_iff] at h
  obtain ⟨ds, hds, -⟩ := h
  exact fieldNames_of hds

end Crevice.ClientProof
