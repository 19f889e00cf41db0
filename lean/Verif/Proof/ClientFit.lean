import Verif.Proof.ClientSame
import Verif.Proof.TextResolve
/-
Types of crevice in a crate that uses it.
-/
namespace Crevice.ClientProof
open RustCode RustTypes TypeNames ClientText Tables

/-- A semantics gives a type an implementation, with `Output = O`. -/
structure FitAt (g : Sem) (l : Layout) (c O : CTy) (i : Impl) : Prop where
  conv : ∃ f, g.find [mod l, asTrait l] [] c = some f ∧
    (∀ v, g.call f (asName l) (some (c, v)) [] = (i.asStd v).map fun w => (O, w)) ∧
    (∀ v, g.call f (fromName l) none [(O, v)] = (i.fromStd v).map fun w => (c, w))
  project : g.project [mod l, asTrait l] c "Output" = some O
  layout : g.layout O = some i.out
  std : ∃ f, g.find [mod l, stdTrait l] [] O = some f ∧
    (assocConst f.items "ALIGNMENT").bind (g.const f.scope []) = some (.nat i.alignment)
  debug : g.implements ["Debug"] O = some i.outDebug
  zeroable : g.implements ["Zeroable"] O = some true
  pod : g.implements ["Pod"] O = some true
  copy : g.implements ["Copy"] O = some true
  clone : g.implements ["Clone"] O = some true
  blanket : g.candidates [mod l, asTrait l] [] O = some [blanketFound l O]

theorem FitAt.impl {g : Sem} {l : Layout} {c O : CTy} {i : Impl} (h : FitAt g l c O i) : semImpl g l c = some i := by
  obtain ⟨f, hf, ha, hb⟩ := h.conv
  obtain ⟨s, hs, hal⟩ := h.std
  unfold semImpl
  simp only [Option.bind_some, hf, h.project, h.layout, hs, hal, h.debug, ha, hb, Option.map_map]
  congr 1
  cases i
  simp only [Impl.mk.injEq, true_and]
  exact ⟨by funext v; simp [Function.comp_def], by funext v; simp [Function.comp_def], trivial⟩

/-- Where the derives of the crate stand. -/
structure Home (s : Scope) : Prop where
  module : s.module = ""
  vars : ∀ x, x ≠ "Self" → s.vars.lookup x = none

theorem home_top : Home topScope := ⟨rfl, fun _ _ => rfl⟩

/-- In the crate `t` stands for `c`, which is implemented. -/
structure Fits (k : Client) (tg : Target) (env : ForeignEnv) (l : Layout) (t : RustCode.Ty) (c O : CTy) (i : Impl) (n : Nat) :
    Prop where
  norm : ∀ s, Home s → (K k tg env n).norm s t = some c
  fit : FitAt (K k tg env n) l c O i

variable {k : Client} {tg : Target} {env : ForeignEnv} {l : Layout}

theorem core_as (l : Layout) : (viewC k).trait [mod l, asTrait l] := by
  show _ ∈ coreTraits
  cases l <;> decide

theorem core_std (l : Layout) : (viewC k).trait [mod l, stdTrait l] := by
  show _ ∈ coreTraits
  cases l <;> decide

theorem fit_same {g g' : Sem} (hg : Same (viewC k) g g') {c O : CTy} {i : Impl} (hc : COk (viewC k) c) (h : FitAt g l c O i) :
    FitAt g' l c O i := by
  have nil : COks (viewC k) [] := by unfold COks; trivial
  have tr : ∀ {x : String}, [x] ∈ coreTraits → ∀ {b : Bool}, COk (viewC k) O → g.implements [x] O = some b →
      g'.implements [x] O = some b := by
    intro x hx b hO h
    rw [← h, hg.implements (show (viewC k).trait [x] from hx) hO]
  obtain ⟨f, hf, ha, hb⟩ := h.conv
  obtain ⟨s, hs, hal⟩ := h.std
  obtain ⟨h1, h2⟩ := find_same hg (core_as l) nil hc
  obtain ⟨h3, h4⟩ := project_same hg (core_as l) hc "Output"
  have hO : COk (viewC k) O := h4 O (h3 ▸ h.project)
  obtain ⟨h5, h6⟩ := find_same hg (core_std l) nil hO
  have hfok := h2 f (h1 ▸ hf)
  have hsok := h6 s (h5 ▸ hs)
  refine ⟨⟨f, h1 ▸ hf, fun v => ?_, fun v => ?_⟩, h3 ▸ h.project, hg.layout hO ▸ h.layout, ⟨s, h5 ▸ hs, ?_⟩,
    tr (by decide) hO h.debug, tr (by decide) hO h.zeroable, tr (by decide) hO h.pod, tr (by decide) hO h.copy,
    tr (by decide) hO h.clone, ?_⟩
  · rw [← ha v]
    exact (call_same hg hfok _ (self := some (c, v)) (by intro r hr; injection hr with hr; subst hr; exact hc)
      (args := []) (by intro r hr; cases hr)).1.symm
  · rw [← hb v]
    exact (call_same hg hfok _ (self := none) (by intro r hr; cases hr) (args := [(O, v)])
      (by intro r hr; rw [List.mem_singleton.1 hr]; exact hO)).1.symm
  · rw [← hal]
    exact (bind_same rfl fun e he => hg.const hsok.scope (assocConst_ok hsok.items he)).symm
  · rw [← h.blanket]
    exact (hg.candidates (core_as l) nil hO).1.symm

/-! ### Types without names of the crate -/

/-- Names of machine types. -/
def machine : List String := ["f32", "f64", "i32", "u32", "u8", "bool"]

/-- Paths that do not depend on the crate. -/
def libPath : List String → Bool
  | [] => false
  | [x] => machine.contains x
  | x :: p => x != "Self" && full (x :: p)

/-- The traits `AsStd140` and `AsStd430` with their full paths. -/
def libVia : RustCode.Ty → Bool
  | .path p _ => p == ["crate", "std140", "AsStd140"] || p == ["crate", "std430", "AsStd430"]
  | _ => false

mutual
/-- Types that do not depend on the crate. -/
def libTy : RustCode.Ty → Bool
  | .path p args => libPath p && libTys args
  | .proj t via _ => libTy t && libVia via
  | _ => false
/-- All of them. -/
def libTys : List RustCode.Ty → Bool
  | [] => true
  | t :: ts => libTy t && libTys ts
end

theorem libPath_ok (hk : k.Ok) {p : List String} (h : libPath p = true) : (viewC k).path "" p ∧ p.head? ≠ some "Self" := by
  rcases p with _ | ⟨x, _ | ⟨y, p⟩⟩
  · cases h
  · have hx : x ∈ machine := by simpa [libPath] using h
    refine ⟨⟨?_, fun _ z hz hn => ?_⟩, ?_⟩
    · intro z hz
      rw [List.mem_singleton.1 hz]
      revert hx
      have : ∀ x ∈ machine, x ≠ "" := by decide
      exact this x
    · injection hz with hz
      subst hz
      have : ∀ x ∈ machine, x ∈ ["Self", "f32", "f64", "i32", "u32", "u8", "bool", "Zeroable", "Pod"] := by decide
      exact hk.free x hn (this x hx)
    · intro e
      injection e with e
      subst e
      exact absurd hx (by decide)
  · simp only [libPath, Bool.and_eq_true] at h
    refine ⟨⟨full_iff.1 h.2, fun _ z hz => by cases hz⟩, ?_⟩
    intro e
    injection e with e
    subst e
    exact absurd h.1 (by decide)

theorem libVia_ok {t : RustCode.Ty} (h : libVia t = true) : ViaOk (viewC k) "" t := by
  cases t with
  | path p args =>
    simp only [libVia, Bool.or_eq_true, beq_iff_eq] at h
    have hr : ∀ q : List String, (∀ x ∈ p, x ≠ "") → (∀ x, p ≠ [x]) → resolveName theNames "" p = some q → q ∈ coreTraits →
        ViaOk (viewC k) "" (.path p args) := by
      intro q h1 h2 h3 h4
      refine ⟨⟨h1, fun _ x hx => absurd hx (h2 x)⟩, fun q' hq => ?_⟩
      rw [h3] at hq
      injection hq with hq
      exact hq ▸ h4
    rcases h with rfl | rfl
    · exact hr ["std140", "AsStd140"] (by decide) (fun _ => by simp) (resolve_asTrait .std140 "") (by decide)
    · exact hr ["std430", "AsStd430"] (by decide) (fun _ => by simp) (resolve_asTrait .std430 "") (by decide)
  | _ => trivial

mutual
theorem libTy_ok (hk : k.Ok) : ∀ t : RustCode.Ty, libTy t = true → TyOk (viewC k) "" t
  | .path p args, h => by
    simp only [libTy, Bool.and_eq_true] at h
    unfold TyOk
    exact ⟨(libPath_ok hk h.1).1, libTys_ok hk args h.2⟩
  | .proj t via ns, h => by
    simp only [libTy, Bool.and_eq_true] at h
    unfold TyOk
    exact ⟨libTy_ok hk t h.1, libVia_ok h.2⟩
  | .array _ _, h => by simp [libTy] at h
  | .ref _ _, h => by simp [libTy] at h
  | .slice _, h => by simp [libTy] at h
  | .unit, h => by simp [libTy] at h
theorem libTys_ok (hk : k.Ok) : ∀ ts : List RustCode.Ty, libTys ts = true → TysOk (viewC k) "" ts
  | [], _ => by unfold TysOk; trivial
  | t :: ts, h => by
    simp only [libTys, Bool.and_eq_true] at h
    unfold TysOk
    exact ⟨libTy_ok hk t h.1, libTys_ok hk ts h.2⟩
end

theorem libTys_iff {ts : List RustCode.Ty} : libTys ts = true ↔ ∀ t ∈ ts, libTy t = true := by
  induction ts with
  | nil => simp [libTys]
  | cons t ts ih => simp [libTys, ih]

theorem normNamed_free {ix : Index} {g : Sem} {s : Scope} {p : List String} {args : List RustCode.Ty}
    (h : ∀ x, p = [x] → s.vars.lookup x = none) :
    normNamed ix g s p args = (resolveName ix.names s.module p).bind fun q => (args.mapM (g.norm s)).map (.named q) := by
  unfold normNamed
  rcases p with _ | ⟨x, _ | ⟨y, p⟩⟩
  · rfl
  · dsimp only
    rw [h x rfl]
  · rfl

/-- Such types mean the same everywhere in the crate. -/
theorem lib_home (hk : k.Ok) {s : Scope} (hs : Home s) (n : Nat) :
    ∀ t, libTy t = true → (K k tg env n).norm s t = (K k tg env n).norm topScope t := by
  induction n with
  | zero => exact fun _ _ => rfl
  | succ n ih =>
    intro t ht
    show normRule (kx k) (K k tg env n) s t = normRule (kx k) (K k tg env n) topScope t
    cases t with
    | path p args =>
      simp only [libTy, Bool.and_eq_true] at ht
      have hp := (libPath_ok hk ht.1).2
      rw [normRule_path, normRule_path, if_neg hp, if_neg hp]
      have hm : args.mapM ((K k tg env n).norm s) = args.mapM ((K k tg env n).norm topScope) :=
        mapM_same fun t hm => ih t (libTys_iff.1 ht.2 t hm)
      have hv : ∀ x, p = [x] → s.vars.lookup x = none := fun x e => hs.vars x fun e' => hp (by rw [e, e']; rfl)
      rw [normNamed_free hv, normNamed_free (s := topScope) (fun _ _ => rfl), hm, hs.module]
      rfl
    | proj t via ns =>
      simp only [libTy, Bool.and_eq_true] at ht
      rw [normRule_proj, normRule_proj, ih t ht.1, hs.module]
      rfl
    | _ => simp [libTy] at ht

theorem writes_lib {t : RustCode.Ty} {T : Crevice.Ty} (h : Writes t T) (hr : ∃ l, (resolve tg env l T).isSome) :
    libTy t = true := by
  induction h with
  | scalar s => cases s <;> decide
  | bool => decide
  | math m =>
    obtain ⟨lib, kind, sc, dim⟩ := m
    unfold mathRustTy mathName
    dsimp only
    cases lib <;> cases kind <;> cases sc <;> dsimp only <;> split <;> decide
  | foreign lib name arg hl hn ha =>
    obtain ⟨l, hr⟩ := hr
    cases hm : mintyRow (pathText [lib, name] arg.toList) with
    | none =>
      simp only [resolve, hm] at hr
      cases hr
    | some row =>
      obtain ⟨hrow, hf⟩ := Tables.mintyRow_mem hm
      have h := foreignRustTy_pathText (ident_lib hl) hn ha
      rw [← hf] at h
      show libTy (.path [lib, name] (argTys arg)) = true
      rw [← h]
      have : ∀ r ∈ mintyRows, libTy (foreignRustTy r.foreign) = true := by decide +kernel
      exact this row hrow
  | dynamic _ ih =>
    obtain ⟨l, hr⟩ := hr
    cases l with
    | std430 => cases hr
    | std140 =>
      simp only [resolve, Option.isSome_map] at hr
      have := ih ⟨.std140, hr⟩
      simp only [libTy, libTys, this, Bool.and_true]
      decide
  | output l' _ ih =>
    obtain ⟨l, hr⟩ := hr
    simp only [resolve] at hr
    split at hr
    · simp only [Option.isSome_map] at hr
      have := ih ⟨_, hr⟩
      simp only [libTy, this, Bool.true_and]
      cases l' <;> decide
    · cases hr

/-- The types of crevice. -/
theorem lib_fits (hk : k.Ok) {t : RustCode.Ty} {T : Crevice.Ty} {i : Impl} (h : Writes t T)
    (hr : resolve tg env l T = some i) : ∃ c O N, ∀ n ≥ N, Fits k tg env l t c O i n := by
  have hlib := writes_lib (tg := tg) (env := env) h ⟨l, by rw [hr]; rfl⟩
  have hty := libTy_ok hk t hlib
  have htop : ScopeOk (viewC k) topScope :=
    ⟨fun x hx => (nomatch hx), fun x hx => (nomatch hx), fun x hx => (nomatch hx)⟩
  rcases agree tg env h with ⟨-, -, h0⟩ | ⟨c, ⟨N, hN⟩, -, O, hO, -⟩
  · rw [(h0 l).1] at hr
    cases hr
  · rcases hO l with ⟨h0, -⟩ | ⟨j, hj, ⟨M, hM⟩, -⟩
    · rw [h0] at hr
      cases hr
    · rw [hj] at hr
      injection hr with hr
      subst hr
      refine ⟨c, O l, N + M, fun n hn => ?_⟩
      obtain ⟨e1, e2⟩ := (sameC k tg env n).norm htop hty
      have hnc := hN n (by omega)
      have hc : COk (viewC k) c := e2 c (e1 ▸ hnc)
      refine ⟨fun s hs => ?_, ?_⟩
      · rw [lib_home hk hs n t hlib, ← e1, hnc]
      · obtain ⟨⟨f, hf, hp, ha, hb⟩, ho, hbl⟩ := hM n (by omega)
        exact fit_same (sameC k tg env n) hc ⟨⟨f, hf, ha, hb⟩, hp, ho.layout, ho.std, ho.debug, ho.zeroable, ho.pod, ho.copy, ho.clone, hbl⟩

end Crevice.ClientProof
