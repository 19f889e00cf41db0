import Verif.Proof.ClientPad
import Verif.Proof.ClientCands
/-
The struct that a derive generates: its fields, layout, alignment and traits.
-/
namespace Crevice.ClientProof
open RustCode RustTypes TypeNames ClientText Tables
open Tokens (Ev)

variable {k : Client} {tg : Target} {env : ForeignEnv} {l : Layout}

theorem own_norm {x : String} (hx : x ∈ k.names) (hs : x ≠ "Self") {s : Scope} (h : Home s) (n : Nat) :
    (K k tg env (n + 1)).norm s (ty x) = some (own x) := by
  rw [norm_next]
  unfold ty
  rw [normRule_path, if_neg (by simpa using hs)]
  unfold normNamed
  dsimp only
  rw [h.vars x hs, h.module]
  dsimp only
  rw [show resolveName (kx k).names "" [x] = _ from resolve_declared hx]
  rfl

theorem not_self (hk : k.Ok) {x : String} (hx : x ∈ k.names) : x ≠ "Self" := by
  rintro rfl
  exact hk.free _ hx (by decide)

/-- `u8` -/
abbrev u8C : CTy := .named ["u8"] []

theorem u8_norm (hk : k.Ok) {s : Scope} (h : Home s) (n : Nat) : (K k tg env (n + 1)).norm s (ty "u8") = some u8C := by
  rw [norm_next]
  unfold ty
  rw [normRule_path, if_neg (by decide)]
  unfold normNamed
  dsimp only
  rw [h.vars "u8" (by decide), h.module]
  dsimp only
  have hn : "u8" ∉ k.names := fun hx => hk.free _ hx (by decide)
  rw [show resolveName (kx k).names "" ["u8"] = _ from resolve_undeclared hn]
  rw [show resolveName theNames "" ["u8"] = some ["u8"] from by kernel_rfl]
  rfl

theorem u8_layout (n : Nat) : (K k tg env (n + 1)).layout u8C = some (.scalar .u8) := by
  show layoutRule (kx k) (clientOutside tg env) (K k tg env n) u8C = _
  unfold layoutRule
  dsimp only
  rw [structs_same ["u8"] (by decide), show theStructs.lookup ["u8"] = none from by kernel_rfl]
  rfl

theorem u8_ok (k : Client) : COk (viewC k) u8C := by
  unfold COk
  exact ⟨show ∀ x ∈ ["u8"], x ≠ "" by decide, by unfold COks; trivial⟩

theorem u8_traits {t : String} (ht : t ∈ ["Debug", "Clone", "Copy"]) (n : Nat) :
    (K k tg env (n + 3)).implements [t] u8C = some true := by
  have hc : (viewC k).trait [t] := (by decide : ∀ t ∈ ["Debug", "Clone", "Copy"], [t] ∈ coreTraits) t ht
  rw [← (sameC k tg env (n + 3)).implements hc (u8_ok k)]
  have : ["Debug", "Clone", "Copy"].map (fun t => (G env (n + 3)).implements [t] u8C) =
      ["Debug", "Clone", "Copy"].map fun _ => some true := by kernel_rfl
  exact forall_of_map this t ht

theorem array_traits {t : String} (ht : t ∈ ["Debug", "Clone", "Copy"]) (n a : Nat) :
    (K k tg env (n + 4)).implements [t] (.array u8C a) = some true := by
  have hc : (viewC k).trait [t] := (by decide : ∀ t ∈ ["Debug", "Clone", "Copy"], [t] ∈ coreTraits) t ht
  have ha : COk (viewC k) (.array u8C a) := by
    unfold COk
    exact u8_ok k
  rw [← (sameC k tg env (n + 4)).implements hc ha]
  have : ["Debug", "Clone", "Copy"].map (fun t => (G env (n + 4)).implements [t] (.array u8C a)) =
      ["Debug", "Clone", "Copy"].map fun _ => some true := by kernel_rfl
  exact forall_of_map this t ht

/-! ### Fields -/

/-- The generated fields with index from `i` on; `p` are the paddings. -/
def outFields (p : Nat → Nat) : Nat → List (Row k tg env l) → List (String × CTy)
  | _, [] => []
  | i, r :: rs => (r.name, r.O) :: (padFieldName i, .array u8C (p i)) :: outFields p (i + 1) rs

/-- The generated fields as they are written. -/
def codeFields (l : Layout) (name : String) : Nat → List (String × RustCode.Ty) → List (String × RustCode.Ty)
  | _, [] => []
  | i, r :: rs => (r.1, outTy l r.2) :: (padFieldName i, .array (ty "u8") (.call (.var (padFnName l name i)) [])) ::
      codeFields l name (i + 1) rs

theorem genFields_code (c : ClientStruct) (l : Layout) : genFields (c, l) = codeFields l c.name 0 c.fields := by
  unfold genFields genOf
  dsimp only
  generalize c.fields = fs
  generalize 0 = i
  induction fs generalizing i with
  | nil => rfl
  | cons f fs ih =>
    rw [List.zipIdx_cons, List.map_cons, List.flatten_cons, List.map_append, ih]
    rfl

theorem src_fields (hk : k.Ok) {c : ClientStruct} (hc : c ∈ k.cs) {rows : List (Row k tg env l)} (hr : c.fields = rows.map Row.src) :
    Ev fun n => fieldsOf (kx k) (clientOutside tg env) (K k tg env n) (own c.name) = some (rows.map fun r => (r.name, r.c)) := by
  refine (ev_all rows fun r _ => r.ev).mono fun n h => ?_
  unfold fieldsOf
  dsimp only
  rw [src_lookup hk hc]
  have hs : Home ⟨"", [], [], []⟩ := home_top
  show c.fields.mapM (fun f => ((K k tg env n).norm ⟨"", [], [], []⟩ f.2).map fun c => (f.1, c)) = _
  rw [hr]
  clear hr
  induction rows with
  | nil => rfl
  | cons r rows ih =>
    rw [List.map_cons, List.mapM_cons, ih fun x hx => h x (List.mem_cons_of_mem _ hx)]
    rw [show (K k tg env n).norm _ r.src.2 = _ from (h r List.mem_cons_self).norm _ hs]
    rfl

theorem gen_fields (hk : k.Ok) {c : ClientStruct} (hd : (c, l) ∈ k.ds) {rows : List (Row k tg env l)}
    (hr : c.fields = rows.map Row.src) :
    Ev fun n => fieldsOf (kx k) (clientOutside tg env) (K k tg env n) (own (generatedName l c.name)) =
      some (outFields (padAt tg (structAl l (rows.map Row.impl)) (rows.map Row.impl)) 0 rows) := by
  have h1 := ev_all rows fun r _ => out_norm r
  have h2 : Ev fun n => ∀ i ∈ List.range rows.length, ∀ s, Home s →
      (K k tg env n).norm s (.array (ty "u8") (.call (.var (padFnName l c.name i)) [])) =
        some (.array u8C (padAt tg (structAl l (rows.map Row.impl)) (rows.map Row.impl) i)) := by
    refine ev_all _ fun i hi => ?_
    have hp := pad_const hk hd hr i (List.mem_range.1 hi)
    refine (hp.and (⟨1, fun n h => h⟩ : Ev fun n => 1 ≤ n)).succ fun n h s hs => ?_
    rw [norm_next]
    simp only [normRule]
    obtain ⟨m, rfl⟩ : ∃ m, n = m + 1 := ⟨n - 1, by omega⟩
    rw [u8_norm hk hs, Option.bind_some]
    simp only [constLen]
    rw [h.1 s hs]
    rfl
  refine (h1.and h2).mono fun n h => ?_
  · unfold fieldsOf
    dsimp only
    rw [gen_lookup hk hd]
    show (genFields (c, l)).mapM _ = _
    rw [genFields_code, hr]
    have hs : Home ⟨"", [], [], []⟩ := home_top
    generalize hp : padAt tg (structAl l (rows.map Row.impl)) (rows.map Row.impl) = p at h ⊢
    have key : ∀ (rs : List (Row k tg env l)) (i : Nat), (∀ r ∈ rs, r ∈ rows) → i + rs.length = rows.length →
        (codeFields l c.name i (rs.map Row.src)).mapM (fun f => ((K k tg env n).norm ⟨"", [], [], []⟩ f.2).map fun c => (f.1, c)) =
          some (outFields p i rs) := by
      intro rs
      induction rs with
      | nil => exact fun _ _ _ => rfl
      | cons r rs ih =>
        intro i hm hi
        rw [List.map_cons, codeFields, List.mapM_cons, List.mapM_cons, ih (i + 1) (fun x hx => hm x (List.mem_cons_of_mem _ hx))
          (by rw [List.length_cons] at hi; omega)]
        rw [show (K k tg env n).norm _ (outTy l r.src.2) = _ from h.1 r (hm r List.mem_cons_self) _ hs]
        rw [h.2 i (List.mem_range.2 (by rw [List.length_cons] at hi; omega)) _ hs]
        rfl
    exact key rows 0 (fun _ h => h) (by omega)

end Crevice.ClientProof
