import Verif.Proof.ClientOut
/-
A struct of the crate with a derive.
-/
namespace Crevice.ClientProof
open RustCode RustTypes TypeNames ClientText Tables
open Tokens (Ev)

variable {k : Client} {tg : Target} {env : ForeignEnv} {l : Layout}

theorem ev_ge (a : Nat) : Ev fun n => a ≤ n := ⟨a, fun _ h => h⟩

/-! ### Layout -/

/-- The fields in memory. -/
def memFields (p : Nat → Nat) : Nat → List (Row k tg env l) → List (String × RTy)
  | _, [] => []
  | i, r :: rs => (r.name, r.i.out) :: (padFieldName i, .array (.scalar .u8) (p i)) :: memFields p (i + 1) rs

theorem memFields_eq (rows : List (Row k tg env l)) (sal : Nat) :
    memFields (padAt tg sal (rows.map Row.impl)) 0 rows = Crevice.genFields tg sal 0 0 (rows.map Row.impl) := by
  have key : ∀ m i, m + i = rows.length → memFields (padAt tg sal (rows.map Row.impl)) i (rows.drop i) =
      Crevice.genFields tg sal i (offs tg sal (rows.map Row.impl) i) ((rows.map Row.impl).drop i) := by
    intro m
    induction m with
    | zero =>
      intro i hi
      rw [List.drop_eq_nil_of_le (by omega), List.drop_eq_nil_of_le (by rw [List.length_map]; omega)]
      rfl
    | succ m ih =>
      intro i hi
      have hlt : i < rows.length := by omega
      have hlt' : i < (rows.map Row.impl).length := by rw [List.length_map]; omega
      rw [List.drop_eq_getElem_cons hlt, List.drop_eq_getElem_cons hlt', memFields, ih (i + 1) (by omega), offs_succ hlt']
      rw [show (rows.map Row.impl)[i] = (rows[i].name, rows[i].i) from by rw [List.getElem_map]; rfl]
      rw [Crevice.genFields]
      have hp : padAt tg sal (rows.map Row.impl) i = alignOffset (offs tg sal (rows.map Row.impl) i + rows[i].i.out.size tg)
          (nextAl sal ((rows.map Row.impl).drop (i + 1))) := by
        unfold padAt
        rw [List.getElem?_eq_getElem hlt', List.getElem_map]
        rfl
      rw [hp]
  exact key rows.length 0 (by omega)

theorem outFields_names (p : Nat → Nat) (rows : List (Row k tg env l)) (i : Nat) :
    (outFields p i rows).map Prod.fst = (memFields p i rows).map Prod.fst := by
  induction rows generalizing i with
  | nil => rfl
  | cons r rows ih => simp only [outFields, memFields, List.map_cons, ih]

theorem layout_next (k : Client) (tg : Target) (env : ForeignEnv) (n : Nat) (c : CTy) :
    (K k tg env (n + 1)).layout c = layoutRule (kx k) (clientOutside tg env) (K k tg env n) c := rfl

theorem pad_layout (n a : Nat) : (K k tg env (n + 2)).layout (.array u8C a) = some (.array (.scalar .u8) a) := by
  rw [layout_next]
  simp only [layoutRule]
  rw [u8_layout]
  rfl

theorem mem_layout (p : Nat → Nat) (rows : List (Row k tg env l)) : Ev fun n => ∀ i,
    (outFields p i rows).mapM (fun f => ((K k tg env n).layout f.2).map fun r => (f.1, r)) = some (memFields p i rows) := by
  refine ((ev_all rows fun r _ => r.ev).and (ev_ge 2)).mono fun n h => ?_
  obtain ⟨h, hn⟩ := h
  obtain ⟨m, rfl⟩ : ∃ m, n = m + 2 := ⟨n - 2, by omega⟩
  clear hn
  induction rows with
  | nil => exact fun _ => rfl
  | cons r rows ih =>
    intro i
    rw [outFields, List.mapM_cons, List.mapM_cons, (h r List.mem_cons_self).fit.layout, pad_layout,
      ih fun x hx => h x (List.mem_cons_of_mem _ hx)]
    rfl

theorem gen_layout (hk : k.Ok) {c : ClientStruct} (hd : (c, l) ∈ k.ds) {rows : List (Row k tg env l)}
    (hr : c.fields = rows.map Row.src) : Ev fun n => (K k tg env n).layout (own (generatedName l c.name)) =
      some (.struct (Crevice.genFields tg (structAl l (rows.map Row.impl)) 0 0 (rows.map Row.impl))) := by
  refine ((gen_fields hk hd hr).and (mem_layout (padAt tg (structAl l (rows.map Row.impl)) (rows.map Row.impl)) rows)).succ
    fun n h => ?_
  rw [layout_next]
  unfold layoutRule
  dsimp only
  rw [gen_lookup hk hd]
  dsimp only
  rw [h.1, Option.bind_some, h.2 0, Option.bind_some, ← memFields_eq]
  rfl

/-! ### Traits -/

theorem own_home (x : String) (items : List Assoc) : Home (ownFound x items).scope := by
  refine ⟨rfl, fun y hy => ?_⟩
  unfold ownFound
  have : (y == "Self") = false := by simpa using hy
  simp only [List.lookup, this]

theorem gen_std (hk : k.Ok) {c : ClientStruct} (hd : (c, l) ∈ k.ds) {rows : List (Row k tg env l)}
    (hr : c.fields = rows.map Row.src) : Ev fun n =>
      ∃ f, (K k tg env n).find [mod l, stdTrait l] [] (own (generatedName l c.name)) = some f ∧
        (assocConst f.items "ALIGNMENT").bind ((K k tg env n).const f.scope []) =
          some (.nat (structAl l (rows.map Row.impl))) := by
  refine ((struct_const rows).and (ev_ge 1)).mono fun n h => ?_
  obtain ⟨h, hn⟩ := h
  obtain ⟨m, rfl⟩ : ∃ m, n = m + 1 := ⟨n - 1, by omega⟩
  refine ⟨_, find_of_candidates (gen_cands hk hd m (by cases l <;> decide) (items := (stdDef (c, l)).items) ?_), ?_⟩
  · cases l <;> rfl
  · have := h _ (own_home (generatedName l c.name) (stdDef (c, l)).items) []
    rw [← hr] at this
    exact this

theorem implements_next (k : Client) (tg : Target) (env : ForeignEnv) (n : Nat) (t : List String) (c : CTy) :
    (K k tg env (n + 1)).implements t c = implementsRule (kx k) (clientOutside tg env) (K k tg env n) t c := rfl

theorem gen_pod (hk : k.Ok) {c : ClientStruct} (hd : (c, l) ∈ k.ds) (n : Nat) {t : String} (ht : t ∈ ["Zeroable", "Pod"]) :
    (K k tg env (n + 2)).implements [t] (own (generatedName l c.name)) = some true := by
  rw [implements_next]
  unfold implementsRule
  rw [gen_cands hk hd n ((by decide : ∀ t ∈ ["Zeroable", "Pod"], [t] ∈ closedTraits) t ht) (items := []) ?_]
  · rfl
  · simp only [List.mem_cons, List.not_mem_nil, or_false] at ht
    rcases ht with rfl | rfl <;> cases l <;> rfl

theorem allM_true {α : Type} {p : α → Option Bool} {xs : List α} (h : ∀ x ∈ xs, p x = some true) : allM p xs = some true := by
  induction xs with
  | nil => rfl
  | cons x xs ih =>
    rw [allM, h x List.mem_cons_self, Option.bind_some, if_pos rfl]
    exact ih fun y hy => h y (List.mem_cons_of_mem _ hy)

theorem mem_outFields {p : Nat → Nat} {rows : List (Row k tg env l)} {i : Nat} {f : String × CTy} (h : f ∈ outFields p i rows) :
    (∃ r ∈ rows, f = (r.name, r.O)) ∨ ∃ a, f.2 = .array u8C a := by
  induction rows generalizing i with
  | nil => cases h
  | cons r rows ih =>
    rw [outFields] at h
    rcases List.mem_cons.1 h with rfl | h
    · exact .inl ⟨r, List.mem_cons_self, rfl⟩
    · rcases List.mem_cons.1 h with rfl | h
      · exact .inr ⟨_, rfl⟩
      · rcases ih h with ⟨r', h1, h2⟩ | h
        · exact .inl ⟨r', List.mem_cons_of_mem _ h1, h2⟩
        · exact .inr h

theorem gen_derived (hk : k.Ok) {c : ClientStruct} (hd : (c, l) ∈ k.ds) {rows : List (Row k tg env l)}
    (hr : c.fields = rows.map Row.src) {t : String} (ht : t ∈ ["Debug", "Clone", "Copy"])
    (hO : ∀ r ∈ rows, Ev fun n => (K k tg env n).implements [t] r.O = some true) :
    Ev fun n => (K k tg env n).implements [t] (own (generatedName l c.name)) = some true := by
  refine (((gen_fields hk hd hr).and (ev_all rows hO)).and (ev_ge 4)).succ fun n h => ?_
  obtain ⟨⟨hf, hO⟩, hn⟩ := h
  obtain ⟨m, rfl⟩ : ∃ m, n = m + 4 := ⟨n - 4, by omega⟩
  rw [implements_next]
  unfold implementsRule
  rw [derived_cands _ (m + 3) ht]
  simp only [Option.bind_some, List.isEmpty_nil, Bool.not_true, Bool.false_eq_true, if_false]
  rw [gen_lookup hk hd]
  dsimp only
  rw [show (genDef (c, l)).derives = ["Debug", "Clone", "Copy"] from rfl,
    if_pos ((by decide : ∀ t ∈ ["Debug", "Clone", "Copy"], ["Debug", "Clone", "Copy"].contains t = true) t ht), hf, Option.bind_some]
  refine allM_true fun f hf => ?_
  rcases mem_outFields hf with ⟨r, h1, rfl⟩ | ⟨a, h⟩
  · exact hO r h1
  · rw [h]
    exact array_traits ht m a

/-! ### The implementation for all `T: StdN` -/

theorem lib_implements {n : Nat} {t : List String} {c : CTy} {fs : List Found}
    (h : (K k tg env n).candidates t [] c = some fs) (ht : t.length = 2) :
    (K k tg env (n + 1)).implements t c = some !fs.isEmpty := by
  rw [implements_next]
  unfold implementsRule
  rw [h]
  match t, ht with
  | [a, b], _ => cases fs <;> rfl

theorem blanket_applies (n : Nat) (c : CTy) : applies (kx k) (K k tg env (n + 2)) [] c (blanketDef l) =
    ((K k tg env (n + 2)).implements [mod l, stdTrait l] c).map fun b => if b then some (blanketFound l c) else none := by
  have h : applies (kx k) (K k tg env (n + 2)) [] c (blanketDef l) =
      ((allM (fun t => (K k tg env (n + 2)).implements t c) [[mod l, stdTrait l]]).bind fun b =>
        if b then allM (fun _ => (none : Option Bool)) ([] : List Unit) else some false).map fun b =>
          if b then some (blanketFound l c) else none := by
    cases l <;> kernel_rfl
  rw [h]
  simp only [allM]
  cases (K k tg env (n + 2)).implements [mod l, stdTrait l] c with
  | none => rfl
  | some b => cases b <;> rfl

/-- The generated struct has only the implementation for all `T: StdN`. -/
theorem gen_blanket (hk : k.Ok) {c : ClientStruct} (hd : (c, l) ∈ k.ds) (n : Nat) :
    (K k tg env (n + 3)).candidates [mod l, asTrait l] [] (own (generatedName l c.name)) =
      some [blanketFound l (own (generatedName l c.name))] := by
  have e : jx.impls [mod l, asTrait l] = blanketDef l :: (asDefs l).tail := by cases l <;> rfl
  have hb : applies (kx k) (K k tg env (n + 2)) [] (own (generatedName l c.name)) (blanketDef l) =
      some (some (blanketFound l (own (generatedName l c.name)))) := by
    rw [blanket_applies, lib_implements (gen_cands hk hd n (by cases l <;> decide) (items := (stdDef (c, l)).items)
      (by cases l <;> rfl)) rfl]
    rfl
  rw [cands_next _ _ _ _ (notGlsl_as l), e, List.cons_append]
  refine filterMapM_one (xs := []) (fun _ h => (nomatch h)) hb fun i hi => ?_
  rcases List.mem_append.1 hi with hi | hi
  · have hv : ∀ i ∈ (asDefs l).tail, selfVar i = false := by
      have : ((asDefs l).tail.all fun i => !selfVar i) = true := by cases l <;> decide +kernel
      intro i hi
      simpa using List.all_eq_true.1 this i hi
    exact applies_none (crate_no_match (t := [mod l, asTrait l]) (by cases l <;> decide)
      (by rw [e]; exact List.mem_cons_of_mem _ hi) (hv i hi) _)
  · refine apart_none (fun _ h => h) (fun e he i hi hs => ?_) _ i hi
    rcases implsFor_cases hi with ⟨rfl, -⟩ | ⟨-, h⟩
    · exact src_ne_gen hk (k.known _ he) hd (name_ty hs).symm
    · have : ∀ l', [mod l, asTrait l] ≠ [mod l', asTrait l'] → implsFor [mod l, asTrait l] (e.1, l') = [] := by
        intro l' h
        unfold implsFor
        dsimp only
        rw [if_neg h]
        cases l <;> cases l' <;> first | exact absurd rfl h | rfl
      rw [show e = (e.1, e.2) from rfl, this e.2 h] at hi
      cases hi

end Crevice.ClientProof
