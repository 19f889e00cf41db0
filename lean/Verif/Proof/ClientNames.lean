import Verif.Proof.ClientConst
/-
Looking up the items of the crate.
-/
namespace Crevice.ClientProof
open RustCode RustTypes TypeNames ClientText Tables
open Tokens (Ev)

variable {k : Client} {tg : Target} {env : ForeignEnv} {l : Layout}

/-- The names that a derive declares. -/
def pieceNames (d : ClientStruct × Layout) : List String :=
  (genOf d.1 d.2).padFns.map Prod.fst ++ [generatedName d.2 d.1.name]

theorem piece_names (d : ClientStruct × Layout) : (pieceItems d).filterMap declared = pieceNames d := by
  rw [pieceItems_eq, List.filterMap_append]
  unfold pieceNames
  congr 1
  generalize (genOf d.1 d.2).padFns = fs
  induction fs with
  | nil => rfl
  | cons f fs ih =>
    rw [List.map_cons, List.filterMap_cons, List.map_cons, ← ih]
    show (padCode d.2 f).name :: _ = _
    rw [padCode_name]

theorem names_eq (k : Client) : k.names = (k.cs.map fun c => c.name) ++ k.ds.flatMap pieceNames := by
  unfold Client.names
  have hg : (k.gs.flatMap glslPiece).filterMap declared = [] := by
    rw [filterMap_flatMap']
    refine flatMap_nils _ _ fun c => ?_
    rw [glslPiece_eq]
    rfl
  rw [allItems_eq, List.filterMap_append, List.filterMap_append, hg, List.append_nil]
  congr 1
  · induction k.cs with
    | nil => rfl
    | cons c cs ih => rw [List.map_cons, List.filterMap_cons, List.map_cons, ← ih]; rfl
  · rw [filterMap_flatMap']
    exact flatMap_same fun d _ => piece_names d

theorem names_nodup (hk : k.Ok) : ((k.cs.map fun c => c.name) ++ k.ds.flatMap pieceNames).Nodup := by
  rw [← names_eq]
  exact hk.nodup

/-- A derive with the same generated name is the same. -/
theorem split_ds (hk : k.Ok) {d : ClientStruct × Layout} (hd : d ∈ k.ds) : ∃ as bs, k.ds = as ++ d :: bs ∧
    ∀ e, e ∈ as ∨ e ∈ bs → ∀ x ∈ pieceNames e, x ∉ pieceNames d := by
  obtain ⟨as, bs, h⟩ := List.append_of_mem hd
  refine ⟨as, bs, h, ?_⟩
  have hn := (List.nodup_append.1 (names_nodup hk)).2.1
  rw [h, List.flatMap_append, List.flatMap_cons] at hn
  obtain ⟨-, h2, h3⟩ := List.nodup_append.1 hn
  obtain ⟨-, -, h4⟩ := List.nodup_append.1 h2
  intro e he x hx hxd
  rcases he with he | he
  · exact h3 x (List.mem_flatMap.2 ⟨e, he, hx⟩) x (List.mem_append_left _ hxd) rfl
  · exact h4 x hxd x (List.mem_flatMap.2 ⟨e, he, hx⟩) rfl

theorem gen_mem (d : ClientStruct × Layout) : generatedName d.2 d.1.name ∈ pieceNames d := by
  simp [pieceNames]

theorem lookup_append_right {α β : Type} [BEq α] [LawfulBEq α] (xs ys : List (α × β)) {a : α} (h : ∀ x ∈ xs, x.1 ≠ a) :
    (xs ++ ys).lookup a = ys.lookup a := by
  induction xs with
  | nil => rfl
  | cons x xs ih =>
    obtain ⟨b, z⟩ := x
    have hb : (a == b) = false := by
      rw [beq_eq_false_iff_ne]
      exact fun e => h (b, z) List.mem_cons_self e.symm
    rw [List.cons_append, List.lookup_cons, hb]
    exact ih fun y hy => h y (List.mem_cons_of_mem _ hy)

theorem lookup_of_nodup {α β : Type} [BEq α] [LawfulBEq α] {xs : List (α × β)} (hn : (xs.map Prod.fst).Nodup) {a : α} {b : β}
    (h : (a, b) ∈ xs) : xs.lookup a = some b := by
  obtain ⟨ys, zs, rfl⟩ := List.append_of_mem h
  rw [lookup_append_right, List.lookup_cons, beq_self_eq_true]
  intro x hx e
  rw [List.map_append] at hn
  exact (List.nodup_append.1 hn).2.2 x.1 (List.mem_map.2 ⟨x, hx, rfl⟩) a (by simp) e

theorem structs_crate : ∀ s ∈ theStructs, ∀ x, s.1 ≠ ["", x] := by
  have : ∀ s ∈ theStructs, s.1.head? ≠ some "" := by decide +kernel
  intro s hs x e
  exact this s hs (by rw [e]; rfl)

theorem fns_crate : ∀ s ∈ theFns, ∀ x, s.1 ≠ ["", x] := by
  have : ∀ s ∈ theFns, s.1.head? ≠ some "" := by decide +kernel
  intro s hs x e
  exact this s hs (by rw [e]; rfl)

theorem src_lookup (hk : k.Ok) {c : ClientStruct} (hc : c ∈ k.cs) : (kx k).structs.lookup ["", c.name] = some (srcDef c) := by
  show (theStructs ++ _).lookup _ = _
  rw [lookup_append_right _ _ fun s hs => structs_crate s hs _]
  have hn := names_nodup hk
  obtain ⟨h1, -, h3⟩ := List.nodup_append.1 hn
  rw [lookup_append_left]
  · refine lookup_of_nodup ?_ (List.mem_map.2 ⟨c, hc, rfl⟩)
    rw [List.map_map]
    have : (Prod.fst ∘ fun c : ClientStruct => (["", c.name], srcDef c)) = (fun x => ["", x]) ∘ fun c => c.name := rfl
    rw [this, ← List.map_map]
    exact nodup_map_of_injective (fun a b h => by injection h with _ h; injection h) h1
  · intro y hy e
    obtain ⟨d, hd, rfl⟩ := List.mem_map.1 hy
    injection e with _ e
    injection e with e
    exact h3 c.name (List.mem_map.2 ⟨c, hc, rfl⟩) _ (List.mem_flatMap.2 ⟨d, hd, gen_mem d⟩) e.symm

theorem gen_lookup (hk : k.Ok) {d : ClientStruct × Layout} (hd : d ∈ k.ds) :
    (kx k).structs.lookup ["", generatedName d.2 d.1.name] = some (genDef d) := by
  show (theStructs ++ _).lookup _ = _
  rw [lookup_append_right _ _ fun s hs => structs_crate s hs _]
  obtain ⟨h1, -, h3⟩ := List.nodup_append.1 (names_nodup hk)
  rw [lookup_append_right]
  · obtain ⟨as, bs, h, ho⟩ := split_ds hk hd
    rw [h, List.map_append, lookup_append_right]
    · rw [List.map_cons, List.lookup_cons, beq_self_eq_true]
    · intro y hy e
      obtain ⟨d', hd', rfl⟩ := List.mem_map.1 hy
      injection e with _ e
      injection e with e
      exact ho d' (.inl hd') _ (gen_mem d') (e ▸ gen_mem d)
  · intro y hy e
    obtain ⟨c, hc, rfl⟩ := List.mem_map.1 hy
    injection e with _ e
    injection e with e
    exact h3 c.name (List.mem_map.2 ⟨c, hc, rfl⟩) _ (List.mem_flatMap.2 ⟨d, hd, gen_mem d⟩) e

theorem pad_lookup (hk : k.Ok) {d : ClientStruct × Layout} (hd : d ∈ k.ds) {i : Nat} (hi : i < d.1.fields.length) :
    (kx k).fns.lookup ["", padFnName d.2 d.1.name i] =
      some (padCode d.2 (padFnName d.2 d.1.name i, padBody d.2 d.1.fields (padFnNames d.2 d.1.name d.1.fields.length) i hi)) := by
  show (theFns ++ _).lookup _ = _
  rw [lookup_append_right _ _ fun s hs => fns_crate s hs _]
  have hmem : padFnName d.2 d.1.name i ∈ pieceNames d := by
    unfold pieceNames genOf
    refine List.mem_append_left _ ?_
    rw [List.map_map]
    exact List.mem_map.2 ⟨i, List.mem_range.2 hi, rfl⟩
  obtain ⟨as, bs, h, ho⟩ := split_ds hk hd
  rw [h, List.flatMap_append, lookup_append_right, List.flatMap_cons, lookup_append_left]
  · unfold genOf
    rw [List.map_map]
    refine lookup_of_nodup ?_ (List.mem_map.2 ⟨i, List.mem_range.2 hi, ?_⟩)
    · rw [List.map_map]
      refine nodup_map_of_injective (fun a b e => ?_) List.nodup_range
      injection e with _ e
      injection e with e
      exact padFnName_inj e
    · simp only [Function.comp_apply, dif_pos hi]
  · intro y hy e
    obtain ⟨d', hd', hy⟩ := List.mem_flatMap.1 hy
    obtain ⟨f, hf, rfl⟩ := List.mem_map.1 hy
    injection e with _ e
    injection e with e
    exact ho d' (.inr hd') f.1 (List.mem_append_left _ (List.mem_map.2 ⟨f, hf, rfl⟩)) (e ▸ hmem)
  · intro y hy e
    obtain ⟨d', hd', hy⟩ := List.mem_flatMap.1 hy
    obtain ⟨f, hf, rfl⟩ := List.mem_map.1 hy
    injection e with _ e
    injection e with e
    exact ho d' (.inl hd') f.1 (List.mem_append_left _ (List.mem_map.2 ⟨f, hf, rfl⟩)) (e ▸ hmem)

theorem pad_declared {c : ClientStruct} (hd : (c, l) ∈ k.ds) {i : Nat} (hi : i < c.fields.length) : padFnName l c.name i ∈ k.names := by
  rw [names_eq]
  refine List.mem_append_right _ (List.mem_flatMap.2 ⟨_, hd, List.mem_append_left _ ?_⟩)
  unfold genOf
  rw [List.map_map]
  exact List.mem_map.2 ⟨i, List.mem_range.2 hi, rfl⟩

end Crevice.ClientProof
