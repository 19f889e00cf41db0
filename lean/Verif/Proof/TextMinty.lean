import Verif.Proof.TextMath
/-
What the text of the crate says about its types: glam and nalgebra.
-/
namespace Crevice.Tables
open RustCode RustTypes TypeNames

/-! ### Types by their text -/

/-- Arguments of a written type. -/
def argTys (arg : Option String) : List RustCode.Ty := arg.toList.map ty

/-- The text of an argument. -/
def argText : Option String → List Char
  | none => []
  | some c => '<' :: (c.toList ++ ['>'])

theorem pathText_toList (a b : String) (arg : Option String) : (pathText [a, b] arg.toList).toList =
    a.toList ++ (':' :: ':' :: (b.toList ++ argText arg)) := by
  cases arg with
  | none =>
    show ((a ++ "::" ++ b) ++ "").toList = _
    simp [String.toList_append, argText]
  | some c =>
    show ((a ++ "::" ++ b) ++ ("<" ++ c ++ ">")).toList = _
    simp [String.toList_append, argText]

theorem takeWhile_stop {p : Char → Bool} (a : List Char) (x : Char) (r : List Char) (ha : ∀ c ∈ a, p c = true)
    (hx : p x = false) : (a ++ x :: r).takeWhile p = a := by
  induction a with
  | nil => simp [hx]
  | cons y ys ih =>
    simp only [List.cons_append, List.takeWhile_cons, ha y (by simp)]
    rw [if_pos trivial, ih fun c hc => ha c (by simp [hc])]

theorem takeWhile_all {p : Char → Bool} (a : List Char) (ha : ∀ c ∈ a, p c = true) : a.takeWhile p = a := by
  induction a with
  | nil => rfl
  | cons y ys ih =>
    simp only [List.takeWhile_cons, ha y (by simp)]
    rw [if_pos trivial, ih fun c hc => ha c (by simp [hc])]

theorem ident_char {s : String} (h : Ident s) {c : Char} (hc : c ∈ s.toList) (x : Char)
    (hx : x.isAlphanum = false) (hx' : x ≠ '_') : (c != x) = true := by
  simp only [bne_iff_ne, ne_eq]
  rintro rfl
  rcases h.2 c hc with h | h
  · rw [hx] at h; cases h
  · exact hx' h

theorem foreignRustTy_eq {s : String} {a r b c : List Char} (ha : s.toList.takeWhile (· != ':') = a)
    (hr : s.toList.drop (a.length + 2) = r) (hb : r.takeWhile (· != '<') = b)
    (hc : (r.drop (b.length + 1)).takeWhile (· != '>') = c) :
    foreignRustTy s = .path [String.ofList a, String.ofList b] (if c.isEmpty then [] else [ty (String.ofList c)]) := by
  subst ha hr hb hc
  rfl

theorem foreignRustTy_pathText {a b : String} {arg : Option String} (ha : Ident a) (hb : Ident b)
    (harg : ∀ c ∈ arg, Ident c) : foreignRustTy (pathText [a, b] arg.toList) = .path [a, b] (argTys arg) := by
  have h1 : (pathText [a, b] arg.toList).toList.takeWhile (· != ':') = a.toList := by
    rw [pathText_toList]
    exact takeWhile_stop _ _ _ (fun c hc => ident_char ha hc _ (by decide) (by decide)) (by decide)
  have hd : (pathText [a, b] arg.toList).toList.drop (a.toList.length + 2) =
      b.toList ++ argText arg := by
    rw [pathText_toList, List.drop_append, List.drop_of_length_le (by omega)]
    simp
  cases arg with
  | none =>
    rw [foreignRustTy_eq (b := b.toList) (c := []) h1 hd]
    · simp [argTys]
    · simp only [argText, List.append_nil]
      exact takeWhile_all _ fun c hc => ident_char hb hc _ (by decide) (by decide)
    · simp only [argText, List.append_nil]
      rw [List.drop_of_length_le (by omega)]
      rfl
  | some c =>
    have hc := harg c (by simp)
    have hne : c.toList.isEmpty = false := by
      cases h : c.toList with
      | nil => exact absurd (by rw [← String.ofList_toList (s := c), h]) hc.1
      | cons x xs => rfl
    rw [foreignRustTy_eq (b := b.toList) (c := c.toList) h1 hd]
    · rw [hne]
      simp [argTys]
    · exact takeWhile_stop _ _ _ (fun c hc => ident_char hb hc _ (by decide) (by decide)) (by decide)
    · rw [List.drop_append]
      simp only [argText, List.length_append, Nat.add_sub_cancel_left, List.drop_succ_cons, List.drop_zero]
      rw [List.drop_of_length_le (by omega)]
      exact takeWhile_stop _ _ _ (fun x hx => ident_char hc hx _ (by decide) (by decide)) (by decide)

theorem mintyRow_mem {s : String} {r : MintyRow} (h : mintyRow s = some r) : r ∈ mintyRows ∧ r.foreign = s :=
  ⟨List.mem_of_find?_eq_some h, by simpa using List.find?_some h⟩

theorem ident_lib {lib : String} (h : lib = "glam" ∨ lib = "nalgebra") : Ident lib := by
  rcases h with rfl | rfl <;> exact ⟨by decide, by decide⟩

/-! ### With a row -/

theorem minty_math (l : Layout) : mintyRows.all (fun r => (mathImpl l r.mint).isSome) = true := by
  cases l <;> decide +kernel

theorem conv_foreign {env : ForeignEnv} {l : Layout} {row : MintyRow} {i : Impl} (hr : row ∈ mintyRows)
    (h : mathImpl l row.mint = some i) :
    ∃ r, easyRow row.mint = some r ∧ ∀ n ≥ 27,
      Conv env l (foreignCTy row.foreign) (primCTy l r.stdName) (mintyImpl env row.foreign i).asStd
        (mintyImpl env row.foreign i).fromStd n ∧
      OutOk env l (primCTy l r.stdName) i.out i.alignment i.outDebug n := by
  obtain ⟨r, hrow, hcv⟩ := conv_math (env := env) h
  refine ⟨r, hrow, fun n hn => ⟨?_, (hcv n (by omega)).2⟩⟩
  have hto := forall_of_map (minty_into env) row hr
  injection hto with hto1 hto2
  refine minty_conv (env := env) (l := l) (n := 22) (c := foreignCTy row.foreign) (cm := mathCTy row.mint)
    (O := primCTy l r.stdName) (name := row.foreign) (p := [libName row.mint.lib, mathName row.mint])
    (args := [ty (mscalarName row.mint.scalar)]) (a := i.asStd) (b := i.fromStd) (by simp)
    ?_ ?_ ?_ ?_ hto1 hto2 (fun m hm => (hcv m hm).1) n hn
  · intro m hm
    obtain ⟨k, rfl⟩ : ∃ k, m = k + 3 := ⟨m - 3, by omega⟩
    exact forall_of_map (minty_as env k l) row hr
  · intro m hm
    obtain ⟨k, rfl⟩ : ∃ k, m = k + 2 := ⟨m - 2, by omega⟩
    exact forall_of_map (minty_mint env k _) row hr
  · intro m hm
    obtain ⟨k, rfl⟩ : ∃ k, m = k + 1 := ⟨m - 1, by omega⟩
    have := forall_of_map (minty_from env k) row hr
    injection this
  · intro m hm
    obtain ⟨k, rfl⟩ : ∃ k, m = k + 1 := ⟨m - 1, by omega⟩
    have := forall_of_map (minty_from env k) row hr
    injection this

/-! ### Without a row -/

theorem filterMapM_none {α β : Type} {p : α → Option (Option β)} {xs : List α} (h : ∀ x ∈ xs, p x = some none) :
    filterMapM p xs = some [] := by
  induction xs with
  | nil => rfl
  | cons x xs ih =>
    simp only [filterMapM, h x (by simp), ih fun y hy => h y (by simp [hy])]
    rfl

theorem foreign_head (env : ForeignEnv) (k : Nat) (l : Layout) (lib name : String) (cs : List CTy)
    (hl : lib = "glam" ∨ lib = "nalgebra") :
    filterMapM (applies jx (G env (k + 2)) [] (.named [lib, name] cs))
      ([blanketDef l] ++ (match l with | .std140 => [dynamicDef] | .std430 => []) ++ [boolDef l] ++
        easyRows.map (easyDef l)) = some [] := by
  rcases hl with rfl | rfl <;> cases l <;> kernel_rfl

/-- The parts of a type of glam or nalgebra. -/
def parts (t : RustCode.Ty) : Option (String × String × Option String) :=
  match t with
  | .path [a, b] [] => some (a, b, none)
  | .path [a, b] [.path [c] []] => some (a, b, some c)
  | _ => none

theorem parts_eq {t : RustCode.Ty} {a b : String} {arg : Option String} (h : parts t = some (a, b, arg)) :
    t = .path [a, b] (argTys arg) := by
  unfold parts at h
  split at h
  · injection h with h
    injection h with h1 h
    injection h with h2 h3
    subst h1 h2 h3
    rfl
  · injection h with h
    injection h with h1 h
    injection h with h2 h3
    subst h1 h2 h3
    rfl
  · cases h

theorem rows_parts : mintyRows.all (fun r =>
    match parts (foreignRustTy r.foreign) with
    | some (a, b, arg) => pathText [a, b] arg.toList == r.foreign &&
      arg.toList.all fun c => resolveName jx.names "imp" [c] == some [c]
    | none => false) = true := by
  decide +kernel

theorem rows_foreign {r : MintyRow} (hr : r ∈ mintyRows) : ∃ a b, ∃ arg : Option String,
    foreignRustTy r.foreign = .path [a, b] (argTys arg) ∧ pathText [a, b] arg.toList = r.foreign ∧
      ∀ c ∈ arg, resolveName jx.names "imp" [c] = some [c] := by
  have := List.all_eq_true.1 rows_parts r hr
  split at this
  · next a b arg h =>
    simp only [Bool.and_eq_true, beq_iff_eq, List.all_eq_true, Option.mem_toList] at this
    exact ⟨a, b, arg, parts_eq h, this.1, this.2⟩
  · cases this

/-- What the argument of a type of glam or nalgebra stands for. -/
theorem arg_norm (env : ForeignEnv) (a : String) :
    (∀ n ≥ 1, (G env n).norm topScope (ty a) = none) ∨
      ∃ q, (∀ n ≥ 1, (G env n).norm topScope (ty a) = some (.named q [])) ∧ (q = [a] ∨ q.length = 2) := by
  have e : ∀ n ≥ 1, (G env n).norm topScope (ty a) = (G env 1).norm topScope (ty a) := by
    intro n hn
    obtain ⟨k, rfl⟩ := le_split hn
    rfl
  have h : (G env 1).norm topScope (ty a) = none ∨
      ∃ q, (G env 1).norm topScope (ty a) = some (.named q []) ∧ (q = [a] ∨ q.length = 2) := by
    rw [norm_succ]
    simp only [normRule, topScope, List.lookup_nil, List.mapM_nil]
    split
    · exact .inl rfl
    · cases h : resolveName jx.names "" [a] with
      | none => exact .inl rfl
      | some q =>
        refine .inr ⟨q, rfl, ?_⟩
        unfold resolveName at h
        simp only at h
        split at h
        · injection h with h; subst h; exact .inr rfl
        · split at h
          · injection h with h; subst h; exact .inl rfl
          · injection h with h; subst h; exact .inr rfl
          · cases h
  rcases h with h | ⟨q, h, hq⟩
  · exact .inl fun n hn => by rw [e n hn, h]
  · exact .inr ⟨q, fun n hn => by rw [e n hn, h], hq⟩

theorem foreign_norm (env : ForeignEnv) (k : Nat) (lib name : String) (args : List RustCode.Ty)
    (hl : lib = "glam" ∨ lib = "nalgebra") :
    (G env (k + 1)).norm topScope (.path [lib, name] args) =
      (args.mapM ((G env k).norm topScope)).map (.named [lib, name]) := by
  rw [norm_succ]
  rcases hl with rfl | rfl <;> rfl

theorem foreign_candidates {env : ForeignEnv} {l : Layout} {lib name : String} {cs : List CTy}
    (hl : lib = "glam" ∨ lib = "nalgebra")
    (hno : ∀ r ∈ mintyRows, matchTy jx.names "imp" [] (foreignRustTy r.foreign) (.named [lib, name] cs) = none) :
    ∀ n ≥ 3, (G env n).candidates [mod l, asTrait l] [] (.named [lib, name] cs) = some [] := by
  intro n hn
  obtain ⟨k, rfl⟩ := le_split hn
  have e : (G env (k + 3)).candidates [mod l, asTrait l] [] (.named [lib, name] cs) =
      filterMapM (applies jx (G env (k + 2)) [] (.named [lib, name] cs))
        (([blanketDef l] ++ (match l with | .std140 => [dynamicDef] | .std430 => []) ++ [boolDef l] ++
          easyRows.map (easyDef l)) ++ mintyRows.map (mintyDef l)) := by
    cases l <;> rfl
  rw [e, filterMapM_append, foreign_head env k l lib name cs hl, filterMapM_none]
  · rfl
  · intro d hd
    obtain ⟨r, hr, rfl⟩ := List.mem_map.1 hd
    unfold applies
    have := hno r hr
    simp only [mintyDef, plainDef]
    rw [this]

theorem foreign_none {env : ForeignEnv} {lib name : String} {arg : Option String}
    (hl : lib = "glam" ∨ lib = "nalgebra") (h : mintyRow (pathText [lib, name] arg.toList) = none) :
    (∀ n ≥ 2, (G env n).norm topScope (.path [lib, name] (argTys arg)) = none) ∨
      ∃ cs, (∀ n ≥ 2, (G env n).norm topScope (.path [lib, name] (argTys arg)) = some (.named [lib, name] cs)) ∧
        ∀ r ∈ mintyRows, matchTy jx.names "imp" [] (foreignRustTy r.foreign) (.named [lib, name] cs) = none := by
  have hrow : ∀ r ∈ mintyRows, pathText [lib, name] arg.toList ≠ r.foreign := by
    intro r hr he
    unfold mintyRow at h
    rw [List.find?_eq_none] at h
    exact h r hr (by simp [he])
  have hhead : ∀ (a b : String) (args : List RustCode.Ty) (cs : List CTy),
      matchTy jx.names "imp" [] (.path [a, b] args) (.named [lib, name] cs) =
        if [a, b] = [lib, name] then matchTys jx.names "imp" [] args cs else none := by
    intro a b args cs
    simp only [matchTy, resolveName, Option.some.injEq]
  cases arg with
  | none =>
    right
    refine ⟨[], ?_, ?_⟩
    · intro n hn
      obtain ⟨k, rfl⟩ := le_split hn
      rw [foreign_norm env (k + 1) lib name _ hl]
      rfl
    · intro r hr
      obtain ⟨a, b, arg, h1, h2, -⟩ := rows_foreign hr
      rw [h1, hhead]
      split
      · next he =>
        cases arg with
        | none =>
          rw [he] at h2
          exact absurd h2 (hrow r hr)
        | some c => rfl
      · rfl
  | some x =>
    rcases arg_norm env x with hx | ⟨q, hx, hq⟩
    · left
      intro n hn
      obtain ⟨k, rfl⟩ := le_split hn
      rw [foreign_norm env (k + 1) lib name _ hl]
      simp [argTys, hx (k + 1) (by omega)]
    · right
      refine ⟨[.named q []], ?_, ?_⟩
      · intro n hn
        obtain ⟨k, rfl⟩ := le_split hn
        rw [foreign_norm env (k + 1) lib name _ hl]
        simp [argTys, hx (k + 1) (by omega)]
      · intro r hr
        obtain ⟨a, b, arg, h1, h2, h3⟩ := rows_foreign hr
        rw [h1, hhead]
        split
        · next he =>
          cases arg with
          | none => rfl
          | some c =>
            have hc := h3 c (by simp)
            have hqc : q ≠ [c] := by
              rintro rfl
              rcases hq with hq | hq
              · injection hq with hq
                subst hq
                rw [he] at h2
                exact hrow r hr h2
              · simp at hq
            have : matchTy jx.names "imp" [] (ty c) (.named q []) = none := by
              simp only [ty, matchTy, hc, Option.some.injEq]
              simpa using fun h : [c] = q => absurd h.symm hqc
            show (matchTy jx.names "imp" [] (ty c) (.named q [])).bind _ = none
            rw [this]
            rfl
        · rfl

end Crevice.Tables
