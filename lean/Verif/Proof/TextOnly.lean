import Verif.Proof.TextResolve
/-
What the text of the crate says about its types: no other types have implementations.
-/
namespace Crevice.Tables
open RustCode RustTypes TypeNames

theorem filterMapM_cons_inv {α β : Type} {p : α → Option (Option β)} {xs : List α} {y : β} {ys : List β}
    (h : filterMapM p xs = some (y :: ys)) : ∃ x ∈ xs, ∃ z, p x = some (some z) := by
  induction xs with
  | nil => cases h
  | cons x xs ih =>
    simp only [filterMapM] at h
    cases hp : p x with
    | none => rw [hp] at h; cases h
    | some r =>
      cases r with
      | some z => exact ⟨x, by simp, z, hp⟩
      | none =>
        rw [hp] at h
        simp only [Option.bind_some, Option.toList_none, List.nil_append, Option.map_id_fun', id] at h
        obtain ⟨x', hx', z, hz⟩ := ih (by simpa using h)
        exact ⟨x', by simp [hx'], z, hz⟩

theorem applies_inv {g : Sem} {c : CTy} {d : ImplDef} {f : Found} (hd : d.traitArgs = [])
    (h : applies jx g [] c d = some (some f)) : ∃ a, matchTy jx.names d.module d.params d.self c = some a ∧
      boundsHold jx g { module := d.module, vars := ("Self", c) :: a, assoc := assocTypes d.items, bounds := d.bounds }
        d.bounds = some true := by
  unfold applies at h
  rw [hd] at h
  cases ha : matchTy jx.names d.module d.params d.self c with
  | none => rw [ha] at h; cases h
  | some a =>
    refine ⟨a, rfl, ?_⟩
    rw [ha] at h
    simp only [matchTys, List.append_nil] at h
    cases hb : boundsHold jx g { module := d.module, vars := ("Self", c) :: a, assoc := assocTypes d.items, bounds := d.bounds }
        d.bounds with
    | none => rw [hb] at h; cases h
    | some b =>
      rw [hb] at h
      cases b with
      | true => rfl
      | false => cases h

theorem match_plain {names : List (String × List String)} {m : String} {p : List String} {args : List RustCode.Ty}
    {c : CTy} {a : List (String × CTy)} (h : matchTy names m [] (.path p args) c = some a) :
    ∃ q cs, resolveName names m p = some q ∧ c = .named q cs ∧ matchTys names m [] args cs = some a := by
  cases c with
  | array t n =>
    unfold matchTy at h
    split at h <;> simp at h
  | named q cs =>
    unfold matchTy at h
    split at h
    · simp only [List.contains_nil, Bool.false_eq_true, if_false] at h
      split at h
      · next hq => exact ⟨q, cs, hq, rfl, h⟩
      · cases h
    · simp only at h
      split at h
      · next hq => exact ⟨q, cs, hq, rfl, h⟩
      · cases h

theorem match_args {names : List (String × List String)} {m : String} {arg : Option String} {cs : List CTy}
    {a : List (String × CTy)} (h : matchTys names m [] (argTys arg) cs = some a)
    (ha : ∀ x ∈ arg, resolveName names m [x] = some [x]) : cs = arg.toList.map fun x => .named [x] [] := by
  cases arg with
  | none =>
    cases cs with
    | nil => rfl
    | cons c cs => cases h
  | some x =>
    cases cs with
    | nil => cases h
    | cons c cs =>
      simp only [argTys, Option.toList_some, List.map_cons, List.map_nil, matchTys] at h
      rw [Option.bind_eq_some_iff] at h
      obtain ⟨b, hb, h⟩ := h
      obtain ⟨q, ds, hq, rfl, hds⟩ := match_plain hb
      rw [ha x (by simp)] at hq
      injection hq with hq
      subst hq
      cases ds with
      | cons d ds => cases hds
      | nil =>
        cases cs with
        | nil => rfl
        | cons c cs => cases h

theorem match_simple {names : List (String × List String)} {m x : String} {q : List String}
    {c : CTy} {a : List (String × CTy)} (hx : resolveName names m [x] = some q)
    (h : matchTy names m [] (ty x) c = some a) : c = .named q [] := by
  obtain ⟨q', cs, hq, rfl, hcs⟩ := match_plain h
  rw [hx] at hq
  injection hq with hq
  subst hq
  cases cs with
  | nil => rfl
  | cons c cs => cases hcs

theorem norm_unique {env : ForeignEnv} {t : RustCode.Ty} {a b : Option CTy} (ha : Norm env t a) (hb : Norm env t b) :
    a = b := by
  obtain ⟨N, hN⟩ := ha
  obtain ⟨M, hM⟩ := hb
  rw [← hN (N + M) (by omega), ← hM (N + M) (by omega)]

theorem out_norm {env : ForeignEnv} {l : Layout} {t : RustCode.Ty} {c O : CTy} {a b : RVal → Option RVal} {N : Nat}
    (hn : Norm env t (some c)) (h : ∀ n ≥ N, Conv env l c O a b n) :
    Norm env (.proj t (inMod l (asTrait l)) ["Output"]) (some O) := by
  obtain ⟨M, hM⟩ := hn
  refine ⟨N + M + 1, fun n hn => ?_⟩
  obtain ⟨k, rfl⟩ : ∃ k, n = k + 1 := ⟨n - 1, by omega⟩
  rw [norm_succ]
  simp only [normRule, resolve_asTrait, Option.bind_some, hM k (by omega)]
  obtain ⟨_, _, h, _⟩ := h k (by omega)
  exact h

/-- `c` is the layout type of a type. -/
def IsOut (tg : Target) (env : ForeignEnv) (l : Layout) (c : CTy) : Prop :=
  ∃ t T i, Writes t T ∧ resolve tg env l T = some i ∧ Norm env (.proj t (inMod l (asTrait l)) ["Output"]) (some c)

/-- `c` is a type with an implementation. -/
def IsTy (tg : Target) (env : ForeignEnv) (l : Layout) (c : CTy) : Prop :=
  ∃ t T i, Writes t T ∧ resolve tg env l T = some i ∧ Norm env t (some c)

theorem isTy_of_isOut {tg : Target} {env : ForeignEnv} {l : Layout} {c : CTy} (h : IsOut tg env l c) :
    IsTy tg env l c := by
  obtain ⟨t, T, i, hw, hr, hn⟩ := h
  exact ⟨_, _, blanketImpl i.out i.alignment i.outDebug, hw.output l, by simp [resolve, hr], hn⟩

theorem isOut_of {tg : Target} {env : ForeignEnv} {l : Layout} {t : RustCode.Ty} {T : Crevice.Ty} {c O : CTy} {i : Impl}
    {N : Nat} (hw : Writes t T) (hr : resolve tg env l T = some i) (hn : Norm env t (some c))
    (hc : ∀ n ≥ N, Conv env l c O i.asStd i.fromStd n) : IsOut tg env l O :=
  ⟨t, T, i, hw, hr, out_norm hn hc⟩

theorem isOut_scalar (tg : Target) (env : ForeignEnv) (l : Layout) {s : Scalar} (hs : s ∈ scalars) :
    IsOut tg env l (simpleCTy (scalarName s)) := by
  have ha : ∃ a, l.scalarAlignment s = some a := by
    cases s <;> first | exact absurd hs (by decide) | (cases l <;> exact ⟨_, rfl⟩)
  obtain ⟨a, ha⟩ := ha
  exact isOut_of (N := 7) (.scalar s) (by simp only [resolve, scalarImpl, ha]; rfl)
    (simple_norm env _ (by cases s <;> decide)) (conv_blanket (scalar_blanket hs))

theorem isOut_Bool (tg : Target) (env : ForeignEnv) (l : Layout) : IsOut tg env l boolCTy :=
  isOut_of (N := 12) .bool (i := boolImpl l) rfl (simple_norm env _ (by decide)) (conv_bool env l)

theorem prims_rows (l : Layout) : (primNames l).all (fun n => easyRows.any fun r => r.stdName == n) = true := by
  cases l <;> decide +kernel

theorem math_norm' (env : ForeignEnv) (m : MathTy) : Norm env (mathRustTy m) (some (mathCTy m)) := by
  refine ⟨2, fun n hn => ?_⟩
  obtain ⟨k, rfl⟩ := le_split hn
  exact math_norm env k m

theorem easyRows_nodup : ∀ r ∈ easyRows, (easyRow r.ty).map (·.stdName) = some r.stdName := by decide +kernel

theorem isOut_prim (tg : Target) (env : ForeignEnv) (l : Layout) {name : String} (hn : name ∈ primNames l) :
    IsOut tg env l (primCTy l name) := by
  have := List.all_eq_true.1 (prims_rows l) name hn
  simp only [List.any_eq_true, beq_iff_eq] at this
  obtain ⟨r, hr, rfl⟩ := this
  have hs := List.all_eq_true.1 (rows_math l) r hr
  rw [Option.isSome_iff_exists] at hs
  obtain ⟨i, hi⟩ := hs
  obtain ⟨row, hrow, hc⟩ := conv_math (env := env) hi
  have he := easyRows_nodup r hr
  rw [hrow] at he
  simp only [Option.map_some, Option.some.injEq] at he
  rw [← he]
  exact isOut_of (.math r.ty) hi (math_norm' env r.ty) fun n hn => (hc n hn).1

theorem isOut_dyn {tg : Target} {env : ForeignEnv} {O : CTy} (h : IsOut tg env .std140 O) :
    IsOut tg env .std140 (dynOut O) := by
  obtain ⟨t, T, i, hw, hr, hn⟩ := h
  rcases agree tg env hw with ⟨-, -, hr'⟩ | ⟨c, hc, -, O', hO', -⟩
  · rw [(hr' .std140).1] at hr
    cases hr
  rcases hO' .std140 with ⟨hr', -⟩ | ⟨j, hj, ⟨N, hN⟩, -⟩
  · rw [hr'] at hr
    cases hr
  have hO : O' .std140 = O := by
    have := norm_unique (out_norm hc fun n hn => (hN n hn).1) hn
    injection this
  subst hO
  rw [hj] at hr
  injection hr with hr
  subst hr
  have hd : Norm env (.path ["crate", "std140", "DynamicUniform"] [t]) (some (dynCTy c)) := by
    obtain ⟨M, hM⟩ := hc
    refine ⟨M + 1, fun n hn => ?_⟩
    obtain ⟨k, rfl⟩ : ∃ k, n = k + 1 := ⟨n - 1, by omega⟩
    have hrule : (G env (k + 1)).norm topScope (.path ["crate", "std140", "DynamicUniform"] [t]) =
        ([t].mapM ((G env k).norm topScope)).map (.named ["std140", "DynamicUniform"]) := by
      rw [norm_succ]
      kernel_rfl
    rw [hrule]
    simp [hM k (by omega), dynCTy]
  exact isOut_of (N := N + 5) (i := dynamicImpl j) hw.dynamic (by simp [resolve, hj]) hd
    (dynamic_conv fun m hm => (hN m hm).1)

/-! ### Implementations of `StdN` -/

theorem implements_inv {env : ForeignEnv} {n : Nat} {x y : String} {c : CTy}
    (h : (G env n).implements [x, y] c = some true) :
    ∃ m f fs, n = m + 1 ∧ (G env m).candidates [x, y] [] c = some (f :: fs) := by
  cases n with
  | zero => cases h
  | succ m =>
    rw [implements_succ] at h
    unfold implementsRule at h
    cases hc : (G env m).candidates [x, y] [] c with
    | none => rw [hc] at h; cases h
    | some fs =>
      rw [hc] at h
      cases fs with
      | nil => cases h
      | cons f fs => exact ⟨m, f, fs, rfl, hc⟩

theorem boundsHold_one {g : Sem} {s : Scope} {x tr : String} {q : List String} {c : CTy}
    (hq : resolveName jx.names s.module [tr] = some q) (hc : g.norm s (ty x) = some c)
    (h : boundsHold jx g s [(ty x, [ty tr])] = some true) : g.implements q c = some true := by
  simp only [boundsHold, allM, hc, Option.bind_some, hq] at h
  cases hi : g.implements q c with
  | none => rw [hi] at h; cases h
  | some b =>
    rw [hi] at h
    cases b with
    | true => rfl
    | false => cases h

theorem align_names (l : Layout) : ∀ n ∈ primNames l, resolveName jx.names (mod l) [n] = some [mod l, n] := by
  cases l <;> decide +kernel

theorem std_only {tg : Target} {env : ForeignEnv} {l : Layout} (n : Nat) : ∀ {c : CTy} {f : Found} {fs : List Found},
    (G env n).candidates [mod l, stdTrait l] [] c = some (f :: fs) → IsOut tg env l c := by
  induction n using Nat.strongRecOn with
  | _ n ih =>
    intro c f fs h
    cases n with
    | zero => cases h
    | succ n =>
      have e : (G env (n + 1)).candidates [mod l, stdTrait l] [] c =
          filterMapM (applies jx (G env n) [] c) (stdDefs l) := by cases l <;> rfl
      rw [e] at h
      obtain ⟨d, hd, f', hf'⟩ := filterMapM_cons_inv h
      unfold stdDefs at hd
      simp only [List.append_assoc, List.mem_append] at hd
      have halign : ∀ (t : String) (k : Nat) (q : List String), d = alignDef l t k →
          resolveName jx.names (mod l) [t] = some q → c = .named q [] := by
        intro t k q hd hq
        subst hd
        obtain ⟨a, ha, -⟩ := applies_inv rfl hf'
        exact match_simple hq ha
      have hprim : ∀ name ∈ primNames l, ∀ k, d = alignDef l name k → IsOut tg env l c := by
        intro name hn k hd
        rw [halign name k _ hd (align_names l name hn)]
        exact isOut_prim tg env l hn
      rcases hd with hd | hd | hd | hd
      · cases l with
        | std430 => cases hd
        | std140 =>
          simp only [List.mem_singleton] at hd
          subst hd
          obtain ⟨a, ha, hb⟩ := applies_inv rfl hf'
          have hc : ∃ O, c = dynOut O ∧ a = [("T", O)] := by
            cases c with
            | array t n => cases ha
            | named q cs =>
              have h1 : matchTy jx.names "std140" ["T"] (.path ["DynamicUniformStd140"] [ty "T"]) (.named q cs) =
                  if some ["std140", "DynamicUniformStd140"] = some q then
                    matchTys jx.names "std140" ["T"] [ty "T"] cs else none := by kernel_rfl
              change matchTy jx.names "std140" ["T"] (.path ["DynamicUniformStd140"] [ty "T"]) (.named q cs) = some a at ha
              rw [h1] at ha
              split at ha
              · next hq =>
                injection hq with hq
                subst hq
                match cs, ha with
                | [], ha => cases ha
                | [O], ha =>
                  injection ha with ha
                  exact ⟨O, rfl, ha.symm⟩
                | O :: O' :: r, ha =>
                  simp only [matchTys, Option.map_none] at ha
                  rw [Option.bind_eq_some_iff] at ha
                  obtain ⟨_, _, h⟩ := ha
                  cases h
              · cases ha
          obtain ⟨O, rfl, rfl⟩ := hc
          cases n with
          | zero => cases hb
          | succ n =>
            have himp := boundsHold_one (q := ["std140", "Std140"]) (c := O) (by kernel_rfl) (by rfl) hb
            obtain ⟨m, f, fs, hm, hc⟩ := implements_inv himp
            exact isOut_dyn (ih m (by omega) hc)
      · simp only [List.mem_cons, List.not_mem_nil, or_false] at hd
        rcases hd with hd | hd | hd | hd | hd
        · rw [halign _ _ ["f32"] hd (by cases l <;> kernel_rfl)]
          exact isOut_scalar tg env l (s := .f32) (by decide)
        · rw [halign _ _ ["f64"] hd (by cases l <;> kernel_rfl)]
          exact isOut_scalar tg env l (s := .f64) (by decide)
        · rw [halign _ _ ["i32"] hd (by cases l <;> kernel_rfl)]
          exact isOut_scalar tg env l (s := .i32) (by decide)
        · rw [halign _ _ ["u32"] hd (by cases l <;> kernel_rfl)]
          exact isOut_scalar tg env l (s := .u32) (by decide)
        · rw [halign _ _ ["bool", "Bool"] hd (by cases l <;> kernel_rfl)]
          exact isOut_Bool tg env l
      · obtain ⟨r, hr, hd⟩ := List.mem_map.1 hd
        exact hprim r.name (by simp only [primNames, List.mem_append, List.mem_map]; exact .inl ⟨r, hr, rfl⟩) _ hd.symm
      · obtain ⟨r, hr, hd⟩ := List.mem_map.1 hd
        exact hprim r.name (by simp only [primNames, List.mem_append, List.mem_map]; exact .inr ⟨r, hr, rfl⟩) _ hd.symm

/-! ### Implementations of `AsStdN` -/

theorem isTy_dyn {tg : Target} {env : ForeignEnv} {c : CTy} (h : IsTy tg env .std140 c) :
    IsTy tg env .std140 (dynCTy c) := by
  obtain ⟨t, T, i, hw, hr, M, hM⟩ := h
  refine ⟨_, _, dynamicImpl i, hw.dynamic, by simp [resolve, hr], M + 1, fun n hn => ?_⟩
  obtain ⟨k, rfl⟩ : ∃ k, n = k + 1 := ⟨n - 1, by omega⟩
  have hrule : (G env (k + 1)).norm topScope (.path ["crate", "std140", "DynamicUniform"] [t]) =
      ([t].mapM ((G env k).norm topScope)).map (.named ["std140", "DynamicUniform"]) := by
    rw [norm_succ]
    kernel_rfl
  rw [hrule]
  simp [hM k (by omega), dynCTy]

theorem isTy_math (tg : Target) (env : ForeignEnv) (l : Layout) {r : EasyRow} (hr : r ∈ easyRows) :
    IsTy tg env l (mathCTy r.ty) := by
  have hs := List.all_eq_true.1 (rows_math l) r hr
  rw [Option.isSome_iff_exists] at hs
  obtain ⟨i, hi⟩ := hs
  exact ⟨_, _, i, .math r.ty, hi, math_norm' env r.ty⟩

/-- Whether a string is an identifier. -/
def identB (s : String) : Bool := s != "" && s.toList.all fun c => c.isAlphanum || c == '_'

theorem identB_iff (s : String) : identB s = true → Ident s := by
  intro h
  simp only [identB, Bool.and_eq_true, bne_iff_ne, List.all_eq_true, Bool.or_eq_true, beq_iff_eq] at h
  exact h

theorem rows_ident : mintyRows.all (fun r =>
    match parts (foreignRustTy r.foreign) with
    | some (a, b, arg) => (a == "glam" || a == "nalgebra") && (identB b && arg.toList.all identB)
    | none => false) = true := by
  decide +kernel

theorem isTy_foreign (tg : Target) (env : ForeignEnv) (l : Layout) {r : MintyRow} (hr : r ∈ mintyRows) :
    IsTy tg env l (foreignCTy r.foreign) := by
  have hs := List.all_eq_true.1 (minty_math l) r hr
  rw [Option.isSome_iff_exists] at hs
  obtain ⟨i, hi⟩ := hs
  have h1 := List.all_eq_true.1 rows_parts r hr
  have h2 := List.all_eq_true.1 rows_ident r hr
  cases hp : parts (foreignRustTy r.foreign) with
  | none => rw [hp] at h1; cases h1
  | some x =>
    obtain ⟨a, b, arg⟩ := x
    rw [hp] at h1 h2
    simp only [Bool.and_eq_true, beq_iff_eq, List.all_eq_true, Option.mem_toList, Bool.or_eq_true] at h1 h2
    have hrow : mintyRow r.foreign = some r := by
      have : ∀ r ∈ mintyRows, (mintyRow r.foreign).map (fun s => (s.mint, s.foreign)) = some (r.mint, r.foreign) := by
        decide +kernel
      have := this r hr
      rw [Option.map_eq_some_iff] at this
      obtain ⟨s, hs, he⟩ := this
      rw [hs]
      cases r
      cases s
      injection he with h1 h2
      simp only at h1 h2
      rw [h1, h2]
    refine ⟨.path [a, b] (argTys arg), .foreign (pathText [a, b] arg.toList), mintyImpl env r.foreign i,
      .foreign a b arg h2.1 (identB_iff b h2.2.1) (fun c hc => identB_iff c (h2.2.2 c hc)), ?_, 2, fun n hn => ?_⟩
    · rw [h1.1]
      simp only [resolve, hrow, hi, Option.bind_some, Option.map_some]
    · obtain ⟨k, rfl⟩ := le_split hn
      rw [← parts_eq hp]
      exact forall_of_map (minty_norm env k) r hr

theorem math_resolve (m : MathTy) (c : CTy) (a : List (String × CTy))
    (h : matchTy jx.names "imp" [] (mathRustTy m) c = some a) : c = mathCTy m := by
  unfold mathRustTy at h
  obtain ⟨q, cs, hq, rfl, hcs⟩ := match_plain h
  have h1 : q = [libName m.lib, mathName m] := by
    injection hq with hq
    exact hq.symm
  have h2 := match_args (arg := some (mscalarName m.scalar)) hcs (by
    intro x hx
    injection hx with hx
    rw [← hx]
    cases m.scalar <;> kernel_rfl)
  rw [h1, h2]
  rfl

theorem foreign_resolve {r : MintyRow} (hr : r ∈ mintyRows) (c : CTy) (a : List (String × CTy))
    (h : matchTy jx.names "imp" [] (foreignRustTy r.foreign) c = some a) : c = foreignCTy r.foreign := by
  obtain ⟨x, y, arg, h1, -, h3⟩ := rows_foreign hr
  unfold foreignCTy
  rw [h1] at h ⊢
  obtain ⟨q, cs, hq, rfl, hcs⟩ := match_plain h
  have hq' : q = [x, y] := by
    injection hq with hq
    exact hq.symm
  rw [hq', match_args hcs h3]
  cases arg <;> rfl

theorem as_only {tg : Target} {env : ForeignEnv} {l : Layout} (n : Nat) : ∀ {c : CTy} {f : Found} {fs : List Found},
    (G env n).candidates [mod l, asTrait l] [] c = some (f :: fs) → IsTy tg env l c := by
  induction n using Nat.strongRecOn with
  | _ n ih =>
    intro c f fs h
    cases n with
    | zero => cases h
    | succ n =>
      have e : (G env (n + 1)).candidates [mod l, asTrait l] [] c =
          filterMapM (applies jx (G env n) [] c) (asDefs l) := by cases l <;> rfl
      rw [e] at h
      obtain ⟨d, hd, f', hf'⟩ := filterMapM_cons_inv h
      unfold asDefs at hd
      simp only [List.append_assoc, List.mem_append, List.mem_singleton] at hd
      rcases hd with hd | hd | hd | hd | hd
      · subst hd
        obtain ⟨a, ha, hb⟩ := applies_inv (by cases l <;> rfl) hf'
        have hT : matchTy jx.names (blanketDef l).module (blanketDef l).params (blanketDef l).self c = some [("T", c)] := by
          cases c <;> cases l <;> kernel_rfl
        rw [hT] at ha
        injection ha with ha
        subst ha
        cases n with
        | zero => cases l <;> cases hb
        | succ n =>
          have hb' : boundsHold jx (G env (n + 1))
              { module := mod l, vars := [("Self", c), ("T", c)], assoc := assocTypes (blanketDef l).items,
                bounds := (blanketDef l).bounds } [(ty "T", [ty (stdTrait l)])] = some true := by
            rw [← hb]
            cases l <;> rfl
          have himp := boundsHold_one (q := [mod l, stdTrait l]) (c := c) (by cases l <;> kernel_rfl) (by rfl) hb'
          obtain ⟨m, f, fs, -, hc⟩ := implements_inv himp
          exact isTy_of_isOut (std_only m hc)
      · cases l with
        | std430 => cases hd
        | std140 =>
          simp only [List.mem_singleton] at hd
          subst hd
          obtain ⟨a, ha, hb⟩ := applies_inv rfl hf'
          have hc : ∃ O, c = dynCTy O ∧ a = [("T", O)] := by
            cases c with
            | array t n => cases ha
            | named q cs =>
              have h1 : matchTy jx.names "std140" ["T"] (.path ["DynamicUniform"] [ty "T"]) (.named q cs) =
                  if some ["std140", "DynamicUniform"] = some q then
                    matchTys jx.names "std140" ["T"] [ty "T"] cs else none := by kernel_rfl
              change matchTy jx.names "std140" ["T"] (.path ["DynamicUniform"] [ty "T"]) (.named q cs) = some a at ha
              rw [h1] at ha
              split at ha
              · next hq =>
                injection hq with hq
                subst hq
                match cs, ha with
                | [], ha => cases ha
                | [O], ha =>
                  injection ha with ha
                  exact ⟨O, rfl, ha.symm⟩
                | O :: O' :: r, ha =>
                  simp only [matchTys, Option.map_none] at ha
                  rw [Option.bind_eq_some_iff] at ha
                  obtain ⟨_, _, h⟩ := ha
                  cases h
              · cases ha
          obtain ⟨O, rfl, rfl⟩ := hc
          cases n with
          | zero => cases hb
          | succ n =>
            have himp := boundsHold_one (q := ["std140", "AsStd140"]) (c := O) (by kernel_rfl) (by rfl) hb
            obtain ⟨m, f, fs, hm, hc⟩ := implements_inv himp
            exact isTy_dyn (ih m (by omega) hc)
      · subst hd
        obtain ⟨a, ha, -⟩ := applies_inv rfl hf'
        rw [match_simple (q := ["bool"]) (by cases l <;> kernel_rfl) ha]
        exact ⟨_, _, boolImpl l, .bool, rfl, simple_norm env _ (by decide)⟩
      · obtain ⟨r, hr, rfl⟩ := List.mem_map.1 hd
        obtain ⟨a, ha, -⟩ := applies_inv rfl hf'
        rw [math_resolve r.ty c a ha]
        exact isTy_math tg env l hr
      · obtain ⟨r, hr, rfl⟩ := List.mem_map.1 hd
        obtain ⟨a, ha, -⟩ := applies_inv rfl hf'
        rw [foreign_resolve hr c a ha]
        exact isTy_foreign tg env l hr

end Crevice.Tables
