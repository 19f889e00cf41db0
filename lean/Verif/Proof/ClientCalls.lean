import Verif.Proof.ClientStruct
/-
The functions that a derive writes.
-/
namespace Crevice.ClientProof
open RustCode RustTypes TypeNames ClientText Tables
open Tokens (Ev)

variable {k : Client} {tg : Target} {env : ForeignEnv} {l : Layout}

theorem eval_next (k : Client) (tg : Target) (env : ForeignEnv) (n : Nat) (s : Scope) (ls : Locals) (w : Option CTy) (e : Expr) :
    (K k tg env (n + 1)).eval s ls w e = evalRule (kx k) (clientOutside tg env) (K k tg env n) s ls w e := rfl

theorem field_eval {n : Nat} {s : Scope} {ls : Locals} {w : Option CTy} {x f : String} {c d : CTy} {v : RVal}
    {fs : List (String × CTy)} (hx : ls.lookup x = some (c, v))
    (hfs : fieldsOf (kx k) (clientOutside tg env) (K k tg env (n + 1)) c = some fs) (hf : fs.lookup f = some d) (h0 : f ≠ "0") :
    (K k tg env (n + 2)).eval s ls w (.field (.var x) f) = (v.field f).map fun y => (d, y) := by
  rw [eval_next]
  simp only [evalRule]
  rw [eval_next]
  simp only [evalRule, hx, Option.bind_some, hfs, hf, getField_eq h0]

theorem owner_client (k : Client) (l : Layout) (s : Scope) : ownerOf (kx k) s [] (asName l) = some [mod l, asTrait l] := by
  cases l <;> kernel_rfl

/-- Names of fields. -/
abbrev rowNames (rows : List (Row k tg env l)) : List String := rows.map Row.name

theorem src_field {rows : List (Row k tg env l)} (hn : (rowNames rows).Nodup) {r : Row k tg env l} (hr : r ∈ rows) :
    (rows.map fun r => (r.name, r.c)).lookup r.name = some r.c := by
  refine lookup_of_nodup ?_ (List.mem_map.2 ⟨r, hr, rfl⟩)
  rw [List.map_map]
  exact hn

theorem out_field {p : Nat → Nat} {rows : List (Row k tg env l)} (hn : ((outFields p 0 rows).map Prod.fst).Nodup)
    {r : Row k tg env l} (hr : r ∈ rows) : (outFields p 0 rows).lookup r.name = some r.O := by
  refine lookup_of_nodup hn ?_
  clear hn
  generalize 0 = i
  induction rows generalizing i with
  | nil => cases hr
  | cons a rows ih =>
    rw [outFields]
    rcases List.mem_cons.1 hr with rfl | hr
    · exact List.mem_cons_self
    · exact List.mem_cons_of_mem _ (List.mem_cons_of_mem _ (ih hr _))

theorem as_field (hk : k.Ok) {c : ClientStruct} (hc : c ∈ k.cs) {rows : List (Row k tg env l)}
    (hr : c.fields = rows.map Row.src) (hn : (rowNames rows).Nodup) : Ev fun n => ∀ r ∈ rows, ∀ s v w,
      (K k tg env n).eval s [("self", own c.name, v)] w (asCode l r.name) = ((v.field r.name).bind r.i.asStd).map fun y => (r.O, y) := by
  have hf := src_fields (tg := tg) (env := env) hk hc hr
  have hf' : Ev fun n => 1 ≤ n ∧ fieldsOf (kx k) (clientOutside tg env) (K k tg env (n - 1)) (own c.name) =
      some (rows.map fun r => (r.name, r.c)) := by
    refine hf.succ fun n h => ⟨by omega, ?_⟩
    rw [Nat.add_sub_cancel]
    exact h
  have hf2 : Ev fun n => 2 ≤ n ∧ fieldsOf (kx k) (clientOutside tg env) (K k tg env (n - 1)) (own c.name) =
      some (rows.map fun r => (r.name, r.c)) := (hf'.and (ev_ge 2)).mono fun n h => ⟨h.2, h.1.2⟩
  refine (hf2.and (ev_all rows fun r _ => r.ev)).succ fun n h r hm s v w => ?_
  obtain ⟨⟨h2, hf⟩, hfit⟩ := h
  obtain ⟨m, rfl⟩ : ∃ m, n = m + 2 := ⟨n - 2, by omega⟩
  have h0 : r.name ≠ "0" := hk.fields c hc r.src (by rw [hr]; exact List.mem_map.2 ⟨r, hm, rfl⟩)
  unfold asCode
  rw [eval_next]
  simp only [evalRule]
  rw [field_eval (c := own c.name) (v := v) (by rfl) hf (src_field hn hm) h0]
  have hinto : asName l ≠ "into" := by cases l <;> decide
  obtain ⟨f, hfd, hcall, -⟩ := (hfit r hm).fit.conv
  cases v.field r.name with
  | none => rfl
  | some x => simp only [Option.map_some, Option.bind_some, hinto, if_false, owner_client, hfd, hcall]

theorem resolve_from (k : Client) (l : Layout) : resolveName (kx k).names "" ["crate", mod l, asTrait l, fromName l].dropLast =
    some [mod l, asTrait l] := resolve_as k l

theorem from_field (hk : k.Ok) {c : ClientStruct} (hd : (c, l) ∈ k.ds) {rows : List (Row k tg env l)}
    (hr : c.fields = rows.map Row.src)
    (hn : ((outFields (padAt tg (structAl l (rows.map Row.impl)) (rows.map Row.impl)) 0 rows).map Prod.fst).Nodup) :
    Ev fun n => ∀ r ∈ rows, ∀ s, s.module = "" → ∀ v,
      (K k tg env n).eval s [("input", own (generatedName l c.name), v)] (some r.c) (fromCode l r.name) =
        ((v.field r.name).bind r.i.fromStd).map fun y => (r.c, y) := by
  have hf := gen_fields (tg := tg) (env := env) hk hd hr
  have hf2 : Ev fun n => fieldsOf (kx k) (clientOutside tg env) (K k tg env (n - 1)) (own (generatedName l c.name)) =
      some (outFields (padAt tg (structAl l (rows.map Row.impl)) (rows.map Row.impl)) 0 rows) := by
    refine hf.succ fun n h => ?_
    rw [Nat.add_sub_cancel]
    exact h
  refine ((hf2.and (ev_ge 2)).and (ev_all rows fun r _ => r.ev)).succ fun n h r hm s hs v => ?_
  obtain ⟨⟨hf, h2⟩, hfit⟩ := h
  obtain ⟨m, rfl⟩ : ∃ m, n = m + 2 := ⟨n - 2, by omega⟩
  have h0 : r.name ≠ "0" := hk.fields c (k.known _ hd) r.src (by rw [hr]; exact List.mem_map.2 ⟨r, hm, rfl⟩)
  obtain ⟨f, hfd, -, hcall⟩ := (hfit r hm).fit.conv
  unfold fromCode
  rw [eval_next]
  simp only [evalRule]
  rw [hs, resolve_from]
  simp only [Option.bind_some, List.getLast?_cons_cons, List.getLast?_singleton, hfd]
  rw [field_eval (c := own (generatedName l c.name)) (v := v) (by rfl) hf (out_field hn hm) h0]
  cases v.field r.name with
  | none => rfl
  | some x => simp only [Option.map_some, Option.bind_some, hcall]

theorem conv_map (conv : Impl → RVal → Option RVal) (rows : List (Row k tg env l)) (v : RVal) :
    (rows.mapM fun r => ((v.field r.name).bind (conv r.i)).map fun y => (r.name, y)) = convFields conv (rows.map Row.impl) v := by
  unfold convFields
  rw [mapM_map]
  refine mapM_congr' fun r _ => ?_
  show _ = (v.field r.name).bind fun x => (conv r.i x).map fun y => (r.name, y)
  rw [Option.map_bind]
  rfl

theorem names_map {c : ClientStruct} {rows : List (Row k tg env l)} (hr : c.fields = rows.map Row.src) (e : String → Expr) :
    c.fields.map Prod.fst = rowNames rows ∧ (c.fields.map fun f => e f.1) = (rowNames rows).map e := by
  rw [hr, List.map_map, List.map_map, List.map_map]
  exact ⟨rfl, rfl⟩

/-- `Self::Output` -/
theorem output_norm {c : ClientStruct} (hk : k.Ok) (hd : (c, l) ∈ k.ds) (n : Nat) :
    (K k tg env (n + 2)).norm (ownFound c.name (asDef (c, l)).items).scope (.path ["Self", "Output"] []) =
      some (own (generatedName l c.name)) := by
  rw [norm_next]
  simp only [normRule, List.head?_cons, if_true]
  show Option.bind (some (ty (generatedName l c.name))) _ = _
  exact own_norm (mem_names hd).1 (not_self hk (mem_names hd).1) (own_home _ _) n

theorem self_norm (x : String) (items : List Assoc) (n : Nat) :
    (K k tg env (n + 1)).norm (ownFound x items).scope (.path ["Self"] []) = some (own x) := rfl

theorem as_call (hk : k.Ok) {c : ClientStruct} (hd : (c, l) ∈ k.ds) {rows : List (Row k tg env l)}
    (hr : c.fields = rows.map Row.src) (hn : (rowNames rows).Nodup) : Ev fun n => ∀ v,
      (K k tg env n).call (ownFound c.name (asDef (c, l)).items) (asName l) (some (own c.name, v)) [] =
        ((recordImpl (Crevice.genFields tg (structAl l (rows.map Row.impl)) 0 0 (rows.map Row.impl))
          (structAl l (rows.map Row.impl)) (rows.map Row.impl)).asStd v).map fun w => (own (generatedName l c.name), w) := by
  have hf := as_field (tg := tg) (env := env) hk (k.known _ hd) hr hn
  have hO := gen_fields (tg := tg) (env := env) hk hd hr
  have hl := gen_layout (tg := tg) (env := env) hk hd hr
  have hz : Ev fun n => ∀ ls, (K k tg env n).eval (ownFound c.name (asDef (c, l)).items).scope ls
      (some (own (generatedName l c.name))) (.call (.path (.path ["bytemuck", "Zeroable", "zeroed"] [])) []) =
        some (own (generatedName l c.name), zeroed (.struct (Crevice.genFields tg (structAl l (rows.map Row.impl)) 0 0 (rows.map Row.impl)))) := by
    refine (hl.and (ev_ge 2)).succ fun n h ls => ?_
    obtain ⟨h, h2⟩ := h
    obtain ⟨m, rfl⟩ : ∃ m, n = m + 2 := ⟨n - 2, by omega⟩
    rw [eval_next]
    simp only [evalRule, if_true, Option.bind_some, gen_pod hk hd m (show "Zeroable" ∈ ["Zeroable", "Pod"] by decide), h, Option.map_some]
  have hb : Ev fun n => ∀ v w, (K k tg env n).eval (ownFound c.name (asDef (c, l)).items).scope [("self", own c.name, v)] w
      (.structBase (.path ["Self", "Output"] []) (c.fields.map Prod.fst) (c.fields.map fun f => asCode l f.1)
        (.call (.path (.path ["bytemuck", "Zeroable", "zeroed"] [])) [])) =
        ((recordImpl (Crevice.genFields tg (structAl l (rows.map Row.impl)) 0 0 (rows.map Row.impl))
          (structAl l (rows.map Row.impl)) (rows.map Row.impl)).asStd v).map fun w => (own (generatedName l c.name), w) := by
    refine (((hf.and hO).and hz).and (ev_ge 2)).succ fun n h v w => ?_
    obtain ⟨⟨⟨hf, hO⟩, hz⟩, h2⟩ := h
    obtain ⟨m, rfl⟩ : ∃ m, n = m + 2 := ⟨n - 2, by omega⟩
    rw [eval_next]
    simp only [evalRule]
    rw [output_norm hk hd, Option.bind_some, hO, Option.bind_some, hz, outFields_names, memFields_eq]
    unfold evalFields
    rw [(names_map hr (asCode l)).1, (names_map hr (asCode l)).2, mapM_zip_map, mapM_map]
    rw [mapM_congr' (g := fun r : Row k tg env l => ((v.field r.name).bind r.i.asStd).map fun y => (r.name, y))]
    · rw [conv_map Impl.asStd rows v]
      unfold recordImpl
      dsimp only
      rw [Option.map_bind]
      rfl
    · intro r hm
      rw [hf r hm, Option.map_map]
      rfl
  refine (hb.and (ev_ge 2)).succ fun n h v => ?_
  obtain ⟨h, h2⟩ := h
  obtain ⟨m, rfl⟩ : ∃ m, n = m + 2 := ⟨n - 2, by omega⟩
  have hfn : assocFn (ownFound c.name (asDef (c, l)).items).items (asName l) = some (asFnCode (c, l)) := by cases l <;> rfl
  unfold Sem.call
  rw [hfn, Option.bind_some]
  unfold asFnCode
  dsimp only
  rw [Option.bind_some, if_pos (by simp), output_norm hk hd (m + 1), Option.bind_some, eval_next]
  simp only [evalRule, evalStmts, Option.bind_some]
  exact h v _

theorem from_call (hk : k.Ok) {c : ClientStruct} (hd : (c, l) ∈ k.ds) {rows : List (Row k tg env l)}
    (hr : c.fields = rows.map Row.src) (hs : (rowNames rows).Nodup)
    (hn : ((outFields (padAt tg (structAl l (rows.map Row.impl)) (rows.map Row.impl)) 0 rows).map Prod.fst).Nodup) :
    Ev fun n => ∀ v,
      (K k tg env n).call (ownFound c.name (asDef (c, l)).items) (fromName l) none [(own (generatedName l c.name), v)] =
        ((recordImpl (Crevice.genFields tg (structAl l (rows.map Row.impl)) 0 0 (rows.map Row.impl))
          (structAl l (rows.map Row.impl)) (rows.map Row.impl)).fromStd v).map fun w => (own c.name, w) := by
  have hf := from_field (tg := tg) (env := env) hk hd hr hn
  have hC := src_fields (tg := tg) (env := env) hk (k.known _ hd) hr
  have hb : Ev fun n => ∀ v w, (K k tg env n).eval (ownFound c.name (asDef (c, l)).items).scope
      [("input", own (generatedName l c.name), v)] w
      (.struct (.path ["Self"] []) (c.fields.map Prod.fst) (c.fields.map fun f => fromCode l f.1)) =
        ((recordImpl (Crevice.genFields tg (structAl l (rows.map Row.impl)) 0 0 (rows.map Row.impl))
          (structAl l (rows.map Row.impl)) (rows.map Row.impl)).fromStd v).map fun w => (own c.name, w) := by
    refine ((hf.and hC).and (ev_ge 1)).succ fun n h v w => ?_
    obtain ⟨⟨hf, hC⟩, h2⟩ := h
    obtain ⟨m, rfl⟩ : ∃ m, n = m + 1 := ⟨n - 1, by omega⟩
    rw [eval_next]
    simp only [evalRule]
    rw [self_norm, Option.bind_some, hC, Option.bind_some]
    unfold evalFields
    rw [(names_map hr (fromCode l)).1, (names_map hr (fromCode l)).2, mapM_zip_map, mapM_map]
    rw [mapM_congr' (g := fun r : Row k tg env l => ((v.field r.name).bind r.i.fromStd).map fun y => (r.name, y))]
    · rw [conv_map Impl.fromStd rows v]
      unfold recordImpl
      dsimp only
      rw [Option.map_bind, List.map_map, List.map_map]
      rfl
    · intro r hm
      dsimp only
      rw [src_field hs hm, hf r hm _ rfl, Option.map_map]
      rfl
  refine (hb.and (ev_ge 1)).succ fun n h v => ?_
  obtain ⟨h, h2⟩ := h
  obtain ⟨m, rfl⟩ : ∃ m, n = m + 1 := ⟨n - 1, by omega⟩
  have hfn : assocFn (ownFound c.name (asDef (c, l)).items).items (fromName l) = some (fromFnCode (c, l)) := by cases l <;> rfl
  unfold Sem.call
  rw [hfn, Option.bind_some]
  unfold fromFnCode
  dsimp only
  rw [Option.bind_some, if_pos (by simp), self_norm, Option.bind_some, eval_next]
  simp only [evalRule, evalStmts, Option.bind_some]
  exact h v _

/-- A struct with a derive fits. -/
theorem struct_fits (hk : k.Ok) {c : ClientStruct} (hd : (c, l) ∈ k.ds) {rows : List (Row k tg env l)}
    (hr : c.fields = rows.map Row.src)
    (hok : RecordOk (Crevice.genFields tg (structAl l (rows.map Row.impl)) 0 0 (rows.map Row.impl)) (rows.map Row.impl))
    (hdb : ∀ r ∈ rows, r.i.outDebug = true) :
    Ev fun n => Fits k tg env l (ty c.name) (own c.name) (own (generatedName l c.name))
      (recordImpl (Crevice.genFields tg (structAl l (rows.map Row.impl)) 0 0 (rows.map Row.impl))
        (structAl l (rows.map Row.impl)) (rows.map Row.impl)) n := by
  have hs : (rowNames rows).Nodup := by
    have := hok.fnodup
    rw [List.map_map] at this
    exact this
  have hn : ((outFields (padAt tg (structAl l (rows.map Row.impl)) (rows.map Row.impl)) 0 rows).map Prod.fst).Nodup := by
    rw [outFields_names, memFields_eq]
    exact hok.gnodup
  have der : ∀ {t : String}, t ∈ ["Debug", "Clone", "Copy"] →
      (∀ r ∈ rows, ∀ n, Fits k tg env l r.t r.c r.O r.i n → (K k tg env n).implements [t] r.O = some true) →
      Ev fun n => (K k tg env n).implements [t] (own (generatedName l c.name)) = some true := fun ht h =>
    gen_derived hk hd hr ht fun r hm => r.ev.mono fun n hf => h r hm n hf
  have h1 := as_call (tg := tg) (env := env) hk hd hr hs
  have h2 := from_call (tg := tg) (env := env) hk hd hr hs hn
  have h3 := gen_layout (tg := tg) (env := env) hk hd hr
  have h4 := gen_std (tg := tg) (env := env) hk hd hr
  have h5 := der (t := "Debug") (by decide) fun r hm n h => by rw [h.fit.debug, hdb r hm]
  have h6 := der (t := "Clone") (by decide) fun r hm n h => h.fit.clone
  have h7 := der (t := "Copy") (by decide) fun r hm n h => h.fit.copy
  refine ((((((h1.and h2).and h3).and h4).and h5).and (h6.and h7)).and (ev_ge 3)).mono fun n h => ?_
  obtain ⟨⟨⟨⟨⟨⟨h1, h2⟩, h3⟩, h4⟩, h5⟩, h6, h7⟩, hge⟩ := h
  obtain ⟨m, rfl⟩ : ∃ m, n = m + 3 := ⟨n - 3, by omega⟩
  have hfind := find_of_candidates (as_cands (tg := tg) (env := env) hk hd m)
  have hx := (mem_names hd).2
  refine ⟨fun s hs => own_norm hx (not_self hk hx) hs _, ⟨_, hfind, h1, h2⟩, ?_, h3, h4, h5,
    gen_pod hk hd (m + 1) (by decide), gen_pod hk hd (m + 1) (by decide), h7, h6, gen_blanket hk hd m⟩
  unfold Sem.project
  rw [hfind, Option.bind_some]
  show Option.bind (some (ty (generatedName l c.name))) _ = _
  exact own_norm (mem_names hd).1 (not_self hk (mem_names hd).1) (own_home _ _) _

/-- The implementation of a struct, and that all of its fields have `Debug`. -/
theorem resolve_rows {name : String} {fs : List (String × Crevice.Ty)} {i : Impl}
    (h : resolve tg env l (.struct name fs) = some i) : ∃ is, resolveFields tg env l fs = some is ∧
      RecordOk (Crevice.genFields tg (structAl l is) 0 0 is) is ∧ (∀ f ∈ is, f.2.outDebug = true) ∧
      i = recordImpl (Crevice.genFields tg (structAl l is) 0 0 is) (structAl l is) is := by
  simp only [resolve] at h
  cases hr : resolveFields tg env l fs with
  | none => simp [hr] at h
  | some is =>
    simp only [hr, Option.bind_some, deriveImpl_eq] at h
    split at h
    · rename_i hn
      cases h
      exact ⟨is, rfl, recordOk_gen hn.1, by simpa using hn.2, rfl⟩
    · cases h

/-! ### Other structs -/

theorem underived_cands (hk : k.Ok) {c : ClientStruct} (hc : c ∈ k.cs) (hd : (c, l) ∉ k.ds) (n : Nat) :
    (K k tg env (n + 3)).candidates [mod l, asTrait l] [] (own c.name) = some [] := by
  refine cands_none (notGlsl_as l) (as_crate_none hk hc n) fun e he i hi hs => ?_
  rcases implsFor_cases hi with ⟨rfl, ht⟩ | ⟨hg, -⟩
  · have hl := as_inj ht
    have hn : e.1.name = c.name := name_ty hs
    obtain ⟨h1, -, -⟩ := List.nodup_append.1 (names_nodup hk)
    have : e.1 = c := by
      obtain ⟨as, bs, h⟩ := List.append_of_mem (k.known _ he)
      rw [h] at h1 hc
      rw [List.map_append, List.map_cons] at h1
      have h2 := List.nodup_append.1 h1
      rcases List.mem_append.1 hc with hc | hc
      · exact absurd hn.symm (h2.2.2 _ (List.mem_map.2 ⟨c, hc, rfl⟩) _ List.mem_cons_self)
      · rcases List.mem_cons.1 hc with hc | hc
        · exact hc.symm
        · exact absurd (List.mem_map.2 ⟨c, hc, hn.symm⟩) (List.nodup_cons.1 h2.2.1).1
    refine hd ?_
    rw [← this, hl]
    exact he
  · exact src_ne_gen hk hc he (name_ty (hg.symm.trans hs))

theorem underived (hk : k.Ok) {c : ClientStruct} (hc : c ∈ k.cs) (hd : (c, l) ∉ k.ds) (n : Nat) :
    k.impl tg env n l (ty c.name) = none := by
  have hx : c.name ∈ k.names := by
    rw [names_eq]
    exact List.mem_append_left _ (List.mem_map.2 ⟨c, hc, rfl⟩)
  unfold Client.impl
  rw [sem_eq hk]
  cases n with
  | zero => rfl
  | succ n =>
    rw [own_norm hx (not_self hk hx) home_top, Option.bind_some]
    unfold semImpl
    have : (K k tg env (n + 1)).find [mod l, asTrait l] [] (own c.name) = none := by
      have small : ∀ m, applies (kx k) (K k tg env m) [] (own c.name) (blanketDef l) = none →
          (K k tg env (m + 1)).find [mod l, asTrait l] [] (own c.name) = none := by
        intro m h
        unfold Sem.find
        rw [cands_next _ _ _ _ (notGlsl_as l)]
        have e : jx.impls [mod l, asTrait l] = blanketDef l :: (asDefs l).tail := by cases l <;> rfl
        rw [e, List.cons_append, filterMapM, h]
        rfl
      rcases n with _ | _ | n
      · exact small 0 (by cases l <;> kernel_rfl)
      · exact small 1 (by cases l <;> kernel_rfl)
      · unfold Sem.find
        rw [underived_cands hk hc hd]
        rfl
    rw [this]
    rfl

/-! ### There are such crates -/

theorem expansion_exists (l : Layout) (c : ClientStruct) : ∃ is, Expansion l c is := by
  rcases Tokens.emit_sim l c.vis { ident := c.name, data := .structNamed c.fields } with
    ⟨ts, fields, g, pads, str, k1, k2, k3, -, -, k4, -⟩ | ⟨e, -, k1⟩
  · refine ⟨_, ts, fun n hn => ?_, k4⟩
    rw [C64_layout false l c.vis _ hn, emitAll_false, k1]
  · obtain ⟨g', e1, -⟩ := emitLayout_ok l c.name c.fields
    rw [e1] at k1
    cases k1

theorem glsl_exists : ∀ gs : List ClientStruct, ∃ items, GlslDerived gs items
  | [] => ⟨[], .nil⟩
  | c :: gs => by
    obtain ⟨rest, hr⟩ := glsl_exists gs
    obtain ⟨fields, -, h⟩ := Tokens.glsl_reads { ident := c.name, data := .structNamed c.fields } rfl
    refine ⟨_, .cons ⟨_, fun n hn => ?_, h⟩ hr⟩
    rw [C64_glsl false c.vis _ hn]
    rfl

theorem derived_exists : ∀ ds : List (ClientStruct × Layout), ∃ items, Derived ds items
  | [] => ⟨[], .nil⟩
  | (c, l) :: ds => by
    obtain ⟨is, h⟩ := expansion_exists l c
    obtain ⟨rest, hr⟩ := derived_exists ds
    exact ⟨_, .cons h hr⟩

end Crevice.ClientProof
