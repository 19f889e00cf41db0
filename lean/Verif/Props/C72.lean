import Verif.Props.C70
import Verif.Props.C22_C26
import Verif.Spec.TextBlock
/-
C72. A whole program as text that fills a block of a shader: values and slices of values of types of the crate.
-/
namespace Crevice
open RustCode

variable {k : Client} {f : Features} {tg : Target} {env : ForeignEnv} {l : Layout} {N bits : Nat}

/-- The value as an item of the model. -/
noncomputable def putItem (htg : tg.Valid) (henv : env.Lawful tg) (x : Put k f tg env l) : Item tg env l :=
  (Item.exists htg henv x.resolves x.hasVal).choose

theorem putItem_eq (htg : tg.Valid) (henv : env.Lawful tg) (x : Put k f tg env l) :
    (putItem htg henv x).ty = x.model ∧ (putItem htg henv x).val = x.val ∧ (putItem htg henv x).impl = x.impl :=
  (Item.exists htg henv x.resolves x.hasVal).choose_spec

/-- The argument as an entry of the model. -/
noncomputable def givenEntry (htg : tg.Valid) (henv : env.Lawful tg) : Given k f tg env l → Entry tg env l
  | .one x => .one (putItem htg henv x)
  | .many t xs => .many t (xs.map (putItem htg henv))

theorem putItems_impl (htg : tg.Valid) (henv : env.Lawful tg) (xs : List (Put k f tg env l)) :
    (xs.map (putItem htg henv)).map Item.impl = xs.map Put.impl := by
  rw [List.map_map]
  exact List.map_congr_left fun x _ => (putItem_eq htg henv x).2.2

theorem given_leaves (htg : tg.Valid) (henv : env.Lawful tg) (g : Given k f tg env l) :
    (givenEntry htg henv g).arg.leaves = (g.puts.map (putItem htg henv)).map Item.std := by
  cases g with
  | one x => simp only [givenEntry, Entry.arg, Item.arg_std, WVal.leaves, Given.puts, List.map_cons, List.map_nil]
  | many t xs => simp only [givenEntry, Entry.arg, items_slice_leaves, Given.puts]

theorem givens_leaves (htg : tg.Valid) (henv : env.Lawful tg) (gs : List (Given k f tg env l)) :
    leavesList (gs.map fun g => (givenEntry htg henv g).arg) =
      ((gs.flatMap Given.puts).map (putItem htg henv)).map Item.std := by
  induction gs with
  | nil => rfl
  | cons g gs ih => simp only [List.map_cons, leavesList, ih, given_leaves, List.flatMap_cons, List.map_append]

theorem entry_first (htg : tg.Valid) (henv : env.Lawful tg) (g : Given k f tg env l) (o : Nat) :
    (givenEntry htg henv g).arg.firstOffset o =
      ((Sizer.mk o).addAll tg (g.puts.map Put.impl)).1.headD o := by
  rw [← putItems_impl htg henv, addAll_eq htg henv]
  cases g with
  | one x => simp only [givenEntry, Entry.arg, Item.arg_std, WVal.firstOffset, Given.puts, List.map_cons, List.map_nil, places,
      List.headD_cons]
  | many t xs =>
    cases xs with
    | nil => rfl
    | cons x xs => simp only [givenEntry, Entry.arg, List.map_cons, WVal.firstOffset, Item.arg_std, Given.puts, places,
        List.headD_cons]

theorem sizer_addAll_append (tg : Target) (is js : List Impl) (s : Sizer) :
    (s.addAll tg (is ++ js)).2 = ((s.addAll tg is).2.addAll tg js).2 := by
  induction is generalizing s with
  | nil => rfl
  | cons i is ih => exact ih _

theorem entries_returned (htg : tg.Valid) (henv : env.Lawful tg) (gs : List (Given k f tg env l)) (s : Sizer) (i : Nat) (o : Nat)
    (h : (returned s.offset (gs.map fun g => (givenEntry htg henv g).arg))[i]? = some o) :
    ∃ g, gs[i]? = some g ∧
      o = (((s.addAll tg (((gs.take i).flatMap Given.puts).map Put.impl)).2).addAll tg (g.puts.map Put.impl)).1.headD
        (s.addAll tg (((gs.take i).flatMap Given.puts).map Put.impl)).2.len := by
  induction gs generalizing s i with
  | nil => cases h
  | cons g gs ih =>
    rw [List.map_cons, returned] at h
    cases i with
    | zero =>
      rw [List.getElem?_cons_zero, Option.some_inj, entry_first] at h
      exact ⟨g, rfl, h.symm⟩
    | succ i =>
      rw [List.getElem?_cons_succ, given_leaves] at h
      have e := addAll_eq htg henv (g.puts.map (putItem htg henv)) s
      obtain ⟨g', h1, h2⟩ := ih ⟨endOf s.offset ((g.puts.map (putItem htg henv)).map Item.std)⟩ i h
      refine ⟨g', h1, h2.trans ?_⟩
      have e2 : (s.addAll tg ((((g :: gs).take (i + 1)).flatMap Given.puts).map Put.impl)).2 =
          ((Sizer.mk (endOf s.offset ((g.puts.map (putItem htg henv)).map Item.std))).addAll tg
            (((gs.take i).flatMap Given.puts).map Put.impl)).2 := by
        rw [List.take_succ_cons, List.flatMap_cons, List.map_append, sizer_addAll_append]
        rw [putItems_impl] at e
        rw [e]
      rw [e2]

theorem viewArg_slice {S : Setting} (xs : List (Arg S.Conv S.Std)) :
    viewArg (S := S) (.slice xs) = .slice (viewArgs xs) := by
  rw [viewArg]

theorem given_view (htg : tg.Valid) (henv : env.Lawful tg) (checked : Bool) {g : Given k f tg env l}
    {a : Arg (CrateTy k f tg env l N bits × RVal) (CrateTy k f tg env l N bits × RVal)} (h : Hands g a) :
    (viewArg (S := crateSetting k f tg env l N bits checked) a).panicking = false ∧
    (viewArg (S := crateSetting k f tg env l N bits checked) a).plain = (givenEntry htg henv g).arg := by
  cases h with
  | @one x c h =>
    obtain ⟨h1, h2, h3⟩ := putItem_eq htg henv x
    have := view_crate checked c (putItem htg henv x) (h.2.trans h3.symm)
    rw [h2] at this
    exact ⟨(congrArg UVal.panicking this).trans rfl, (congrArg UVal.plain this).trans (Item.arg_std _).symm⟩
  | @many t xs cs h =>
    have h1 : cs.map CrateTy.impl = (xs.map (putItem htg henv)).map Item.impl := by
      have := congrArg (List.map Prod.snd) h
      rw [List.map_map, List.map_map] at this
      rw [putItems_impl]
      exact this
    have h2 := views_crate checked cs (xs.map (putItem htg henv)) h1
    have h3 : (xs.map (putItem htg henv)).map Item.val = xs.map Put.val := by
      rw [List.map_map]
      exact List.map_congr_left fun x _ => (putItem_eq htg henv x).2.1
    rw [h3] at h2
    have h4 : ∀ as : List (CrateTy k f tg env l N bits × RVal),
        viewArgs (S := crateSetting k f tg env l N bits checked) (as.map .conv) =
          as.map fun c => viewArg (S := crateSetting k f tg env l N bits checked) (.conv c) := by
      intro as
      induction as with
      | nil => rfl
      | cons a as ih => exact congrArg (List.cons _) ih
    have hv := (viewArg_slice (S := crateSetting k f tg env l N bits checked) ((cs.zip (xs.map Put.val)).map .conv)).trans
      (congrArg UVal.slice ((h4 _).trans h2))
    have h5 : ∀ ys : List StdVal, (UVal.slice (ys.map .std)).panicking = false ∧
        UVal.plainList (ys.map .std) = ys.map .std := by
      intro ys
      induction ys with
      | nil => exact ⟨rfl, rfl⟩
      | cons y ys ih => exact ⟨by rw [List.map_cons, UVal.panicking_cons, ih.1]; rfl, congrArg (List.cons _) ih.2⟩
    refine ⟨(congrArg UVal.panicking hv).trans (h5 _).1, (congrArg UVal.plain hv).trans ?_⟩
    rw [UVal.plain, (h5 _).2, givenEntry, Entry.arg, items_args]

theorem givens_view (htg : tg.Valid) (henv : env.Lawful tg) (checked : Bool) {gs : List (Given k f tg env l)}
    {as : List (Arg (CrateTy k f tg env l N bits × RVal) (CrateTy k f tg env l N bits × RVal))} (h : HandsAll gs as) :
    (∀ u ∈ as.map (viewArg (S := crateSetting k f tg env l N bits checked)), u.panicking = false) ∧
    (as.map (viewArg (S := crateSetting k f tg env l N bits checked))).map UVal.plain =
      gs.map fun g => (givenEntry htg henv g).arg := by
  induction h with
  | nil => exact ⟨fun _ h => (nomatch h), rfl⟩
  | cons h r ih =>
    obtain ⟨h1, h2⟩ := given_view htg henv checked h
    refine ⟨fun u hu => ?_, List.cons_eq_cons.2 ⟨h2, ih.2⟩⟩
    rcases List.mem_cons.1 hu with rfl | hu
    · exact h1
    · exact ih.1 u hu

theorem historyU_quiet {σ ε : Type} (q : PSink σ ε) (us : List UVal) (hp : ∀ u ∈ us, u.panicking = false) (w : Writer σ)
    {os : List Nat} {w' : Writer σ} (h : w.history q.asSink (us.map UVal.plain) = (os.map .ok, w')) :
    w.historyU q us = (os.map fun o => .returned (.ok o), w') := by
  have hm : us.map UVal.written = us.map UVal.plain := List.map_congr_left fun u hu => by
    rw [UVal.written, hp u hu]; rfl
  have hl : os.length = us.length := by
    have := history_results_length q.asSink w (us.map UVal.plain)
    rw [h] at this; simpa using this
  rw [C59_history, hm, h]
  refine Prod.ext ?_ rfl
  apply List.ext_getElem
  · simp [hl]
  · intro i h1 h2
    have hi : i < us.length := by simp [hl] at h2; exact h2
    have := hp us[i] (List.getElem_mem _)
    simp [UVal.ends, this]

theorem givens_found (hk : k.Ok) (gs : List (Given k f tg env l)) (hb : 256 < 2 ^ bits) (htg : tg.Valid)
    (hs : ∀ x ∈ gs.flatMap Given.puts, x.impl.out.size tg < 2 ^ bits) :
    ∃ N, ∀ n ≥ N, ∃ as : List (Arg (CrateTy k f tg env l n bits × RVal) (CrateTy k f tg env l n bits × RVal)), HandsAll gs as := by
  induction gs with
  | nil => exact ⟨0, fun _ _ => ⟨[], .nil⟩⟩
  | cons g gs ih =>
    obtain ⟨N, hN⟩ := ih fun y hy => hs y (by rw [List.flatMap_cons]; exact List.mem_append_right _ hy)
    obtain ⟨M, hM⟩ := puts_found hk g.puts hb htg fun y hy => hs y (by rw [List.flatMap_cons]; exact List.mem_append_left _ hy)
    refine ⟨N + M, fun n hn => ?_⟩
    obtain ⟨as, h1⟩ := hN n (by omega)
    obtain ⟨cs, h2, h3⟩ := hM n (by omega)
    cases g with
    | one x =>
      cases cs with
      | nil => cases h2
      | cons c cs =>
        injection h2 with h2
        injection h3 with h3
        exact ⟨_, .cons (.one ⟨h2, h3⟩) h1⟩
    | many t xs =>
      refine ⟨_, .cons (.many (cs := cs) ?_) h1⟩
      have e1 : cs.map (fun c => (c.ty, c.impl)) = (cs.map CrateTy.ty).zip (cs.map CrateTy.impl) := by
        rw [List.zip_map']
      have e2 : xs.map (fun x => (x.ty, x.impl)) = (xs.map Put.ty).zip (xs.map Put.impl) := by
        rw [List.zip_map']
      rw [e1, e2, h2, h3]
      rfl

theorem givens_members (htg : tg.Valid) (henv : env.Lawful tg) (gs : List (String × Given k f tg env l)) :
    blockMembers (gs.map fun g => (g.1, givenEntry htg henv g.2)) = givenMembers gs ∧
    blockValues (gs.map fun g => (g.1, givenEntry htg henv g.2)) = givenValues gs := by
  induction gs with
  | nil => exact ⟨rfl, rfl⟩
  | cons g gs ih =>
    obtain ⟨n, g⟩ := g
    have h1 : (givenEntry htg henv g).glsl = g.glsl := by
      cases g with
      | one x => simp only [givenEntry, Entry.glsl, Given.glsl, (putItem_eq htg henv x).1]
      | many t xs => simp only [givenEntry, Entry.glsl, Given.glsl, List.length_map]
    have h2 : (givenEntry htg henv g).denote = g.denote := by
      cases g with
      | one x => simp only [givenEntry, Entry.denote, Given.denote, (putItem_eq htg henv x).1, (putItem_eq htg henv x).2.1]
      | many t xs =>
        simp only [givenEntry, Entry.denote, Given.denote]
        congr 1
        clear h1
        induction xs with
        | nil => rfl
        | cons x xs ih => simp only [List.map_cons, List.mapM_cons, ih, (putItem_eq htg henv x).1, (putItem_eq htg henv x).2.1]
    exact ⟨by simp only [List.map_cons, blockMembers, givenMembers, ih.1, h1],
      by simp only [List.map_cons, blockValues, givenValues, ih.2, h2]⟩

/-- From the text of a crate to the block of a shader: the derives are run, the implementations are looked up, and values and
slices are written with the Writer of the text. If the total size fits into `usize`, every call returns the offset that the Sizer
gives for its first value (for an empty slice, the length so far); every value, also in a slice, can be read back from
the bytes at the offset that the Sizer gives for it. If the arguments are the members of a block, in order, elements of slices have the
stride of arrays, and only the last member may leave a gap or be empty, then the shader reads from the bytes all members of the block as they
were given, and the offsets are those of the members. -/
theorem C72_block (hk : k.Ok) (htg : tg.Valid) (henv : env.Lawful tg) (hf : f.std = true) (checked : Bool) (hb : 256 < 2 ^ bits)
    (gs : List (Given k f tg env l)) (hfit : (sizerAfter gs).len < 2 ^ bits) :
    ∃ N, ∀ n ≥ N, ∃ (as : List (Arg (CrateTy k f tg env l n bits × RVal) (CrateTy k f tg env l n bits × RVal)))
      (os : List Nat) (buf : List Byte),
      HandsAll gs as ∧ os.length = gs.length ∧ buf.length = (sizerAfter gs).len ∧
      (∃ m₀, ∀ m ≥ m₀, session (S := crateSetting k f tg env l n bits checked) (libraryWith f l) m ()
          (writer (S := crateSetting k f tg env l n bits checked) [] 0)
          (as.map (Val.arg (S := crateSetting k f tg env l n bits checked))) =
        (os.map fun o => .val (.enum "Ok" [.word (BitVec.ofNat bits o)]),
          writer (S := crateSetting k f tg env l n bits checked) buf (BitVec.ofNat bits buf.length))) ∧
      (∀ (i o : Nat) (g : Given k f tg env l), gs[i]? = some g → os[i]? = some o →
        o = ((sizerAfter (gs.take i)).addAll tg (g.puts.map Put.impl)).1.headD (sizerAfter (gs.take i)).len) ∧
      (∀ (i o : Nat) (x : Put k f tg env l), (gs.flatMap Given.puts)[i]? = some x →
        (Sizer.new.addAll tg ((gs.flatMap Given.puts).map Put.impl)).1[i]? = some o →
        readAt tg x.impl buf o = some x.val ∧
        ∀ t, x.model.glsl = some t → ∃ d, x.model.denote env x.val = some d ∧ Glsl.read tg.endian l t buf o = some d) ∧
      ∀ (names : List String) (ms : List (String × Glsl.Ty)), names.length = gs.length →
        (∀ g ∈ gs, g.ElemsOk) → (∀ g ∈ gs.dropLast, g.Full) → givenMembers (names.zip gs) = some ms →
        ∃ vs, givenValues (names.zip gs) = some vs ∧
          Glsl.read tg.endian l (.struct "Block" ms) buf 0 = some (.struct vs) ∧
          ∀ (i o : Nat) (g : Given k f tg env l) (name : String), gs[i]? = some g → os[i]? = some o → names[i]? = some name →
            g.puts ≠ [] → (Glsl.memberOffsets l 0 ms)[i]? = some (name, o) := by
  have hs : ∀ x ∈ gs.flatMap Given.puts, x.impl.out.size tg < 2 ^ bits := fun x hx =>
    Nat.lt_of_le_of_lt ((sizer_len_mono tg _ Sizer.new).2 _ (List.mem_map_of_mem hx)) hfit
  obtain ⟨N, hN⟩ := givens_found hk gs hb htg hs
  refine ⟨N, fun n hn => ?_⟩
  obtain ⟨as, ha⟩ := hN n hn
  let S := crateSetting k f tg env l n bits checked
  have hS : Sane S := fun t => ⟨t.align, t.size⟩
  let q : PSink (List Byte) Unit := vecPSink Unit
  have hq : q.asSink.Lawful := vecPSink_lawful
  have hwf : ∀ v ∈ gs.map (fun g => (givenEntry htg henv g).arg), v.Wf := by
    intro v hv
    obtain ⟨g, -, rfl⟩ := List.mem_map.1 hv
    exact (givenEntry htg henv g).wf htg henv
  obtain ⟨w', h1, h2⟩ := history_infallible (k := q.asSink) vecPSink_infallible (Writer.new ([] : List Byte)) hwf
  have hret := fun i o => entries_returned htg henv gs Sizer.new i o
  have hrl := returned_length (Writer.new ([] : List Byte)).offset (gs.map fun g => (givenEntry htg henv g).arg)
  rw [List.length_map] at hrl
  change ∀ i o, (returned (Writer.new ([] : List Byte)).offset (gs.map fun g => (givenEntry htg henv g).arg))[i]? = some o → _ at hret
  generalize returned (Writer.new ([] : List Byte)).offset (gs.map fun g => (givenEntry htg henv g).arg) = os at h1 hret hrl
  obtain ⟨-, -, h3⟩ := history_ok hq hwf h1
  -- the same values one by one
  let ys := (gs.flatMap Given.puts).map (putItem htg henv)
  have hy : ys.map Item.impl = (gs.flatMap Given.puts).map Put.impl := putItems_impl htg henv _
  obtain ⟨w₁, f1, f2⟩ := history_infallible (k := q.asSink) vecPSink_infallible (Writer.new ([] : List Byte)) (items_wf htg henv ys)
  obtain ⟨-, -, f3⟩ := history_ok hq (items_wf htg henv ys) f1
  have f4 := C19_sizer_predicts_writer htg henv ys hq f1
  obtain ⟨buf, b1, b2, b3, b4⟩ := C41_read_back htg henv ys hq f1
  rw [hy] at f4
  rw [givens_leaves] at h2 h3
  rw [items_leaves] at f2 f3
  have hsink : w'.sink = buf := by
    have e1 : q.asSink.delivered w'.sink = w'.sink := rfl
    rw [← e1, h3, ← f3, b1]
    rfl
  have hoff : w'.offset = buf.length := by
    rw [h2, b2]; exact f2.symm
  have hlen : buf.length = (sizerAfter gs).len := by
    rw [b2, sizerAfter, f4]; rfl
  obtain ⟨v1, v2⟩ := givens_view htg henv checked ha
  have hU := historyU_quiet q _ v1 (Writer.new ([] : List Byte)) (by rw [v2]; exact h1)
  have hkk : callerPSink S id = q := rfl
  obtain ⟨m₀, hm⟩ := C63_session (S := S) l hS id as (Writer.new ([] : List Byte)) ()
    (by rw [hkk]; erw [hU]; rw [hoff, hlen]; exact hfit)
  refine ⟨as, os, buf, ha, hrl, hlen, ⟨m₀, fun m hmm => ?_⟩, fun i o g hg ho => ?_, fun i o x hx ho => ?_,
    fun names ms hnames hok hfull hms => ?_⟩
  · have := hm m hmm
    rw [hkk] at this
    erw [hU] at this
    rw [hsink, hoff] at this
    have e2 : (os.map fun o => (.val (.enum "Ok" [.word (BitVec.ofNat bits o)]) : Res S (Val S))) =
        List.map outcomeRes (os.map fun o => .returned (.ok o)) := by
      rw [List.map_map]; rfl
    rw [C70_library hf]
    exact this.trans (congrArg (·, _) e2.symm)
  · obtain ⟨g', e1, e2⟩ := hret i o ho
    cases hg.symm.trans e1
    exact e2
  · rw [f4] at ho
    obtain ⟨hi, rfl⟩ := List.getElem?_eq_some_iff.1 hx
    obtain ⟨hi', rfl⟩ := List.getElem?_eq_some_iff.1 ho
    have hy : i < ys.length := by rw [List.length_map]; exact hi
    have hr := b4 i hy hi'
    have e : ys[i] = putItem htg henv (gs.flatMap Given.puts)[i] := List.getElem_map ..
    obtain ⟨e1, e2, e3⟩ := putItem_eq htg henv (gs.flatMap Given.puts)[i]
    rw [e, e1, e2, e3] at hr
    exact hr
  · obtain ⟨n1, n2⟩ := givens_members htg henv (names.zip gs)
    have hes : ((names.zip gs).map fun g => (g.1, givenEntry htg henv g.2)).map (fun e => e.2.arg) =
        gs.map fun g => (givenEntry htg henv g).arg := by
      rw [List.map_map]
      have : gs = (names.zip gs).map Prod.snd := by
        rw [List.map_snd_zip]; omega
      conv => rhs; rw [this]
      rw [List.map_map]
      rfl
    have hmem : ∀ p ∈ names.zip gs, p.2 ∈ gs := fun p hp => (List.of_mem_zip hp).2
    obtain ⟨B, vs, c1, c2, c3, c4, c5, c6⟩ := C22_block htg henv ((names.zip gs).map fun g => (g.1, givenEntry htg henv g.2))
      (fun e he => by
        obtain ⟨p, hp, rfl⟩ := List.mem_map.1 he
        have := hok _ (hmem p hp)
        rcases hg : p.2 with x | ⟨t, xs⟩
        · exact trivial
        · rw [hg] at this
          intro y hy
          obtain ⟨x, hx, rfl⟩ := List.mem_map.1 hy
          rw [(putItem_eq htg henv x).1, (putItem_eq htg henv x).2.2]
          exact this x hx)
      (fun e he => by
        rw [← List.map_dropLast] at he
        obtain ⟨p, hp, rfl⟩ := List.mem_map.1 he
        have hp' : p.2 ∈ gs.dropLast := by
          have e1 : (names.zip gs).dropLast = names.dropLast.zip gs.dropLast := by
            rw [List.dropLast_eq_take, List.dropLast_eq_take, List.dropLast_eq_take, List.length_zip, hnames, Nat.min_self, List.zip,
              List.take_zipWith]
          rw [e1] at hp
          exact (List.of_mem_zip hp).2
        have := hfull _ hp'
        rcases hg : p.2 with x | ⟨t, xs⟩
        · exact trivial
        · rw [hg] at this
          refine ⟨fun h => this.1 (List.map_eq_nil_iff.1 h), fun y hy => ?_⟩
          obtain ⟨x, hx, rfl⟩ := List.mem_map.1 hy
          rw [Item.length htg henv, (putItem_eq htg henv x).2.2]
          exact this.2 x hx)
      (n1.trans hms) hq (s := ([] : List Byte)) (by rw [hes]; exact h1)
    have hB : B = buf := by
      have : w'.sink = B := c1
      rw [← this, hsink]
    rw [n2] at c3
    rw [hB] at c4
    refine ⟨vs, c3, c4, fun i o g name hg ho hname hne => ?_⟩
    obtain ⟨hi, rfl⟩ := List.getElem?_eq_some_iff.1 hg
    obtain ⟨hi', rfl⟩ := List.getElem?_eq_some_iff.1 ho
    obtain ⟨hi'', rfl⟩ := List.getElem?_eq_some_iff.1 hname
    have hz : i < ((names.zip gs).map fun g => (g.1, givenEntry htg henv g.2)).length := by
      rw [List.length_map, List.length_zip]; omega
    have := c6 i hz hi' (by
      simp only [List.getElem_map, List.getElem_zip, given_leaves]
      intro h
      exact hne (List.map_eq_nil_iff.1 (List.map_eq_nil_iff.1 h)))
    simpa only [List.getElem_map, List.getElem_zip] using this

theorem sizerAfter_endOf (htg : tg.Valid) (henv : env.Lawful tg) (g : Given k f tg env l) :
    (sizerAfter [g]).len = endOf 0 (givenEntry htg henv g).arg.leaves := by
  have h := addAll_eq htg henv (g.puts.map (putItem htg henv)) Sizer.new
  rw [putItems_impl] at h
  rw [given_leaves, sizerAfter]
  simp only [List.flatMap_cons, List.flatMap_nil, List.append_nil, h]
  rfl

/-- `x.stdN_size()`, executed in the text, is the length of a Sizer after the values of the argument: the size of the buffer that
the program needs for it. -/
theorem C72_size (htg : tg.Valid) (henv : env.Lawful tg) (hf : f.std = true) (checked : Bool) {g : Given k f tg env l}
    {a : Arg (CrateTy k f tg env l N bits × RVal) (CrateTy k f tg env l N bits × RVal)} (ha : Hands g a)
    (hb : 256 < 2 ^ bits) (hfit : (sizerAfter [g]).len < 2 ^ bits) :
    Runs (S := crateSetting k f tg env l N bits checked) (libraryWith f l) (callSize l) [("x", .arg a)] ()
      (.val (.word (BitVec.ofNat bits (sizerAfter [g]).len))) [("x", .arg a)] () := by
  obtain ⟨h1, h2⟩ := given_view htg henv checked ha
  have hleaf : ∀ x ∈ (givenEntry htg henv g).arg.leaves, ((∃ j, x.alignment = 2 ^ j) ∨ x.alignment = 0) ∧
      x.alignment < 2 ^ bits ∧ x.size < 2 ^ bits := by
    intro x hx
    rw [given_leaves, List.map_map] at hx
    obtain ⟨p, hp, rfl⟩ := List.mem_map.1 hx
    obtain ⟨e1, e2, e3⟩ := putItem_eq htg henv p
    have hs : p.impl.out.size tg < 2 ^ bits := by
      refine Nat.lt_of_le_of_lt ((sizer_len_mono tg _ Sizer.new).2 _ ?_) hfit
      simp only [List.flatMap_cons, List.flatMap_nil, List.append_nil]
      exact List.mem_map_of_mem hp
    have e4 : (putItem htg henv p).std.alignment = p.impl.alignment := by rw [← e3]; rfl
    have e5 : (putItem htg henv p).std.size = p.impl.out.size tg := by rw [← e3]; rfl
    rw [Function.comp_apply, e4, e5]
    exact ⟨(C33_alignments htg p.resolves).1, Nat.lt_of_le_of_lt (C33_alignments htg p.resolves).2 hb, hs⟩
  have hwf := (givenEntry htg henv g).wf htg henv
  obtain ⟨n, k1, k2, -, r, k3, k4⟩ := C33_size hwf hleaf
  have hn : n = (sizerAfter [g]).len := by
    rw [sizerAfter_endOf htg henv]
    have hw := write_infallible (nullSink_infallible Unit) (Writer.new []) hwf
    obtain ⟨w', hw1, hw2⟩ := hw
    rcases hg : (givenEntry htg henv g).arg with x | xs
    · rw [hg] at k1 hwf
      rw [WVal.stdSize] at k1
      cases k1
      have := hwf x (List.mem_singleton.2 rfl)
      have h0 : nextOffset 0 x.alignment = 0 := nextOffset_self (.inr (Nat.dvd_zero _))
      rw [WVal.leaves, endOf, endOf, h0, this, Nat.zero_add]
    · rw [hg] at k1 hw1 hw2
      rw [WVal.stdSize, hw1] at k1
      cases k1
      exact hw2
  have key : sizeMachine (crateSetting k f tg env l N bits checked)
      (viewArg (S := crateSetting k f tg env l N bits checked) a) = some (BitVec.ofNat bits (sizerAfter [g]).len) := by
    have e : sizeMachine (crateSetting k f tg env l N bits checked)
        (viewArg (S := crateSetting k f tg env l N bits checked) a) =
        (viewArg (S := crateSetting k f tg env l N bits checked) a).plain.stdSizeU bits (mode (crateSetting k f tg env l N bits checked)) := by
      rcases hv : viewArg (S := crateSetting k f tg env l N bits checked) a with x | m | xs
      · rfl
      · rw [hv] at h1; cases h1
      · rw [hv] at h1
        rw [sizeMachine, h1]
        rfl
    rw [e, h2]
    cases checked
    · exact k3.trans (congrArg some (BitVec.eq_of_toNat_eq (by
        rw [k4, hn, BitVec.toNat_ofNat])))
    · obtain ⟨r', k5, k6⟩ := k2 (by rw [hn]; exact hfit)
      exact k5.trans (congrArg some (BitVec.eq_of_toNat_eq (by
        rw [k6, hn, BitVec.toNat_ofNat, Nat.mod_eq_of_lt hfit])))
  rw [C70_library hf]
  have := C63_size (S := crateSetting k f tg env l N bits checked) l a ()
  rw [key] at this
  exact this

/-- The conditions of `C72_block` hold for single values of any types and for slices of derived structs, of one struct each;
for a slice that is not the last member, if it is not empty. -/
theorem C72_structs (htg : tg.Valid) (g : Given k f tg env l)
    (h : ∀ t xs, g = .many t xs → (∃ name fs, t = .struct name fs) ∧ ∀ x ∈ xs, x.model = t) :
    g.ElemsOk ∧ (g.puts ≠ [] → g.Full) := by
  cases g with
  | one x => exact ⟨trivial, fun _ => trivial⟩
  | many t xs =>
    obtain ⟨⟨name, fs, rfl⟩, h2⟩ := h t xs rfl
    refine ⟨fun x hx => ⟨h2 x hx, ?_⟩, fun hne => ⟨hne, fun x hx => ?_⟩⟩
    · have hr := x.resolves
      rw [h2 x hx] at hr
      cases l
      · exact .inr (C02_struct_alignment hr).1
      · exact .inl rfl
    · have hr := x.resolves
      rw [h2 x hx] at hr
      exact C14_size htg hr

end Crevice
