import Verif.Proof.RunNoStd
import Verif.Props.C63
import Verif.Props.C33
import Verif.Props.C69
import Verif.Spec.TextCrate
/-
C70. A whole program as text: a crate with derives, crevice with any set of features, and a main function that sizes and
writes values of types of the crate.
-/
namespace Crevice
open RustCode

/-- With `std`, whatever the other features, the text of the Writer and the Sizer that is compiled is the one of `C63`. -/
theorem C70_library {f : Features} (hf : f.std = true) (l : Layout) : libraryWith f l = library l := by
  cases l
  · rw [L140.library_std f hf, L140.library_eq]
  · rw [L430.library_std f hf, L430.library_eq]

/-- Without `std` there is no Writer: a program that mentions it does not compile. -/
theorem C70_no_writer {S : Setting} {f : Features} (hf : f.std = false) (l : Layout) (s : S.Sink) (world : S.World) (n : Nat) :
    (exec (libraryWith f l) [] n (.call (.path (.path ["Writer", "new"] [])) [.var "s"]) [("s", .sink s)] world).1 = .stuck := by
  cases l
  · rw [N140.library_no_std f hf]; rfl
  · rw [N430.library_no_std f hf]; rfl

/-- What does not write does not depend on the features: `T::stdN_size_static()`, `x.as_bytes()`, and the conversions of
Output types. -/
theorem C70_any {S : Setting} (f : Features) (l : Layout) (t : S.ConvTy) (u : S.StdTy) (d : S.Std) (n : Nat) (env : Env S)
    (world : S.World) :
    exec (libraryWith f l) [("T", .conv t)] (n + 1) (callSizeStatic l) env world =
      (.val (.word (BitVec.ofNat _ (S.size (S.outTy t)))), { env := env, world := world }) ∧
    exec (libraryWith f l) [] (n + 1) (.method (.var "x") "as_bytes" []) [("x", .arg (.std d))] world =
      (.val (.bytes (S.bytes d)), { env := [("x", .arg (.std d))], world := world }) ∧
    exec (libraryWith f l) [] (n + 1) (callAs l) [("x", .arg (.std d))] world =
      (.val (.arg (.std d)), { env := [("x", .arg (.std d))], world := world }) ∧
    exec (libraryWith f l) [("T", .std u)] (n + 1) (callFrom l) [("x", .arg (.std d))] world =
      (.val (.arg (.std d)), { env := [("x", .arg (.std d))], world := world }) := by
  cases hf : f.std <;> cases l
  · rw [N140.library_no_std f hf]
    exact ⟨N140.exec_sizeStatic n t env world, N140.exec_asBytes n d world, N140.exec_asStd n d world, N140.exec_fromStd n u d world⟩
  · rw [N430.library_no_std f hf]
    exact ⟨N430.exec_sizeStatic n t env world, N430.exec_asBytes n d world, N430.exec_asStd n d world, N430.exec_fromStd n u d world⟩
  · rw [L140.library_std f hf]
    exact ⟨L140.exec_sizeStatic n t env world, L140.exec_asBytes n d world, L140.exec_asStd n d world, L140.exec_fromStd n u d world⟩
  · rw [L430.library_std f hf]
    exact ⟨L430.exec_sizeStatic n t env world, L430.exec_asBytes n d world, L430.exec_asStd n d world, L430.exec_fromStd n u d world⟩

theorem sizer_add_any {S : Setting} (f : Features) (l : Layout) (t : S.ConvTy) (o : BitVec S.bits) (n : Nat) (world : S.World) :
    execMethod (libraryWith f l) (n + 3) [.conv t] "z" "add" [("z", sizer o)] world =
      (wordRes (sizerAdd (mode S) o (S.size (S.outTy t)) (S.align (S.outTy t))).1,
        { env := [("z", sizer (sizerAdd (mode S) o (S.size (S.outTy t)) (S.align (S.outTy t))).2)], world := world }) := by
  cases hf : f.std <;> cases l
  · rw [N140.library_no_std f hf]; exact N140.exec_sizerAdd n _ _ _ _ (N140.converts_conv t) o world
  · rw [N430.library_no_std f hf]; exact N430.exec_sizerAdd n _ _ _ _ (N430.converts_conv t) o world
  · rw [L140.library_std f hf]; exact L140.exec_sizerAdd n _ _ _ _ (L140.converts_conv t) o world
  · rw [L430.library_std f hf]; exact L430.exec_sizerAdd n _ _ _ _ (L430.converts_conv t) o world

/-- `Sizer::new()` and `z.len()`, with any features. -/
theorem C70_sizer_new_len {S : Setting} (f : Features) (l : Layout) (o : BitVec S.bits) (n : Nat) (env : Env S) (world : S.World) :
    exec (libraryWith f l) [] (n + 1) (.call (.path (.path ["Sizer", "new"] [])) []) env world =
      (.val (sizer 0), { env := env, world := world }) ∧
    exec (libraryWith f l) [] (n + 1) (.method (.var "z") "len" []) [("z", sizer o)] world =
      (.val (.word o), { env := [("z", sizer o)], world := world }) := by
  cases hf : f.std <;> cases l
  · rw [N140.library_no_std f hf]; exact ⟨N140.exec_sizerNew n env world, N140.exec_sizerLen n o world⟩
  · rw [N430.library_no_std f hf]; exact ⟨N430.exec_sizerNew n env world, N430.exec_sizerLen n o world⟩
  · rw [L140.library_std f hf]; exact ⟨L140.exec_sizerNew n env world, L140.exec_sizerLen n o world⟩
  · rw [L430.library_std f hf]; exact ⟨L430.exec_sizerNew n env world, L430.exec_sizerLen n o world⟩

variable {k : Client} {f : Features} {tg : Target} {env : ForeignEnv} {l : Layout} {N bits : Nat}

theorem sizerSession_cons {S : Setting} (p : Program) (n : Nat) (world : S.World) (z : Val S) (t : RtTy S) (ts : List (RtTy S)) :
    sizerSession p n world z (t :: ts) =
      ((execMethod p n [t] "z" "add" [("z", z)] world).1 ::
        (sizerSession p n world (((execMethod p n [t] "z" "add" [("z", z)] world).2.env.lookup "z").getD .unit) ts).1,
      (sizerSession p n world (((execMethod p n [t] "z" "add" [("z", z)] world).2.env.lookup "z").getD .unit) ts).2) := rfl

theorem sizer_session (checked : Bool) (cs : List (CrateTy k f tg env l N bits)) (o : BitVec bits) {os : List (BitVec bits)}
    {u : SizerU bits} (h : (SizerU.mk o).addAll (mode (crateSetting k f tg env l N bits checked)) tg (cs.map CrateTy.impl) = some (os, u)) (n : Nat) :
    sizerSession (S := crateSetting k f tg env l N bits checked) (libraryWith f l) (n + 3) () (sizer (S := crateSetting k f tg env l N bits checked) o) (crateTys checked cs) =
      (os.map fun o => .val (.word o), sizer (S := crateSetting k f tg env l N bits checked) u.offset) := by
  induction cs generalizing o os with
  | nil => cases h; rfl
  | cons c cs ih =>
    rw [List.map_cons, SizerU.addAll, sizerAdd_eq] at h
    have ha := sizer_add_any (S := crateSetting k f tg env l N bits checked) f l c o n ()
    have e1 : (crateSetting k f tg env l N bits checked).size ((crateSetting k f tg env l N bits checked).outTy c) =
      c.impl.out.size tg := rfl
    have e2 : (crateSetting k f tg env l N bits checked).align ((crateSetting k f tg env l N bits checked).outTy c) =
      c.impl.alignment := rfl
    rw [e1, e2] at ha
    rcases hs : sizerAdd (mode (crateSetting k f tg env l N bits checked)) o (c.impl.out.size tg) c.impl.alignment with ⟨_ | r, o'⟩
    · rw [hs] at h; cases h
    · rw [hs] at h
      erw [hs] at ha
      simp only [Option.map_some, Option.bind_some, Option.map_eq_some_iff] at h
      obtain ⟨⟨os', u'⟩, h1, h2⟩ := h
      cases h2
      have := ih o' h1
      refine (sizerSession_cons (S := crateSetting k f tg env l N bits checked) (libraryWith f l) (n + 3) () (sizer o)
        (.conv c) (crateTys checked cs)).trans ?_
      rw [ha]
      simp only [List.lookup_cons, beq_self_eq_true, Option.getD_some]
      rw [this]
      rfl

theorem sizer_len_mono (tg : Target) (is : List Impl) : ∀ s : Sizer, s.offset ≤ (s.addAll tg is).2.offset ∧
    ∀ i ∈ is, i.out.size tg ≤ (s.addAll tg is).2.offset := by
  induction is with
  | nil => intro s; exact ⟨Nat.le_refl _, fun _ h => nomatch h⟩
  | cons i is ih =>
    intro s
    obtain ⟨h1, h2⟩ := ih (s.add tg i).2
    have h3 : (s.addAll tg (i :: is)).2 = ((s.add tg i).2.addAll tg is).2 := rfl
    have h4 : (s.add tg i).2.offset = s.offset + alignOffset s.offset i.alignment + i.out.size tg := rfl
    rw [h3]
    refine ⟨by omega, fun j hj => ?_⟩
    rcases List.mem_cons.1 hj with rfl | hj
    · omega
    · exact h2 j hj

/-- The implementations of the types are found in the text. -/
theorem puts_found (hk : k.Ok) (xs : List (Put k f tg env l)) (hb : 256 < 2 ^ bits) (htg : tg.Valid)
    (hs : ∀ x ∈ xs, x.impl.out.size tg < 2 ^ bits) :
    ∃ N, ∀ n ≥ N, ∃ cs : List (CrateTy k f tg env l n bits), cs.map CrateTy.ty = xs.map Put.ty ∧
      cs.map CrateTy.impl = xs.map Put.impl := by
  induction xs with
  | nil => exact ⟨0, fun _ _ => ⟨[], rfl, rfl⟩⟩
  | cons x xs ih =>
    obtain ⟨N, hN⟩ := ih fun y hy => hs y (.tail _ hy)
    obtain ⟨M, hM⟩ := C69_resolve tg env hk f x.uses x.enabled x.resolves
    refine ⟨N + M, fun n hn => ?_⟩
    obtain ⟨cs, h1, h2⟩ := hN n (by omega)
    refine ⟨⟨x.ty, x.impl, hM n (by omega), Nat.lt_of_le_of_lt (C33_alignments htg x.resolves).2 hb, hs x (.head _)⟩ :: cs, ?_, ?_⟩
    · rw [List.map_cons, List.map_cons, h1]
    · rw [List.map_cons, List.map_cons, h2]

/-- With any features, the Sizer of the text, on types of the crate with the implementations found in the text, returns
the offsets of the model, as long as the total fits into a word. -/
theorem C70_sizer (hk : k.Ok) (htg : tg.Valid) (checked : Bool) (hb : 256 < 2 ^ bits) (xs : List (Put k f tg env l))
    (hfit : (Sizer.new.addAll tg (xs.map Put.impl)).2.len < 2 ^ bits) :
    ∃ N, ∀ n ≥ N, ∃ cs : List (CrateTy k f tg env l n bits), cs.map CrateTy.ty = xs.map Put.ty ∧
      ∀ m, sizerSession (S := crateSetting k f tg env l n bits checked) (libraryWith f l) (m + 3) () (sizer (S := crateSetting k f tg env l n bits checked) 0#bits) (crateTys checked cs) =
        ((Sizer.new.addAll tg (xs.map Put.impl)).1.map fun o => .val (.word (BitVec.ofNat bits o)),
          sizer (S := crateSetting k f tg env l n bits checked) (BitVec.ofNat bits (Sizer.new.addAll tg (xs.map Put.impl)).2.len)) := by
  have hs : ∀ x ∈ xs, x.impl.out.size tg < 2 ^ bits := fun x hx =>
    Nat.lt_of_le_of_lt ((sizer_len_mono tg _ Sizer.new).2 _ (List.mem_map_of_mem hx)) hfit
  obtain ⟨N, hN⟩ := puts_found hk xs hb htg hs
  refine ⟨N, fun n hn => ?_⟩
  obtain ⟨cs, h1, h2⟩ := hN n hn
  refine ⟨cs, h1, fun m => ?_⟩
  obtain ⟨u, h3, h4, h5⟩ := (C33_sizer_checked (w := bits) tg (xs.map Put.impl) (fun i hi => by
    obtain ⟨x, hx, rfl⟩ := List.mem_map.1 hi
    exact ⟨Nat.lt_of_le_of_lt (C33_alignments htg x.resolves).2 hb, hs x hx⟩)).1 hfit
  have h6 : (SizerU.mk 0#bits).addAll (mode (crateSetting k f tg env l n bits checked)) tg (cs.map CrateTy.impl) =
      some ((Sizer.new.addAll tg (xs.map Put.impl)).1.map (BitVec.ofNat bits), u) := by
    rw [h2]
    cases checked
    · exact h5.trans h3
    · exact h3
  rw [sizer_session checked cs 0#bits h6 m, List.map_map]
  have h7 : u.offset = BitVec.ofNat bits (Sizer.new.addAll tg (xs.map Put.impl)).2.len := by
    rw [← h4]; simp
  rw [h7]
  rfl

theorem puts_items (htg : tg.Valid) (henv : env.Lawful tg) (xs : List (Put k f tg env l)) :
    ∃ ys : List (Item tg env l), ys.map Item.ty = xs.map Put.model ∧ ys.map Item.val = xs.map Put.val ∧
      ys.map Item.impl = xs.map Put.impl := by
  induction xs with
  | nil => exact ⟨[], rfl, rfl, rfl⟩
  | cons x xs ih =>
    obtain ⟨ys, h1, h2, h3⟩ := ih
    obtain ⟨y, g1, g2, g3⟩ := Item.exists htg henv x.resolves x.hasVal
    exact ⟨y :: ys, by rw [List.map_cons, List.map_cons, g1, h1], by rw [List.map_cons, List.map_cons, g2, h2],
      by rw [List.map_cons, List.map_cons, g3, h3]⟩

theorem viewArg_conv {S : Setting} (c : S.Conv) : viewArg (S := S) (.conv c) =
    match S.convert c with
    | .returns d => .std (viewStd d)
    | .panics => .panics (S.size (S.outTy (S.convTy c))) := by
  rw [viewArg]
  rfl

theorem view_crate (checked : Bool) (c : CrateTy k f tg env l N bits) (y : Item tg env l) (h : c.impl = y.impl) :
    viewArg (S := crateSetting k f tg env l N bits checked) (.conv (c, y.val)) = .std y.std := by
  have hb := y.bytes_eq
  rw [← h] at hb
  rcases ho : c.impl.asStd y.val with _ | o
  · rw [ho] at hb; cases hb
  · rw [ho, Option.bind_some] at hb
    have hc : (crateSetting k f tg env l N bits checked).convert (c, y.val) = .returns (c, o) := by
      change (match c.impl.asStd y.val with
        | some o => Ends.returns (c, o)
        | none => Ends.panics) = _
      rw [ho]
      rfl
    refine (viewArg_conv (S := crateSetting k f tg env l N bits checked) (c, y.val)).trans ?_
    rw [hc]
    change UVal.std ⟨c.impl.alignment, c.impl.out.size tg, (bytesOf tg c.impl.out o).getD []⟩ = _
    rw [hb, h]
    rfl

theorem views_crate (checked : Bool) (cs : List (CrateTy k f tg env l N bits)) : ∀ (ys : List (Item tg env l)),
    cs.map CrateTy.impl = ys.map Item.impl →
    ((cs.zip (ys.map Item.val)).map fun c => viewArg (S := crateSetting k f tg env l N bits checked) (.conv c)) =
      (ys.map Item.std).map UVal.std := by
  induction cs with
  | nil =>
    intro ys h
    cases ys with
    | nil => rfl
    | cons y ys => cases h
  | cons c cs ih =>
    intro ys h
    cases ys with
    | nil => cases h
    | cons y ys =>
      rw [List.map_cons, List.map_cons] at h
      injection h with h1 h2
      exact List.cons_eq_cons.2 ⟨view_crate checked c y h1, ih ys h2⟩

/-- From the text of a crate to the shader: the derives of the crate are run, the implementations of its types are
looked up, and its values are written with the Writer of the text. If the total size fits into `usize`, every call
returns `Ok(offset)` with the offset that the Sizer gives, and each value can be read back from the bytes at its offset, by
Rust with the implementation found in the text, and by a shader. -/
theorem C70_program (hk : k.Ok) (htg : tg.Valid) (henv : env.Lawful tg) (hf : f.std = true) (checked : Bool) (hb : 256 < 2 ^ bits)
    (xs : List (Put k f tg env l)) (hfit : (Sizer.new.addAll tg (xs.map Put.impl)).2.len < 2 ^ bits) :
    ∃ N, ∀ n ≥ N, ∃ (cs : List (CrateTy k f tg env l n bits)) (os : List Nat) (buf : List Byte),
      cs.map CrateTy.ty = xs.map Put.ty ∧
      Sizer.new.addAll tg (xs.map Put.impl) = (os, ⟨buf.length⟩) ∧
      (∃ m₀, ∀ m ≥ m₀, session (S := crateSetting k f tg env l n bits checked) (libraryWith f l) m ()
          (writer (S := crateSetting k f tg env l n bits checked) [] 0) (crateVals checked cs (xs.map Put.val)) =
        (os.map fun o => .val (.enum "Ok" [.word (BitVec.ofNat bits o)]),
          writer (S := crateSetting k f tg env l n bits checked) buf (BitVec.ofNat bits buf.length))) ∧
      ∀ (i : Nat) (c : CrateTy k f tg env l n bits) (x : Put k f tg env l) (o : Nat),
        cs[i]? = some c → xs[i]? = some x → os[i]? = some o →
        readAt tg c.impl buf o = some x.val ∧
        ∀ g, x.model.glsl = some g → ∃ d, x.model.denote env x.val = some d ∧ Glsl.read tg.endian l g buf o = some d := by
  have hs : ∀ x ∈ xs, x.impl.out.size tg < 2 ^ bits := fun x hx =>
    Nat.lt_of_le_of_lt ((sizer_len_mono tg _ Sizer.new).2 _ (List.mem_map_of_mem hx)) hfit
  obtain ⟨N, hN⟩ := puts_found hk xs hb htg hs
  obtain ⟨ys, y1, y2, y3⟩ := puts_items htg henv xs
  refine ⟨N, fun n hn => ?_⟩
  obtain ⟨cs, c1, c2⟩ := hN n hn
  let S := crateSetting k f tg env l n bits checked
  have hS : Sane S := fun t => ⟨t.align, t.size⟩
  let q : PSink (List Byte) Unit := vecPSink Unit
  have hq : q.asSink.Lawful := vecPSink_lawful
  obtain ⟨w', h1, -⟩ := history_infallible vecPSink_infallible (Writer.new ([] : List Byte)) (items_wf htg henv ys)
  generalize returned (Writer.new ([] : List Byte)).offset (ys.map Item.arg) = os at h1
  obtain ⟨buf, h3, h4, h5, h6⟩ := C41_read_back htg henv ys hq h1
  have h7 := C19_sizer_predicts_writer htg henv ys hq h1
  rw [y3] at h7
  have hlen : w'.offset < 2 ^ bits := by
    rw [h7] at hfit
    exact hfit
  rw [items_args] at h1
  have hU := historyU_plain q _ _ h1
  have hview : ((cs.zip (xs.map Put.val)).map fun c => (Arg.conv c : Arg S.Conv S.Std)).map viewArg =
      (ys.map Item.std).map UVal.std := by
    rw [← y2]
    exact (List.map_map ..).trans (views_crate checked cs ys (c2.trans y3.symm))
  have hkk : callerPSink S id = q := rfl
  obtain ⟨m₀, hm⟩ := C63_session (S := S) l hS id ((cs.zip (xs.map Put.val)).map fun c => .conv c) (Writer.new ([] : List Byte)) ()
    (by rw [hview, hkk]; erw [hU]; exact hlen)
  rw [hview, hkk] at hm
  refine ⟨cs, os, buf, c1, by rw [h7, h4], ⟨m₀, fun m hmm => ?_⟩, fun i c x o hc hx ho => ?_⟩
  · have := hm m hmm
    erw [hU] at this
    have hb : w'.sink = buf := h3
    have hl : w'.offset = buf.length := h4.symm
    rw [hb, hl] at this
    have e1 : crateVals checked cs (xs.map Put.val) =
        List.map (Val.arg (S := S)) ((cs.zip (xs.map Put.val)).map fun c => .conv c) := (List.map_map ..).symm
    have e2 : (os.map fun o => (.val (.enum "Ok" [.word (BitVec.ofNat bits o)]) : Res S (Val S))) =
        List.map outcomeRes (os.map fun o => .returned (.ok o)) := by
      rw [List.map_map]; rfl
    rw [C70_library hf]
    refine Eq.trans ?_ (this.trans ?_)
    · exact congrArg _ e1
    · exact congrArg (·, _) e2.symm
  · obtain ⟨hi, rfl⟩ := List.getElem?_eq_some_iff.1 hx
    obtain ⟨hi', rfl⟩ := List.getElem?_eq_some_iff.1 ho
    obtain ⟨hi'', rfl⟩ := List.getElem?_eq_some_iff.1 hc
    have hy : i < ys.length := by rw [h5] at hi'; exact hi'
    have hr := h6 i hy hi'
    have g1 : ys[i].ty = xs[i].model := by
      have := congrArg (·[i]?) y1
      simpa [hy, hi] using this
    have g2 : ys[i].val = xs[i].val := by
      have := congrArg (·[i]?) y2
      simpa [hy, hi] using this
    have g3 : cs[i].impl = ys[i].impl := by
      have := congrArg (·[i]?) (c2.trans y3.symm)
      simpa [hy, hi''] using this
    rw [g3, ← g1, ← g2]
    exact hr

end Crevice
