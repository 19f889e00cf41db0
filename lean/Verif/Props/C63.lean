import Verif.Proof.Run430
import Verif.Proof.RunDynamic
import Verif.Proof.RunBool
import Verif.Proof.RunGlsl
import Verif.Proof.RunNat
import Verif.Proof.RunIter
import Verif.Spec.TextItems
import Verif.Props.C41_C42
/-
C63: the program text of the functions that run when values are written does what the models of the other files say.
The text is the sequence of tokens of the files in `/repo` (`Source`), which is parsed (`Spec/RustCode.lean`) and
executed (`Spec/RustRun.lean`).
-/
namespace Crevice
open RustCode

variable {S : Setting}

/-! ### Writer -/

/-- `Writer::new(s)`. -/
theorem C63_new (l : Layout) (s : S.Sink) (world : S.World) :
    Runs (library l) (.call (.path (.path ["Writer", "new"] [])) [.var "s"]) [("s", .sink s)] world
      (.val (writer s 0)) [("s", .sink s)] world := by
  refine ⟨1, fun n hn => ?_⟩
  obtain ⟨m, rfl⟩ : ∃ m, n = m + 1 := ⟨n - 1, by omega⟩
  cases l
  · rw [L140.library_eq]; exact L140.exec_new (Kind.caller S fun _ => []) m s world
  · rw [L430.library_eq]; exact L430.exec_new (Kind.caller S fun _ => []) m s world

/-- `w.len()`. -/
theorem C63_len (l : Layout) (s : S.Sink) (o : BitVec S.bits) (world : S.World) :
    Runs (library l) (.method (.var "w") "len" []) [("w", writer s o)] world
      (.val (.word o)) [("w", writer s o)] world := by
  refine ⟨1, fun n hn => ?_⟩
  obtain ⟨m, rfl⟩ : ∃ m, n = m + 1 := ⟨n - 1, by omega⟩
  cases l
  · rw [L140.library_eq]; exact L140.exec_len (Kind.caller S fun _ => []) m ⟨s, o⟩ world
  · rw [L430.library_eq]; exact L430.exec_len (Kind.caller S fun _ => []) m ⟨s, o⟩ world

theorem writeArg_machine (u : WriterU S.bits S.Sink) (x : Arg S.Conv S.Std) :
    writeArg (callerSink S fun _ => []) u x = writeMachine u (viewArg x) := by
  rw [writeArg_written, writeMachine]
  rcases u.write (mode S) (callerSink S fun _ => []) (viewArg x).written with ⟨_ | e | o, u'⟩ <;>
    cases (viewArg x).panicking <;> rfl

theorem exec_write_any (l : Layout) (delivered : S.Sink → List Byte) (u : WriterU S.bits S.Sink) (x : Arg S.Conv S.Std) (world : S.World) {n : Nat}
    (hn : x.depth + 6 ≤ n) :
    exec (library l) [] n callWrite [("w", writer u.sink u.offset), ("x", .arg x)] world =
      (writeRes (writeArg (callerSink S delivered) u x).1,
        { env := [("w", writer (writeArg (callerSink S delivered) u x).2.sink
            (writeArg (callerSink S delivered) u x).2.offset), ("x", .arg x)], world := world }) := by
  obtain ⟨m, rfl⟩ : ∃ m, n = m + (x.depth + 5) + 1 := ⟨n - x.depth - 6, by omega⟩
  cases l
  · rw [L140.library_eq]
    exact L140.exec_write (Kind.caller S delivered) (.arg x) (fun _ => rfl) _ m _ (L140.writes_arg _ x (Nat.le_refl _))
      u world
  · rw [L430.library_eq]
    exact L430.exec_write (Kind.caller S delivered) (.arg x) (fun _ => rfl) _ m _ (L430.writes_arg _ x (Nat.le_refl _))
      u world

/-- `w.write(&x)`, for every value of the client, nested slices of such values, every sink, whatever panics, and also
if the offset overflows. -/
theorem C63_write (l : Layout) (s : S.Sink) (o : BitVec S.bits) (x : Arg S.Conv S.Std) (world : S.World) :
    Runs (library l) callWrite [("w", writer s o), ("x", .arg x)] world
      (writeRes (writeMachine ⟨s, o⟩ (viewArg x)).1)
      [("w", writer (writeMachine ⟨s, o⟩ (viewArg x)).2.sink (writeMachine ⟨s, o⟩ (viewArg x)).2.offset), ("x", .arg x)]
      world := by
  refine ⟨x.depth + 6, fun n hn => ?_⟩
  rw [← writeArg_machine]
  exact exec_write_any l _ ⟨s, o⟩ x world hn

theorem historyU_cons {σ ε : Type} (k : PSink σ ε) (w : Writer σ) (u : UVal) (us : List UVal) :
    w.historyU k (u :: us) = ((w.writeU k u).1 :: ((w.writeU k u).2.historyU k us).1, ((w.writeU k u).2.historyU k us).2) := rfl

theorem offset_mono_writeU {σ ε : Type} (k : PSink σ ε) (w : Writer σ) (u : UVal) : w.offset ≤ (w.writeU k u).2.offset := by
  rw [C59_unwind]; exact offset_mono_write _ _ _

theorem offset_mono_historyU {σ ε : Type} (k : PSink σ ε) (us : List UVal) : ∀ w : Writer σ,
    w.offset ≤ (w.historyU k us).2.offset := by
  induction us with
  | nil => intro w; exact Nat.le_refl _
  | cons u us ih =>
    intro w
    rw [historyU_cons]
    exact Nat.le_trans (offset_mono_writeU k w u) (ih _)

/-- A whole session of writes with one Writer, as long as the offset does not overflow: the same results, the same
sink and the same offset as the model (`Model/Unwind.lean`). -/
theorem C63_session (l : Layout) (hS : Sane S) (delivered : S.Sink → List Byte) (xs : List (Arg S.Conv S.Std))
    (w : Writer S.Sink) (world : S.World)
    (hfin : (w.historyU (callerPSink S delivered) (xs.map viewArg)).2.offset < 2 ^ S.bits) :
    ∃ n₀, ∀ n, n₀ ≤ n →
      session (library l) n world (writer w.sink (BitVec.ofNat _ w.offset)) (xs.map .arg) =
        ((w.historyU (callerPSink S delivered) (xs.map viewArg)).1.map outcomeRes,
          writer (w.historyU (callerPSink S delivered) (xs.map viewArg)).2.sink
            (BitVec.ofNat _ (w.historyU (callerPSink S delivered) (xs.map viewArg)).2.offset)) := by
  refine ⟨Arg.depths xs + 6, fun n hn => ?_⟩
  induction xs generalizing w with
  | nil => rfl
  | cons x xs ih =>
    have hd : x.depth + 6 ≤ n ∧ Arg.depths xs + 6 ≤ n := by
      rw [Arg.depths] at hn; omega
    simp only [List.map_cons, historyU_cons] at hfin ⊢
    have h1 := exec_write_any l (S := S) delivered ⟨w.sink, BitVec.ofNat _ w.offset⟩ x world hd.1
    obtain ⟨h2, h3, h4⟩ := writeArg_nat hS delivered x (u := ⟨w.sink, BitVec.ofNat _ w.offset⟩) (w := w) ⟨rfl, rfl⟩
      (Nat.lt_of_le_of_lt (offset_mono_historyU _ _ _) hfin)
    rw [session, h1]
    simp only [List.lookup_cons, beq_self_eq_true, Option.getD_some, h3, h4]
    rw [ih _ hfin hd.2, h2]

/-! ### write_iter -/

/-- `w.write_iter(it)` for the iterator over a list: the same as writing the list. -/
theorem C63_write_iter_list (l : Layout) (s : S.Sink) (o : BitVec S.bits) (xs : List (Arg S.Conv S.Std)) (world : S.World) :
    Runs (library l) callWriteIter [("w", writer s o), ("it", .iter (xs.map .arg))] world
      (writeRes (writeMachine ⟨s, o⟩ (.slice (viewArgs xs))).1)
      [("w", writer (writeMachine ⟨s, o⟩ (.slice (viewArgs xs))).2.sink
        (writeMachine ⟨s, o⟩ (.slice (viewArgs xs))).2.offset), ("it", .iter (xs.map .arg))] world := by
  refine ⟨Arg.depths xs + 6, fun n hn => ?_⟩
  have hv : UVal.slice (viewArgs xs) = viewArg (S := S) (.slice xs) := by rw [viewArg]
  rw [hv, ← writeArg_machine]
  obtain ⟨m, rfl⟩ : ∃ m, n = m + (Arg.depths xs + 5) + 1 := ⟨n - Arg.depths xs - 6, by omega⟩
  cases l
  · rw [L140.library_eq]; exact L140.exec_writeIter (Kind.caller S fun _ => []) xs m ⟨s, o⟩ world
  · rw [L430.library_eq]; exact L430.exec_writeIter (Kind.caller S fun _ => []) xs m ⟨s, o⟩ world

theorem exec_writeNext_any (l : Layout) (delivered : S.Sink → List Byte) (d : Nat)
    (hx : ∀ w x w', S.next w = (.returns (some x), w') → x.depth ≤ d)
    (u : WriterU S.bits S.Sink) (world : S.World) {n : Nat} (hn : d + 5 ≤ n) :
    match writeNext (callerSink S delivered) n u world with
    | some (res, u', world') =>
      exec (library l) [] (n + 1) callWriteIter [("w", writer u.sink u.offset), ("it", .clientIter)] world =
        (writeRes res, { env := [("w", writer u'.sink u'.offset), ("it", .clientIter)], world := world' })
    | none => ∃ s, exec (library l) [] (n + 1) callWriteIter [("w", writer u.sink u.offset), ("it", .clientIter)]
        world = (.timeout, s) := by
  obtain ⟨m, rfl⟩ : ∃ m, n = m + (d + 5) := ⟨n - (d + 5), by omega⟩
  cases l
  · rw [L140.library_eq]
    have h := L140.exec_writeNext (Kind.caller S delivered) d m hx u world
    have hn' : writeNext (Kind.caller S delivered).k (m + (d + 5)) u world =
      writeNext (callerSink S delivered) (m + (d + 5)) u world := rfl
    rw [hn'] at h
    rcases hn : writeNext (callerSink S delivered) (m + (d + 5)) u world with _ | ⟨res, u', world'⟩ <;>
      rw [hn] at h <;> exact h
  · rw [L430.library_eq]
    have h := L430.exec_writeNext (Kind.caller S delivered) d m hx u world
    have hn' : writeNext (Kind.caller S delivered).k (m + (d + 5)) u world =
      writeNext (callerSink S delivered) (m + (d + 5)) u world := rfl
    rw [hn'] at h
    rcases hn : writeNext (callerSink S delivered) (m + (d + 5)) u world with _ | ⟨res, u', world'⟩ <;>
      rw [hn] at h <;> exact h

/-- `w.write_iter(it)` for an iterator of the client, which may have state, yield items after `None`, and never end:
if the model of `write_iter` (`Model/Iter.lean`) ends, so does the call, with the same result, Writer and iterator. -/
theorem C63_write_iter (l : Layout) (hS : Sane S) (delivered : S.Sink → List Byte)
    (hnext : ∀ w w', S.next w ≠ (.panics, w'))
    (hconv : ∀ w x w', S.next w = (.returns (some x), w') → (viewArg x).panicking = false)
    {d : Nat} (hd : ∀ w x w', S.next w = (.returns (some x), w') → x.depth ≤ d)
    (w : Writer S.Sink) (world : S.World) {n : Nat} {r w' world'}
    (h : w.runIter (callerSink S delivered) (clientIter S) n world = some (r, w', world'))
    (hlt : w'.offset < 2 ^ S.bits) :
    Runs (library l) callWriteIter [("w", writer w.sink (BitVec.ofNat _ w.offset)), ("it", .clientIter)] world
      (writeRes (some (r.map (BitVec.ofNat _))))
      [("w", writer w'.sink (BitVec.ofNat _ w'.offset)), ("it", .clientIter)] world' := by
  refine ⟨n + d + 6, fun k hk => ?_⟩
  obtain ⟨k, rfl⟩ : ∃ m, k = m + 1 := ⟨k - 1, by omega⟩
  obtain ⟨u', h1, h2, h3⟩ := writeNext_nat hS delivered hnext hconv (u := ⟨w.sink, BitVec.ofNat _ w.offset⟩) (w := w)
    ⟨rfl, rfl⟩ (runIter_mono h (fuel' := k) (by omega)) hlt
  have h4 := exec_writeNext_any l delivered d hd ⟨w.sink, BitVec.ofNat _ w.offset⟩ world (n := k) (by omega)
  rw [h1] at h4
  dsimp only at h4
  rw [h4, h2, h3]

theorem writeArg_slice_args {σ : Type} (k : Crevice.Sink σ (Option S.Err)) (u : WriterU S.bits σ)
    (xs : List (Arg S.Conv S.Std)) {o : BitVec S.bits} (h : (writeArg k u (.slice xs)).1 = some (.ok o)) :
    writeArgs k u xs = (some (.ok ()), (writeArg k u (.slice xs)).2) := by
  cases xs with
  | nil => rw [writeArgs, writeArg]
  | cons x xs =>
    rw [writeArg] at h ⊢
    rw [writeArgs]
    rcases h1 : writeArg k u x with ⟨_ | e | o, u'⟩ <;> rw [h1] at h
    · cases h
    · cases h
    · dsimp only at h ⊢
      rcases h2 : writeArgs k u' xs with ⟨_ | e | _, u''⟩ <;> rw [h2] at h
      · cases h
      · cases h

/-- If the `next` of the client panics after some items, `write_iter` unwinds, and exactly these items are written. -/
theorem C63_write_iter_unwinds (l : Layout) {d : Nat}
    (hd : ∀ w x w', S.next w = (.returns (some x), w') → x.depth ≤ d) (s : S.Sink) (o : BitVec S.bits)
    {xs : List (Arg S.Conv S.Std)} {world world₁ world₂ : S.World} (ht : TakesArgs S world xs world₁)
    (hn : S.next world₁ = (.panics, world₂)) {o' : BitVec S.bits}
    (hw : (writeMachine ⟨s, o⟩ (.slice (viewArgs xs))).1 = some (.ok o')) :
    Runs (library l) callWriteIter [("w", writer s o), ("it", .clientIter)] world .panic
      [("w", writer (writeMachine ⟨s, o⟩ (.slice (viewArgs xs))).2.sink
        (writeMachine ⟨s, o⟩ (.slice (viewArgs xs))).2.offset), ("it", .clientIter)] world₂ := by
  have hv : UVal.slice (viewArgs xs) = viewArg (S := S) (.slice xs) := by rw [viewArg]
  rw [hv, ← writeArg_machine] at hw ⊢
  refine ⟨xs.length + d + 7, fun k hk => ?_⟩
  obtain ⟨k, rfl⟩ : ∃ m, k = m + 1 := ⟨k - 1, by omega⟩
  have hargs := writeArg_slice_args _ _ xs hw
  have h4 := exec_writeNext_any l (fun _ => []) d hd ⟨s, o⟩ world (n := k) (by omega)
  rw [writeNext_unwinds _ ht hn hargs k (by omega)] at h4
  exact h4

/-- An iterator that never ends, with items that can be written: the call does not end. -/
theorem C63_write_iter_diverges (l : Layout) {d : Nat}
    (hd : ∀ w x w', S.next w = (.returns (some x), w') → x.depth ≤ d)
    (hn : ∀ w, ∃ x w', S.next w = (.returns (some x), w'))
    (hw : ∀ w x w' (u : WriterU S.bits S.Sink), S.next w = (.returns (some x), w') →
      ∃ o, (writeMachine u (viewArg x)).1 = some (.ok o))
    (s : S.Sink) (o : BitVec S.bits) (world : S.World) (n : Nat) (hn' : d + 6 ≤ n) :
    (exec (library l) [] n callWriteIter [("w", writer s o), ("it", .clientIter)] world).1 = .timeout := by
  obtain ⟨k, rfl⟩ : ∃ m, n = m + 1 := ⟨n - 1, by omega⟩
  have h4 := exec_writeNext_any l (fun _ => []) d hd ⟨s, o⟩ world (n := k) (by omega)
  rw [writeNext_endless _ hn (fun w x w' u h => by rw [writeArg_machine]; exact hw w x w' u h)] at h4
  obtain ⟨s, h4⟩ := h4
  rw [h4]

/-! ### Sizes -/

/-- `x.stdN_size()`: of a value without converting it, of a slice by writing it to `io::sink()`. -/
theorem C63_size (l : Layout) (x : Arg S.Conv S.Std) (world : S.World) :
    Runs (library l) (callSize l) [("x", .arg x)] world
      (wordRes (sizeMachine S (viewArg x))) [("x", .arg x)] world := by
  refine ⟨x.depth + 7, fun n hn => ?_⟩
  obtain ⟨m, rfl⟩ : ∃ m, n = m + x.depth + 7 := ⟨n - x.depth - 7, by omega⟩
  have h : sizeMachine S (viewArg x) = sizeArg x := by
    rw [sizeArg_eq]
    cases viewArg x with
    | std v => simp [sizeMachine, UVal.panicking, UVal.parts, UVal.plain, WVal.stdSizeU]
    | panics n => rfl
    | slice xs => rfl
  rw [h]
  cases l
  · rw [L140.library_eq]; exact L140.exec_size m x world
  · rw [L430.library_eq]; exact L430.exec_size m x world

/-- The provided `stdN_size`, which client types with their own `WriteStdN` inherit: the size of the slice with only this
element, that is, what is written for it at the beginning of a buffer. -/
theorem C63_provided_size (l : Layout) (x : Arg S.Conv S.Std) (world : S.World) :
    ∃ n₀, ∀ n, n₀ ≤ n →
      execProvided (library l) (match l with | .std140 => "WriteStd140" | .std430 => "WriteStd430")
          (match l with | .std140 => "std140_size" | .std430 => "std430_size") n (.arg x) world =
        (wordRes (sizeMachine S (.slice [viewArg x])), { env := [("self", .arg x)], world := world }) := by
  refine ⟨x.depth + 7, fun n hn => ?_⟩
  obtain ⟨m, rfl⟩ : ∃ m, n = m + x.depth + 7 := ⟨n - x.depth - 7, by omega⟩
  have h : sizeMachine S (.slice [viewArg x]) = sizeArg (.slice [x]) := by
    rw [sizeArg_eq]; rfl
  rw [h]
  cases l
  · rw [L140.library_eq]; exact L140.exec_provided m x world
  · rw [L430.library_eq]; exact L430.exec_provided m x world

/-- A value that implements `StdN` itself is its own `as_stdN()` and its own `from_stdN`. -/
theorem C63_blanket (l : Layout) (t : S.StdTy) (d : S.Std) (n : Nat) (world : S.World) :
    exec (library l) [] (n + 1) (callAs l) [("x", .arg (.std d))] world =
      (.val (.arg (.std d)), { env := [("x", .arg (.std d))], world := world }) ∧
    exec (library l) [("T", .std t)] (n + 1) (callFrom l) [("x", .arg (.std d))] world =
      (.val (.arg (.std d)), { env := [("x", .arg (.std d))], world := world }) := by
  cases l
  · rw [L140.library_eq]; exact ⟨L140.exec_asStd n d world, L140.exec_fromStd n t d world⟩
  · rw [L430.library_eq]; exact ⟨L430.exec_asStd n d world, L430.exec_fromStd n t d world⟩

/-- `T::stdN_size_static()` and `x.as_bytes()`. -/
theorem C63_size_static (l : Layout) (t : S.ConvTy) (n : Nat) (env : Env S) (world : S.World) :
    exec (library l) [("T", .conv t)] (n + 1) (callSizeStatic l) env world =
      (.val (.word (BitVec.ofNat _ (S.size (S.outTy t)))), { env := env, world := world }) := by
  cases l
  · rw [L140.library_eq]; exact L140.exec_sizeStatic n t env world
  · rw [L430.library_eq]; exact L430.exec_sizeStatic n t env world

/-- `x.as_bytes()`. -/
theorem C63_as_bytes (l : Layout) (x : S.Std) (world : S.World) :
    Runs (library l) (.method (.var "x") "as_bytes" []) [("x", .arg (.std x))] world (.val (.bytes (S.bytes x)))
      [("x", .arg (.std x))] world := by
  refine ⟨1, fun n hn => ?_⟩
  obtain ⟨m, rfl⟩ : ∃ m, n = m + 1 := ⟨n - 1, by omega⟩
  cases l
  · rw [L140.library_eq]; exact L140.exec_asBytes m x world
  · rw [L430.library_eq]; exact L430.exec_asBytes m x world

/-! ### Sizer -/

/-- `Sizer::new()` and `z.len()`. -/
theorem C63_sizer_new_len (l : Layout) (o : BitVec S.bits) (env : Env S) (world : S.World) :
    Runs (library l) (.call (.path (.path ["Sizer", "new"] [])) []) env world (.val (sizer 0)) env world ∧
    Runs (library l) (.method (.var "z") "len" []) [("z", sizer o)] world (.val (.word o)) [("z", sizer o)] world := by
  constructor <;> refine ⟨1, fun n hn => ?_⟩ <;> obtain ⟨m, rfl⟩ : ∃ m, n = m + 1 := ⟨n - 1, by omega⟩ <;> cases l
  · rw [L140.library_eq]; exact L140.exec_sizerNew m env world
  · rw [L430.library_eq]; exact L430.exec_sizerNew m env world
  · rw [L140.library_eq]; exact L140.exec_sizerLen m o world
  · rw [L430.library_eq]; exact L430.exec_sizerLen m o world

/-- `z.add::<T>()` for a type of the client, whose implementation has the size and alignment of `i`. -/
theorem C63_sizer_add (l : Layout) (t : S.ConvTy) (tg : Target) (i : Impl) (hs : i.out.size tg = S.size (S.outTy t))
    (ha : i.alignment = S.align (S.outTy t)) (o : BitVec S.bits) (n : Nat) (world : S.World) :
    match (SizerU.mk o).add (mode S) tg i with
    | some (r, z) => execMethod (library l) (n + 3) [.conv t] "z" "add" [("z", sizer o)] world =
        (.val (.word r), { env := [("z", sizer z.offset)], world := world })
    | none => ∃ o', execMethod (library l) (n + 3) [.conv t] "z" "add" [("z", sizer o)] world =
        (.panic, { env := [("z", sizer o')], world := world }) := by
  have h : execMethod (library l) (n + 3) [.conv t] "z" "add" [("z", sizer o)] world =
      (wordRes (sizerAdd (mode S) o (i.out.size tg) i.alignment).1,
        { env := [("z", sizer (sizerAdd (mode S) o (i.out.size tg) i.alignment).2)], world := world }) := by
    rw [hs, ha]
    cases l
    · rw [L140.library_eq]; exact L140.exec_sizerAdd n _ _ _ _ (L140.converts_conv t) o world
    · rw [L430.library_eq]; exact L430.exec_sizerAdd n _ _ _ _ (L430.converts_conv t) o world
  rw [sizerAdd_eq, h]
  rcases sizerAdd (mode S) o (i.out.size tg) i.alignment with ⟨_ | r, o'⟩
  · exact ⟨o', rfl⟩
  · rfl

/-- `z.add::<DynamicUniform<T>>()`. -/
theorem C63_sizer_add_dynamic (t : S.ConvTy) (h256 : 256 < 2 ^ S.bits) (hS : Sane S) (tg : Target) (i : Impl)
    (hs : i.out.size tg = S.size (S.outTy t)) (ha : i.alignment = max 256 (S.align (S.outTy t))) (o : BitVec S.bits)
    (n : Nat) (world : S.World) :
    match (SizerU.mk o).add (mode S) tg i with
    | some (r, z) => execMethod (library .std140) (n + 3) [.named "DynamicUniform" [.conv t]] "z" "add" [("z", sizer o)]
        world = (.val (.word r), { env := [("z", sizer z.offset)], world := world })
    | none => ∃ o', execMethod (library .std140) (n + 3) [.named "DynamicUniform" [.conv t]] "z" "add" [("z", sizer o)]
        world = (.panic, { env := [("z", sizer o')], world := world }) := by
  have h : execMethod (library .std140) (n + 3) [.named "DynamicUniform" [.conv t]] "z" "add" [("z", sizer o)] world =
      (wordRes (sizerAdd (mode S) o (i.out.size tg) i.alignment).1,
        { env := [("z", sizer (sizerAdd (mode S) o (i.out.size tg) i.alignment).2)], world := world }) := by
    rw [hs, ha, L140.library_eq]
    exact L140.exec_sizerAdd n _ _ _ _ (L140.converts_uniform_conv t h256 (hS _).1) o world
  rw [sizerAdd_eq, h]
  rcases sizerAdd (mode S) o (i.out.size tg) i.alignment with ⟨_ | r, o'⟩
  · exact ⟨o', rfl⟩
  · rfl

/-! ### DynamicUniform and write_slice, which only std140 has -/

theorem writeUniform_machine (u : WriterU S.bits S.Sink) (x : Arg S.Conv S.Std) (hx : ∀ xs, x ≠ .slice xs) :
    L140.writeUniform (callerSink S fun _ => []) u x = writeMachine u (viewDynamic x) := by
  match x with
  | .slice xs => exact absurd rfl (hx xs)
  | .std d =>
    simp only [L140.writeUniform, viewDynamic, writeMachine, UVal.written, UVal.panicking, UVal.parts, UVal.plain,
      List.any_cons, List.any_nil, Option.isNone_some, Bool.or_false, Bool.false_eq_true, if_false, WriterU.write]
    rcases u.writeStd (mode S) (callerSink S fun _ => []) (viewUniform d) with ⟨_ | e | o, u'⟩ <;> rfl
  | .conv c =>
    cases hc : S.convert c with
    | returns d =>
      simp only [L140.writeUniform, viewDynamic, hc, writeMachine, UVal.written, UVal.panicking, UVal.parts, UVal.plain,
        List.any_cons, List.any_nil, Option.isNone_some, Bool.or_false, Bool.false_eq_true, if_false, WriterU.write]
      rcases u.writeStd (mode S) (callerSink S fun _ => []) (viewUniform d) with ⟨_ | e | o, u'⟩ <;> rfl
    | panics =>
      simp [L140.writeUniform, viewDynamic, hc, writeMachine, UVal.written, UVal.panicking, UVal.parts, UVal.before,
        WriterU.write]

/-- `w.write(&DynamicUniform(x))`. -/
theorem C63_dynamic_uniform (h256 : 256 < 2 ^ S.bits) (hS : Sane S) (s : S.Sink) (o : BitVec S.bits)
    (x : Arg S.Conv S.Std) (hx : ∀ xs, x ≠ .slice xs) (world : S.World) :
    Runs (library .std140) callWrite [("w", writer s o), ("x", uniformVal x)] world
      (writeRes (writeMachine ⟨s, o⟩ (viewDynamic x)).1)
      [("w", writer (writeMachine ⟨s, o⟩ (viewDynamic x)).2.sink (writeMachine ⟨s, o⟩ (viewDynamic x)).2.offset),
        ("x", uniformVal x)] world := by
  refine ⟨6, fun n hn => ?_⟩
  obtain ⟨m, rfl⟩ : ∃ m, n = m + 5 + 1 := ⟨n - 6, by omega⟩
  rw [← writeUniform_machine _ _ hx, L140.library_eq]
  exact L140.exec_write (Kind.caller S fun _ => []) (uniformVal x) (fun _ => rfl) 5 m _
    (L140.writes_uniform h256 (fun t => (hS t).1) x hx) ⟨s, o⟩ world

/-- `DynamicUniform::<T>::from_std140(d)` restores the value inside. -/
theorem C63_dynamic_from (t : S.ConvTy) (d : S.Std) (n : Nat) (world : S.World) :
    exec (library .std140) [("U", .named "DynamicUniform" [.conv t])] (n + 2)
        (.call (.path (.path ["U", "from_std140"] [])) [.var "x"]) [("x", uniformStdVal d)] world =
      (match S.restore t d with
        | .returns c => .val (uniformVal (.conv c))
        | .panics => .panic, { env := [("x", uniformStdVal d)], world := world }) := by
  rw [L140.library_eq, exec]
  have hcall : ∀ (cx : Ctx S) (v : Val S), call cx (.path (.path ["U", "from_std140"] [])) [.var "x"] [v] =
      callAssoc cx (evalTy cx.prog cx.tys (cx.prog.depth + 1) (.path ["U"] [])) "from_std140" [.var "x"] [v] := by
    intro cx v; rfl
  have ht : evalTy L140.lib [("U", (.named "DynamicUniform" [.conv t] : RtTy S))] (L140.lib.depth + 1) (.path ["U"] []) =
      .named "DynamicUniform" [.conv t] := rfl
  have hnn : ¬ "x" = "None" := by decide
  simp only [eval, evalList, if_neg hnn, bind_apply, pure_apply, getVar_apply, List.lookup_cons, beq_self_eq_true, hcall, ht]
  exact L140.call_from_uniform t d _ n rfl rfl (.var "x") _

/-- `w.write_slice(&xs)`. -/
theorem C63_write_slice (s : S.Sink) (o : BitVec S.bits) (xs : List (Arg S.Conv S.Std)) (world : S.World) :
    Runs (library .std140) (.method (.var "w") "write_slice" [.ref false (.var "x")])
      [("w", writer s o), ("x", .arg (.slice xs))] world
      (writeRes (writeMachine ⟨s, o⟩ (.slice (viewArgs xs))).1)
      [("w", writer (writeMachine ⟨s, o⟩ (.slice (viewArgs xs))).2.sink
        (writeMachine ⟨s, o⟩ (.slice (viewArgs xs))).2.offset), ("x", .arg (.slice xs))] world := by
  have hv : UVal.slice (viewArgs xs) = viewArg (S := S) (.slice xs) := by rw [viewArg]
  rw [hv, ← writeArg_machine]
  refine ⟨(Arg.slice xs : Arg S.Conv S.Std).depth + 7, fun n hn => ?_⟩
  obtain ⟨m, rfl⟩ : ∃ m, n = m + ((Arg.slice xs : Arg S.Conv S.Std).depth + 5) + 2 :=
    ⟨n - (Arg.slice xs : Arg S.Conv S.Std).depth - 7, by omega⟩
  rw [L140.library_eq, exec]
  have h := L140.method_writeSlice (S := S) ⟨L140.lib, [], m + ((Arg.slice xs : Arg S.Conv S.Std).depth + 5) + 2, _⟩ rfl
    ((Arg.slice xs : Arg S.Conv S.Std).depth + 5) m rfl (Kind.caller S fun _ => []) ⟨s, o⟩ (.arg (.slice xs))
    (fun _ => rfl) _ (L140.writes_arg _ (.slice xs) (Nat.le_refl _)) (.var "w") (.ref false (.var "x"))
    { env := [("w", writer s o), ("x", .arg (.slice xs))], world := world }
  have hnn : ¬ "x" = "None" := by decide
  have hnw : ¬ "w" = "None" := by decide
  have hbeq : ("x" == "w") = false := by decide
  simp only [eval, evalList, if_neg hnn, if_neg hnw, bind_apply, pure_apply, getVar_apply, List.lookup_cons,
    beq_self_eq_true, hbeq]
  refine h.trans ?_
  simp [rust, L140.finish_apply]
  exact ⟨rfl, rfl⟩

/-! ### The functions of `src/internal.rs` -/

/-- `align_offset(a, b)`, `max(a, b)` and `max_arr(xs)`. -/
theorem C63_internal (l : Layout) (a b : BitVec S.bits) (xs : List (BitVec S.bits)) (world : S.World) :
    Runs (library l) (.call (.var "align_offset") [.var "a", .var "b"]) [("a", .word a), ("b", .word b)] world
      (wordRes (alignOffsetU (mode S) a b)) [("a", .word a), ("b", .word b)] world ∧
    Runs (library l) (.call (.var "max") [.var "a", .var "b"]) [("a", .word a), ("b", .word b)] world
      (.val (.word (constMaxU a b))) [("a", .word a), ("b", .word b)] world ∧
    Runs (library l) (.call (.var "max_arr") [.var "a"]) [("a", .seq (xs.map .word))] world
      (wordRes (maxArrU (mode S) xs)) [("a", .seq (xs.map .word))] world := by
  have hna : ¬ "a" = "None" := by decide
  have hnb : ¬ "b" = "None" := by decide
  have hbeq : ("b" == "a") = false := by decide
  have h1 : findFn (library l).items "align_offset" = some Parsed.internal1_align_offset := by
    cases l
    · rw [L140.library_eq]; rfl
    · rw [L430.library_eq]; rfl
  have h2 : findFn (library l).items "max" = some Parsed.internal2_max := by
    cases l
    · rw [L140.library_eq]; rfl
    · rw [L430.library_eq]; rfl
  have h3 : findFn (library l).items "max_arr" = some Parsed.internal3_max_arr := by
    cases l
    · rw [L140.library_eq]; rfl
    · rw [L430.library_eq]; rfl
  refine ⟨⟨1, fun n hn => ?_⟩, ⟨1, fun n hn => ?_⟩, ⟨xs.length + 2, fun n hn => ?_⟩⟩ <;>
    obtain ⟨m, rfl⟩ : ∃ m, n = m + 1 := ⟨n - 1, by omega⟩
  · rw [exec]
    simp [eval, evalList, hna, hnb, bind_apply, pure_apply, getVar_apply, List.lookup_cons, hbeq, call, h1]
    exact call_alignOffset _ (library l) m rfl _ _ a b _
  · rw [exec]
    simp [eval, evalList, hna, hnb, bind_apply, pure_apply, getVar_apply, List.lookup_cons, hbeq, call, h2]
    exact call_max _ (library l) m rfl _ _ a b _
  · rw [exec]
    simp [eval, evalList, hna, hnb, bind_apply, pure_apply, getVar_apply, List.lookup_cons, call, h3]
    exact call_maxArr _ (library l) m rfl _ xs (by omega) _

/-! ### `src/bool.rs` and `src/glsl.rs` -/

/-- `Bool::from(b)` is 1 or 0; `bool::from(v)` is whether the number is not 0; so the round trip is the identity. -/
theorem C63_bool (b : Bool) (x : BitVec 32) (world : S.World) :
    Runs boolProgram (.call (.path (.path ["Bool", "from"] [])) [.var "b"]) [("b", .bool b)] world
      (.val (.struct "Bool" [("0", .u32 (if b then 1 else 0))])) [("b", .bool b)] world ∧
    Runs boolProgram (.call (.path (.path ["bool", "from"] [])) [.var "v"])
      [("v", .struct "Bool" [("0", .u32 x)])] world (.val (.bool (x != 0)))
      [("v", .struct "Bool" [("0", .u32 x)])] world := by
  constructor <;> refine ⟨1, fun n hn => ?_⟩ <;> obtain ⟨m, rfl⟩ : ∃ m, n = m + 1 := ⟨n - 1, by omega⟩
  · exact call_boolFrom m b _ world rfl
  · exact call_boolInto m x _ world rfl

/-- `X::glsl_definition()`, where the implementations that the derive writes are put beside `src/glsl.rs`. -/
theorem C63_glsl_definition (table : List (String × String)) (x : String) (fields : List (String × String))
    {name : String} (hname : (glslNames table).lookup x = some name) {ns : List String}
    (hself : ∀ f ∈ fields, f.2 ≠ "Self")
    (hns : fields.mapM (fun f => (glslNames table).lookup f.2) = some ns) (env : Env S) (world : S.World) :
    Runs (glslProgram table x fields) (.call (.path (.path [x, "glsl_definition"] [])) []) env world
      (.val (.str (glslDefinition name ((ns.zip (fields.map (·.1))).map fun p => ⟨p.1, p.2⟩)))) env world := by
  refine ⟨3, fun n hn => ?_⟩
  obtain ⟨m, rfl⟩ : ∃ m, n = m + 3 := ⟨n - 3, by omega⟩
  exact call_definition table x fields m name hname ns hself hns env world

/-! ### End to end -/

theorem history_results_length {σ ε : Type} (k : Crevice.Sink σ ε) (w : Writer σ) (vs : List WVal) :
    (w.history k vs).1.length = vs.length := by
  induction vs generalizing w with
  | nil => rfl
  | cons v r ih => rw [history_cons]; simp [ih]

theorem historyU_plain {σ ε : Type} (k : PSink σ ε) (xs : List StdVal) (w : Writer σ) {os : List Nat} {w' : Writer σ}
    (h : w.history k.asSink (xs.map .std) = (os.map .ok, w')) :
    w.historyU k (xs.map .std) = (os.map fun o => .returned (.ok o), w') := by
  have hm : (xs.map UVal.std).map UVal.written = xs.map .std := by
    rw [List.map_map]; rfl
  have hl : os.length = xs.length := by
    have := history_results_length k.asSink w (xs.map .std)
    rw [h] at this; simpa using this
  rw [C59_history, hm, h]
  refine Prod.ext ?_ rfl
  apply List.ext_getElem
  · simp [hl]
  · intro i h1 h2
    simp [UVal.ends, UVal.panicking, UVal.parts]

theorem views_items {tg : Target} {env : ForeignEnv} {l : Layout} (bits : Nat) (checked : Bool) (xs : List (FitItem tg env l bits)) :
    List.map (viewArg (S := itemSetting tg env l bits checked)) (List.map Arg.conv xs) =
      ((xs.map Subtype.val).map Item.std).map UVal.std := by
  induction xs with
  | nil => rfl
  | cons x xs ih =>
    exact (congrArg (List.cons _) ih :)

/-- From the program text to the shader: a client creates a Writer and writes values of convertible types with the
program text of the library. If their total size fits into `usize`, every call returns `Ok(offset)`, and each
value can be read back from the resulting bytes at its offset, by Rust and by a shader. -/
theorem C63_end_to_end {tg : Target} (htg : tg.Valid) {env : ForeignEnv} (henv : env.Lawful tg) {l : Layout} (bits : Nat)
    (checked : Bool) (xs : List (FitItem tg env l bits))
    (hfit : (Sizer.new.addAll tg (xs.map fun x => x.1.impl)).2.len < 2 ^ bits) :
    ∃ (os : List Nat) (buf : List Byte) (n₀ : Nat), os.length = xs.length ∧ buf.length < 2 ^ bits ∧
      (∀ n, n₀ ≤ n → session (S := itemSetting tg env l bits checked) (library l) n () (writer [] 0) (xs.map fun x => .arg (.conv x)) =
        (os.map fun o => .val (.enum "Ok" [.word (BitVec.ofNat bits o)]), writer buf (BitVec.ofNat bits buf.length))) ∧
      ∀ m (hm : m < xs.length) (hm' : m < os.length),
        readAt tg xs[m].1.impl buf os[m] = some xs[m].1.val ∧
        ∀ g, xs[m].1.ty.glsl = some g → ∃ d, xs[m].1.ty.denote env xs[m].1.val = some d ∧
          Glsl.read tg.endian l g buf os[m] = some d := by
  have hS : Sane (itemSetting tg env l bits checked) := fun t => t.2
  let k : PSink (List Byte) Unit := vecPSink Unit
  have hkk : callerPSink (itemSetting tg env l bits checked) id = k := rfl
  have hk : k.asSink.Lawful := vecPSink_lawful
  have hk' : k.asSink.Infallible := vecPSink_infallible
  obtain ⟨w', h1, h2⟩ := history_infallible hk' (Writer.new ([] : List Byte))
    (items_wf htg henv (xs.map Subtype.val))
  generalize hos : returned (Writer.new ([] : List Byte)).offset ((xs.map Subtype.val).map Item.arg) = os at h1
  obtain ⟨buf, h3, h4, h5, h6⟩ := C41_read_back htg henv (xs.map Subtype.val) hk h1
  have h7 := C19_sizer_predicts_writer htg henv (xs.map Subtype.val) hk h1
  have hlen : w'.offset < 2 ^ bits := by
    have : (Sizer.new.addAll tg ((xs.map Subtype.val).map Item.impl)).2.len = w'.len := by rw [h7]; rfl
    rw [List.map_map] at this
    rw [Writer.len] at this
    rw [← this]; exact hfit
  have hview : ((xs.map fun x => (.conv x : Arg (itemSetting tg env l bits checked).Conv (itemSetting tg env l bits checked).Std)).map viewArg) =
      ((xs.map Subtype.val).map Item.std).map UVal.std := by
    exact views_items bits checked xs
  have harg : (xs.map Subtype.val).map Item.arg = ((xs.map Subtype.val).map Item.std).map .std := by
    simp only [List.map_map]
    apply List.map_congr_left
    intro x _
    exact x.1.arg_std
  rw [harg] at h1
  have hU := historyU_plain k _ _ h1
  obtain ⟨n₀, hn⟩ := C63_session (S := itemSetting tg env l bits checked) l hS id (xs.map .conv) (Writer.new ([] : List Byte)) ()
    (by rw [hview, hkk]; erw [hU]; exact hlen)
  rw [hview, hkk] at hn
  refine ⟨os, buf, n₀, by simpa using h5, by rw [h4]; exact hlen, fun n hle => ?_, fun m hm hm' => ?_⟩
  · have := hn n hle
    erw [hU] at this
    have hb : w'.sink = buf := h3
    have hl : w'.offset = buf.length := h4.symm
    rw [hb, hl] at this
    have e1 : (xs.map fun x => (.arg (.conv x) : Val (itemSetting tg env l bits checked))) =
        List.map Val.arg (List.map Arg.conv xs) := (List.map_map ..).symm
    have e2 : (os.map fun o => (.val (.enum "Ok" [.word (BitVec.ofNat bits o)]) :
          Res (itemSetting tg env l bits checked) (Val (itemSetting tg env l bits checked)))) =
        List.map outcomeRes (os.map fun o => .returned (.ok o)) := by
      rw [List.map_map]; rfl
    refine Eq.trans ?_ (this.trans ?_)
    · exact congrArg _ e1
    · exact congrArg (·, _) e2.symm
  · have := h6 m (by simpa using hm) hm'
    simpa using this

end Crevice
