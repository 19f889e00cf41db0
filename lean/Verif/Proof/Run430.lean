import Verif.Proof.RunSink
import Verif.Source.Parsed430
import Verif.Model.Text
import Verif.Proof.KernelRfl
/-
The functions of `src/std430`, executed. Written by `tools/gen_run430.py` from `Proof/Run430.lean`.
-/
namespace RustCode.L430
open Crevice

/-- The library with its items in parsed form. -/
def lib : Program :=
  { items := Parsed.internal ++ Parsed.std430Sizer ++ Parsed.std430Writer ++ Parsed.std430Traits
    convTraits := ["AsStd430"]
    stdTraits := ["Std430"]
    convertName := "as_std430"
    restoreName := "from_std430" }

theorem library_std (f : Features) (hf : f.std = true) : libraryWith f .std430 = lib := by
  obtain ⟨s, c, g, n⟩ := f
  cases hf
  kernel_rfl

theorem library_eq : library .std430 = lib := library_std _ rfl

/-! ### Which function a call means -/

section Find
variable {S : Setting}

@[rust] theorem find_write_std (t : S.StdTy) : findMethod lib (.std t) "write_std430" =
    some (Parsed.std430Traits8_write_std430, [("T", .std t)]) := by rfl
@[rust] theorem find_write_conv (t : S.ConvTy) : findMethod lib (.conv t) "write_std430" =
    some (Parsed.std430Traits8_write_std430, [("T", .conv t)]) := by rfl
@[rust] theorem find_write_slice : findMethod (S := S) lib .slice "write_std430" =
    some (Parsed.std430Traits9_write_std430, []) := by rfl
@[rust] theorem find_size_std (t : S.StdTy) : findMethod lib (.std t) "std430_size" =
    some (Parsed.std430Traits8_std430_size, [("T", .std t)]) := by rfl
@[rust] theorem find_size_conv (t : S.ConvTy) : findMethod lib (.conv t) "std430_size" =
    some (Parsed.std430Traits8_std430_size, [("T", .conv t)]) := by rfl
@[rust] theorem find_size_slice : findMethod (S := S) lib .slice "std430_size" =
    some (Parsed.std430Traits9_std430_size, []) := by rfl
@[rust] theorem find_as_std (t : S.StdTy) : findMethod lib (.std t) "as_std430" =
    some (Parsed.std430Traits6_as_std430, [("T", .std t)]) := by rfl
@[rust] theorem find_as_conv (t : S.ConvTy) : findMethod lib (.conv t) "as_std430" = none := by rfl
@[rust] theorem find_Writer_writeStd (t : RtTy S) : findMethod lib (.named "Writer" [t]) "write_std430" =
    some (Parsed.std430Writer6_write_std430, [("W", t)]) := by rfl
@[rust] theorem find_Writer_write (t : RtTy S) : findMethod lib (.named "Writer" [t]) "write" =
    some (Parsed.std430Writer6_write, [("W", t)]) := by rfl
@[rust] theorem find_Writer_writeIter (t : RtTy S) : findMethod lib (.named "Writer" [t]) "write_iter" =
    some (Parsed.std430Writer6_write_iter, [("W", t)]) := by rfl
@[rust] theorem find_Writer_len (t : RtTy S) : findMethod lib (.named "Writer" [t]) "len" =
    some (Parsed.std430Writer6_len, [("W", t)]) := by rfl
@[rust] theorem find_write_all : findMethod (S := S) lib .other "write_all" = none := by rfl
@[rust] theorem find_iter : findMethod (S := S) lib .other "iter" = none := by rfl
@[rust] theorem find_iter_slice : findMethod (S := S) lib .slice "iter" = none := by rfl
@[rust] theorem find_into_iter : findMethod (S := S) lib .other "into_iter" = none := by rfl
@[rust] theorem find_next : findMethod (S := S) lib .other "next" = none := by rfl
@[rust] theorem find_unwrap : findMethod (S := S) lib .other "unwrap" = none := by rfl
@[rust] theorem find_alignOffset : findFn lib.items "align_offset" = some Parsed.internal1_align_offset := by rfl
@[rust] theorem find_max : findFn lib.items "max" = some Parsed.internal2_max := by rfl

@[rust] theorem typeOf_writer (K : Kind S) (u : WriterU S.bits K.σ) :
    typeOf lib.items (writerVal K u) = .named "Writer" [.other] := by
  have h : typesOf lib.items [("writer", K.inj u.sink), ("offset", Val.word u.offset)] =
      [("writer", .other), ("offset", .other)] := by
    simp [typesOf, K.ty, typeOf]
  rw [writerVal, typeOf, h]
  rfl

end Find

/-! ### `Writer::write_std430` -/

/-- The body of the loop that writes padding. -/
def zeroBody : Expr :=
  .block [.expr (.attempt (.method (.field (.var "self") "writer") "write_all" [.ref false (.array [.num 0 ""])]))]
    .unit

/-- One iteration. -/
theorem zero_step {S : Setting} (cx : Ctx S) (hp : cx.prog = lib) (K : Kind S) (p : BitVec S.bits)
    (u : WriterU S.bits K.σ) (post : Env S) (world : S.World) :
    eval cx zeroBody { env := ("padding", .word p) :: ("self", writerVal K u) :: post, world := world } =
      match K.k.writeAll u.sink [0] with
      | (.ok (), x) => (.val .unit, { env := ("padding", .word p) :: ("self", writerVal K { u with sink := x }) :: post, world := world })
      | (.error (some r), x) => (.ret (.enum "Err" [.err r]), { env := ("padding", .word p) :: ("self", writerVal K { u with sink := x }) :: post, world := world })
      | (.error none, x) => (.panic, { env := ("padding", .word p) :: ("self", writerVal K { u with sink := x }) :: post, world := world }) := by
  have hb : toBytes (S := S) (.seq [.lit 0]) = some [0#8] := rfl
  rcases hw : K.k.writeAll u.sink [0#8] with ⟨(e | ⟨⟩), x⟩
  · cases e <;> simp [rust, zeroBody, callMethod, hp, writerVal, K.ty, K.write _ _ _ _ _ _ hb, hw, attemptVal, setField]
  · simp [rust, zeroBody, callMethod, hp, writerVal, K.ty, K.write _ _ _ _ _ _ hb, hw, attemptVal, setField]

/-- The loop. -/
theorem zero_loop {S : Setting} (cx : Ctx S) (hp : cx.prog = lib) (K : Kind S) (p : BitVec S.bits) (post : Env S)
    (world : S.World) (n : Nat) : ∀ (a : BitVec S.bits) (u : WriterU S.bits K.σ),
    forRange (fun v => ifMatches .wild v (eval cx zeroBody) M.stuck) n a
      { env := ("padding", .word p) :: ("self", writerVal K u) :: post, world := world } =
    (match (writeZeros K.k n u.sink).1 with
      | .ok () => .val .unit
      | .error (some r) => .ret (.enum "Err" [.err r])
      | .error none => .panic,
      { env := ("padding", .word p) :: ("self", writerVal K { u with sink := (writeZeros K.k n u.sink).2 }) :: post
        world := world }) := by
  induction n with
  | zero => intro a u; rfl
  | succ n ih =>
    intro a u
    rcases hw : K.k.writeAll u.sink [0#8] with ⟨(e | ⟨⟩), x⟩
    · cases e <;>
        simp [forRange, ifMatches_wild, bind_apply, inScope_apply, declareAll_apply, zero_step cx hp, hw, writeZeros]
    · simp [forRange, ifMatches_wild, bind_apply, inScope_apply, declareAll_apply, zero_step cx hp, hw, writeZeros]
      simp [ifMatches_wild] at ih
      rw [ih]

/-- A value of a type that implements `Std430`, and what the Writer sees of it. -/
structure IsStd {S : Setting} (v : Val S) (t : RtTy S) (x : StdVal) : Prop where
  ty : typeOf lib.items v = t
  find : findMethod lib t "as_std430" = some (Parsed.std430Traits6_as_std430, [("T", t)])
  size : sizeOfTy lib.items t = some x.size
  align : ∀ cx n s, cx.prog = lib → cx.run = runFn lib (n + 2) →
    constOf cx t "ALIGNMENT" s = (.val (.word (BitVec.ofNat S.bits x.alignment)), s)
  bytes : bytesOfVal lib.items v = some x.bytes
  coerce : ∀ ty, v.coerce ty = v

/-- `as_std430` of such a value. -/
theorem call_as_std {S : Setting} (cx : Ctx S) (n : Nat) (h : cx.run = runFn lib (n + 1)) (tys : Tys S) (e : Expr)
    (v : Val S) (hv : ∀ ty, v.coerce ty = v) (s : State S) :
    callFn cx Parsed.std430Traits6_as_std430 tys (some (e, v)) [] [] s = (.val v, s) := by
  obtain ⟨env, world⟩ := s
  unfold callFn
  rw [h]
  simp [rust, runFn, Parsed.std430Traits6_as_std430, hv]

/-- The statements of `write_std430`. -/
def stPadding : Stmt := .bind false "padding" .unit
  (.call (.var "align_offset") [.field (.var "self") "offset", .path (.path ["T", "ALIGNMENT"] [])])
def stZeros : Stmt := .expr (.each .wild (.range (.num 0 "") (.var "padding")) zeroBody)
def stAdvance : Stmt := .expr (.addAssign (.field (.var "self") "offset") (.var "padding"))
def stConvert : Stmt := .bind false "value" .unit (.method (.var "value") "as_std430" [])
def stWrite : Stmt := .expr (.attempt (.method (.field (.var "self") "writer") "write_all"
  [.call (.var "bytes_of") [.ref false (.var "value")]]))
def stHere : Stmt := .bind false "write_here" .unit (.field (.var "self") "offset")
def stSize : Stmt := .expr (.addAssign (.field (.var "self") "offset")
  (.call (.path (.path ["size_of"] [.path ["T"] []])) []))

theorem writeStd_body : Parsed.std430Writer6_write_std430.body =
    some (.block [stPadding, stZeros, stAdvance, stConvert, stWrite, stHere, stSize]
      (.call (.var "Ok") [.var "write_here"])) := rfl

section WriteStd
variable {S : Setting} (cx : Ctx S) (hp : cx.prog = lib) (n : Nat) (hrun : cx.run = runFn lib (n + 3)) (t : RtTy S)
  (htys : cx.tys = [("Self", .named "Writer" [.other]), ("W", .other), ("T", t)]) (K : Kind S)
  (u : WriterU S.bits K.σ) (v : Val S) (x : StdVal) (hv : IsStd v t x) (world : S.World) (post : Env S)
include hp hrun htys hv

theorem do_padding :
    evalStmt cx stPadding { env := ("self", writerVal K u) :: post, world := world } =
      match alignOffsetU (mode S) u.offset (BitVec.ofNat S.bits x.alignment) with
      | some p => (.val (), { env := ("padding", .word p) :: ("self", writerVal K u) :: post, world := world })
      | none => (.panic, { env := ("self", writerVal K u) :: post, world := world }) := by
  have hT : pathVal cx (.path ["T", "ALIGNMENT"] []) = constOf cx t "ALIGNMENT" := by
    rw [pathVal, hp, htys]; rfl
  cases ha : alignOffsetU (mode S) u.offset (BitVec.ofNat S.bits x.alignment) <;>
    simp [stPadding, rust, writerVal, hT, hv.align cx (n + 1) _ hp hrun, call, hp,
      call_alignOffset cx lib (n + 2) hrun, ha]

omit hrun htys hv in
theorem do_zeros (p : BitVec S.bits) :
    evalStmt cx stZeros { env := ("padding", .word p) :: ("self", writerVal K u) :: post, world := world } =
      (match (writeZeros K.k p.toNat u.sink).1 with
        | .ok () => .val ()
        | .error (some r) => .ret (.enum "Err" [.err r])
        | .error none => .panic,
        { env := ("padding", .word p) ::
            ("self", writerVal K { u with sink := (writeZeros K.k p.toNat u.sink).2 }) :: post
          world := world }) := by
  have hz := zero_loop cx hp K p post world p.toNat 0 u
  rcases hzs : writeZeros K.k p.toNat u.sink with ⟨(err | ⟨⟩), k1⟩
  · cases err <;> rw [hzs] at hz <;>
      simp [stZeros, evalStmt, eval, bind_apply, pure_apply, getVar_apply, List.lookup, rangeVal, forLoop] <;>
      simp at hz <;> simp [hz]
  · rw [hzs] at hz
    simp [stZeros, evalStmt, eval, bind_apply, pure_apply, getVar_apply, List.lookup, rangeVal, forLoop]
    simp at hz
    simp [hz]

omit hrun htys hv in
theorem do_advance (p : BitVec S.bits) :
    evalStmt cx stAdvance { env := ("padding", .word p) :: ("self", writerVal K u) :: post, world := world } =
      match uadd (mode S) u.offset p with
      | some o => (.val (), { env := ("padding", .word p) :: ("self", writerVal K { u with offset := o }) :: post, world := world })
      | none => (.panic, { env := ("padding", .word p) :: ("self", writerVal K u) :: post, world := world }) := by
  cases ha : uadd (mode S) u.offset p <;> simp [stAdvance, rust, writerVal, setField, ha]

omit htys in
theorem do_convert (p : BitVec S.bits) :
    evalStmt cx stConvert { env := [("padding", .word p), ("self", writerVal K u), ("value", v)], world := world } =
      (.val (), { env := [("value", v), ("padding", .word p), ("self", writerVal K u), ("value", v)], world := world }) := by
  simp [stConvert, rust, callMethod, hp, hv.ty, hv.find, call_as_std cx (n + 2) hrun _ _ v hv.coerce, hv.coerce]

omit hrun htys in
theorem do_write (p : BitVec S.bits) :
    evalStmt cx stWrite { env := ("value", v) :: ("padding", .word p) :: ("self", writerVal K u) :: post, world := world } =
      (match (K.k.writeAll u.sink x.bytes).1 with
        | .ok () => .val ()
        | .error (some r) => .ret (.enum "Err" [.err r])
        | .error none => .panic,
        { env := ("value", v) :: ("padding", .word p) ::
            ("self", writerVal K { u with sink := (K.k.writeAll u.sink x.bytes).2 }) :: post
          world := world }) := by
  have hb : toBytes (S := S) (.bytes x.bytes) = some x.bytes := rfl
  rcases hw : K.k.writeAll u.sink x.bytes with ⟨(e | ⟨⟩), k⟩
  · cases e <;>
      simp [rust, stWrite, callMethod, hp, writerVal, K.ty, call, hv.bytes, K.write _ _ _ _ _ _ hb, hw, attemptVal, setField]
  · simp [rust, stWrite, callMethod, hp, writerVal, K.ty, call, hv.bytes, K.write _ _ _ _ _ _ hb, hw, attemptVal, setField]

omit hrun htys hv hp in
theorem do_here (p : BitVec S.bits) :
    evalStmt cx stHere { env := ("value", v) :: ("padding", .word p) :: ("self", writerVal K u) :: post, world := world } =
      (.val (), { env := ("write_here", .word u.offset) :: ("value", v) :: ("padding", .word p) ::
        ("self", writerVal K u) :: post, world := world }) := by
  simp [stHere, rust, writerVal]

omit hrun in
theorem do_size (p h : BitVec S.bits) :
    evalStmt cx stSize { env := ("write_here", .word h) :: ("value", v) :: ("padding", .word p) ::
        ("self", writerVal K u) :: post, world := world } =
      match uadd (mode S) u.offset (BitVec.ofNat S.bits x.size) with
      | some o => (.val (), { env := ("write_here", .word h) :: ("value", v) :: ("padding", .word p) ::
          ("self", writerVal K { u with offset := o }) :: post, world := world })
      | none => (.panic, { env := ("write_here", .word h) :: ("value", v) :: ("padding", .word p) ::
          ("self", writerVal K u) :: post, world := world }) := by
  have hT : ∀ d, evalTy lib cx.tys (d + 1) (.path ["T"] []) = t := by
    intro d; rw [htys]; rfl
  cases ha : uadd (mode S) u.offset (BitVec.ofNat S.bits x.size) <;>
    simp [stSize, rust, writerVal, setField, call, hp, hT, hv.size, ha]

end WriteStd

/-- The body of `write_std430`. -/
theorem run_writeStd {S : Setting} (n : Nat) (K : Kind S) (u : WriterU S.bits K.σ) (v : Val S) (t : RtTy S)
    (x : StdVal) (hv : IsStd v t x) (world : S.World) :
    ∃ r, Ending (u.writeStd (mode S) K.k x).1 r ∧
      runFn lib (n + 4) Parsed.std430Writer6_write_std430
        [("Self", .named "Writer" [.other]), ("W", .other), ("T", t)]
        { env := [("self", writerVal K u), ("value", v)], world := world } =
      (r, { env := [("self", writerVal K (u.writeStd (mode S) K.k x).2), ("value", v)], world := world }) := by
  rw [runFn, writeStd_body]
  generalize hcx : (Ctx.mk lib [("Self", .named "Writer" [.other]), ("W", .other), ("T", t)] (n + 3)
    (runFn lib (n + 3)) : Ctx S) = cx
  have hp : cx.prog = lib := by rw [← hcx]
  have hrun : cx.run = runFn lib (n + 3) := by rw [← hcx]
  have htys : cx.tys = [("Self", .named "Writer" [.other]), ("W", .other), ("T", t)] := by rw [← hcx]
  simp only [eval, evalStmts, inScope_apply, bind_apply, do_padding cx hp n hrun t htys K u v x hv]
  unfold WriterU.writeStd
  cases ha : alignOffsetU (mode S) u.offset (BitVec.ofNat S.bits x.alignment) with
  | none => exact ⟨_, .panic, rfl⟩
  | some p =>
    simp only [do_zeros cx hp K u world]
    rcases hzs : writeZeros K.k p.toNat u.sink with ⟨(err | ⟨⟩), k1⟩
    · cases err with
      | none => exact ⟨_, .sinkPanic, rfl⟩
      | some err => exact ⟨_, .errRet err, rfl⟩
    · simp only [do_advance cx hp K _ world]
      cases hadd : uadd (mode S) u.offset p with
      | none => exact ⟨_, .panic, rfl⟩
      | some o =>
        simp only [do_convert cx hp n hrun t K _ v x hv, do_write cx hp t K _ v x hv]
        rcases hw : K.k.writeAll k1 x.bytes with ⟨(err | ⟨⟩), k2⟩
        · cases err with
          | none => exact ⟨_, .sinkPanic, rfl⟩
          | some err => exact ⟨_, .errRet err, rfl⟩
        · simp only [do_here cx K, do_size cx hp t htys K _ v x hv]
          cases hadd2 : uadd (mode S) o (BitVec.ofNat S.bits x.size) with
          | none => exact ⟨_, .panic, rfl⟩
          | some o2 => exact ⟨_, .ok _, rfl⟩

/-- `Writer::write_std430`. -/
theorem call_writeStd {S : Setting} (cx : Ctx S) (hp : cx.prog = lib) (n : Nat) (h : cx.run = runFn lib (n + 4))
    (K : Kind S) (u : WriterU S.bits K.σ) (v : Val S) (t : RtTy S) (x : StdVal) (hv : IsStd v t x) (e a : Expr)
    (s : State S) :
    callFn cx Parsed.std430Writer6_write_std430 [("Self", .named "Writer" [.other]), ("W", .other)]
        (some (e, writerVal K u)) [a] [v] s =
      ((setPlace e (writerVal K (u.writeStd (mode S) K.k x).2)).bind fun _ =>
        finish (u.writeStd (mode S) K.k x).1) s := by
  obtain ⟨r, hr, hrun⟩ := run_writeStd n K u v t x hv s.world
  have htys : (Parsed.std430Writer6_write_std430.generics.types.filterMap fun x =>
      (typeArg cx.prog.items x Parsed.std430Writer6_write_std430.params [v]).map fun t => (x, t)) = [("T", t)] := by
    simp [Parsed.std430Writer6_write_std430, typeArg, Ty.isParam, hp, hv.ty]
  have henv : params Parsed.std430Writer6_write_std430.params [v] = [("value", v)] := by
    simp [Parsed.std430Writer6_write_std430, params, hv.coerce]
  refine callFn_self (rest := [("value", v)]) rfl rfl rfl ?_ hr
  rw [h, htys, henv]
  exact hrun

/-- The same as a method call. -/
theorem method_writeStd {S : Setting} (cx : Ctx S) (hp : cx.prog = lib) (n : Nat) (h : cx.run = runFn lib (n + 4))
    (K : Kind S) (u : WriterU S.bits K.σ) (v : Val S) (t : RtTy S) (x : StdVal) (hv : IsStd v t x) (e a : Expr)
    (s : State S) :
    callMethod cx e (writerVal K u) "write_std430" [a] [v] s =
      ((setPlace e (writerVal K (u.writeStd (mode S) K.k x).2)).bind fun _ =>
        finish (u.writeStd (mode S) K.k x).1) s := by
  simp only [callMethod, hp, typeOf_writer, find_Writer_writeStd]
  exact call_writeStd cx hp n h K u v t x hv e a s

/-! ### `WriteStd430::write_std430` -/

/-- `f` describes what `v.write_std430(&mut writer)` does, when functions run with a bound of at least `n`. -/
def Writes {S : Setting} (n : Nat) (v : Val S)
    (f : ∀ K : Kind S, WriterU S.bits K.σ →
      Option (Except (Option S.Err) (BitVec S.bits)) × WriterU S.bits K.σ) : Prop :=
  ∀ (cx : Ctx S) (m : Nat), cx.prog = lib → cx.run = runFn lib (m + n) → ∀ (K : Kind S) (u : WriterU S.bits K.σ)
    (e a : Expr) (s : State S),
    callMethod cx e v "write_std430" [a] [writerVal K u] s =
      ((setPlace a (writerVal K (f K u).2)).bind fun _ => finish (f K u).1) s

/-- `finish` ends as a function does. -/
theorem finish_ending {S : Setting} (o : Option (Except (Option S.Err) (BitVec S.bits))) (s : State S) :
    ∃ r, Ending o r ∧ finish o s = (r, s) := by
  match o with
  | some (.ok o) => exact ⟨_, .ok o, rfl⟩
  | some (.error (some e)) => exact ⟨_, .err e, rfl⟩
  | some (.error none) => exact ⟨_, .sinkPanic, rfl⟩
  | none => exact ⟨_, .panic, rfl⟩

theorem write_noTys {S : Setting} (cx : Ctx S) (w : Val S) :
    (Parsed.std430Traits8_write_std430.generics.types.filterMap fun x =>
      (typeArg cx.prog.items x Parsed.std430Traits8_write_std430.params [w]).map fun t => (x, t)) = [] := by
  simp [Parsed.std430Traits8_write_std430, typeArg, Ty.isParam]

/-- A value whose conversion returns. -/
theorem writes_value {S : Setting} (v v' : Val S) (tys : Tys S) (t' : RtTy S) (x : StdVal)
    (hfind : findMethod lib (typeOf lib.items v) "write_std430" = some (Parsed.std430Traits8_write_std430, tys))
    (has : ∀ (cx : Ctx S) (m : Nat), cx.prog = lib → cx.run = runFn lib (m + 2) → ∀ e s,
      callMethod cx e v "as_std430" [] [] s = (.val v', s))
    (hv : IsStd v' t' x) : Writes 5 v (fun K u => u.writeStd (mode S) K.k x) := by
  intro cx m hp hrun K u e a s
  obtain ⟨r, hr, hfin⟩ := finish_ending (u.writeStd (mode S) K.k x).1
    { env := [("self", v), ("writer", writerVal K (u.writeStd (mode S) K.k x).2)], world := s.world }
  simp only [callMethod, hp, hfind]
  refine callFn_param (self := v) (rest := []) (x := "writer") rfl (by decide) rfl rfl (write_noTys _ _) rfl ?_ hr
  rw [hrun]
  obtain ⟨cx', hp', htys', -, hrun', heq⟩ := runFn_body (S := S) (p := lib) (n := m + 4)
    (f := Parsed.std430Traits8_write_std430) (tys := ("Self", typeOf lib.items v) :: tys)
    (s := { env := [("self", v), ("writer", writerVal K u)], world := s.world }) rfl
  rw [heq]
  simp [rust, has cx' (m + 2) hp' hrun', method_writeStd cx' hp' m hrun' K u v' t' x hv, hfin]

/-- A value whose conversion panics. -/
theorem writes_panic {S : Setting} (v : Val S) (tys : Tys S)
    (hfind : findMethod lib (typeOf lib.items v) "write_std430" = some (Parsed.std430Traits8_write_std430, tys))
    (has : ∀ (cx : Ctx S) (m : Nat), cx.prog = lib → cx.run = runFn lib (m + 2) → ∀ e s,
      callMethod cx e v "as_std430" [] [] s = (.panic, s)) : Writes 5 v (fun _ u => (none, u)) := by
  intro cx m hp hrun K u e a s
  simp only [callMethod, hp, hfind]
  refine callFn_param (self := v) (rest := []) (x := "writer") rfl (by decide) rfl rfl (write_noTys _ _) rfl ?_ .panic
  rw [hrun]
  obtain ⟨cx', hp', htys', -, hrun', heq⟩ := runFn_body (S := S) (p := lib) (n := m + 4)
    (f := Parsed.std430Traits8_write_std430) (tys := ("Self", typeOf lib.items v) :: tys)
    (s := { env := [("self", v), ("writer", writerVal K u)], world := s.world }) rfl
  rw [heq]
  simp [rust, has cx' (m + 2) hp' hrun']

/-- A value of a type that implements `Std430`. -/
theorem isStd_std {S : Setting} (d : S.Std) : IsStd (S := S) (.arg (.std d)) (.std (S.stdTy d)) (viewStd d) where
  ty := by simp [typeOf]
  find := by simp [rust]
  size := rfl
  align := fun cx n s hp hrun => rfl
  bytes := rfl
  coerce := fun _ => rfl

/-- Arguments that are not slices. -/
theorem writes_std {S : Setting} (d : S.Std) :
    Writes 5 (.arg (.std d) : Val S) (fun K u => writeArg K.k u (.std d)) := by
  have := writes_value (S := S) (.arg (.std d)) (.arg (.std d)) [("T", .std (S.stdTy d))] _ (viewStd d)
    (by simp [typeOf, rust])
    (fun cx m hp hrun e s => by
      simp only [callMethod, hp, typeOf, find_as_std]
      exact call_as_std cx (m + 1) hrun _ _ _ (fun _ => rfl) s)
    (isStd_std d)
  simpa only [writeArg] using this

theorem convertName_eq : lib.convertName = "as_std430" := rfl

theorem writes_conv {S : Setting} (c : S.Conv) :
    Writes 5 (.arg (.conv c) : Val S) (fun K u => writeArg K.k u (.conv c)) := by
  cases h : S.convert c with
  | returns d =>
    have := writes_value (S := S) (.arg (.conv c)) (.arg (.std d)) [("T", .conv (S.convTy c))] _ (viewStd d)
      (by simp [typeOf, rust])
      (fun cx m hp hrun e s => by
        simp only [callMethod, hp, typeOf, find_as_conv]
        simp [builtin, hp, convertName_eq, h, rust])
      (isStd_std d)
    simpa only [writeArg, h] using this
  | panics =>
    have := writes_panic (S := S) (.arg (.conv c)) [("T", .conv (S.convTy c))]
      (by simp [typeOf, rust])
      (fun cx m hp hrun e s => by
        simp only [callMethod, hp, typeOf, find_as_conv]
        simp [builtin, hp, convertName_eq, h, rust])
    simpa only [writeArg, h] using this

/-! ### Slices and iterators -/

/-- The body of the loops over items, where the Writer is the variable `W`. -/
def itemBody (W : String) : Expr :=
  .block [.expr (.attempt (.method (.var "item") "write_std430" [.var W]))] .unit

/-- Writing the first item. -/
def firstBody (W : String) : Expr :=
  .block [.expr (.assign (.var "offset") (.attempt (.method (.var "item") "write_std430" [.var W])))] .unit

/-- `E w` are `L` variables, where `W` has the value `w`. -/
structure Holds {S : Setting} (W : String) (E : Val S → Env S) (L : Nat) : Prop where
  length : ∀ w, (E w).length = L
  get : ∀ w, (E w).lookup W = some w
  set : ∀ w w', (E w).set W w' = some (E w')
  names : W ∉ ["item", "None", "iter", "offset"]

theorem Holds.cons {S : Setting} {W : String} {E : Val S → Env S} {L : Nat} (h : Holds W E L) (x : String)
    (hx : W ≠ x) (v : Val S) : Holds W (fun w => (x, v) :: E w) (L + 1) where
  length := fun w => by simp [h.length]
  get := fun w => by
    have : (W == x) = false := by simpa using hx
    simp [List.lookup, this, h.get]
  set := fun w w' => by
    have : ¬ x = W := fun e => hx e.symm
    simp [Env.set, this, h.set]
  names := h.names

/-- How a statement ends that writes items. -/
def restRes {S : Setting} {α : Type} (a : α) : Option (Except (Option S.Err) Unit) → Res S α
  | some (.ok ()) => .val a
  | some (.error (some e)) => .ret (.enum "Err" [.err e])
  | some (.error none) => .panic
  | none => .panic

section Items
variable {S : Setting} {W : String} {E : Val S → Env S} {L : Nat} (hE : Holds W E L) (cx : Ctx S) (hp : cx.prog = lib) (m n : Nat)
  (hrun : cx.run = runFn lib (m + n)) (K : Kind S)
include hE hp hrun

/-- One item. -/
theorem item_step (x : Arg S.Conv S.Std) (hx : Writes n (.arg x : Val S) (fun K u => writeArg K.k u x))
    (u : WriterU S.bits K.σ) (world : S.World) :
    (ifMatches (.var "item") (.arg x) (eval cx (itemBody W)) M.stuck) { env := E (writerVal K u), world := world } =
      (restRes Val.unit ((writeArg K.k u x).1.map fun r => r.map fun _ => ()),
        { env := E (writerVal K (writeArg K.k u x).2), world := world }) := by
  have hnames := hE.names
  simp only [List.mem_cons, List.not_mem_nil, or_false, not_or] at hnames
  obtain ⟨h1, h2, -, -⟩ := hnames
  have hne : (W == "item") = false := by simpa using h1
  have hne' : ¬ "item" = W := fun e => h1 e.symm
  rcases h : writeArg K.k u x with ⟨(_ | (_ | e) | o), u'⟩ <;>
    simp [rust, itemBody, h2, hne, hne', hE.length, hE.get, hE.set, hx cx m hp hrun, h, finish, attemptVal, restRes, Except.map]

/-- The loop over a list. -/
theorem items_loop (xs : List (Arg S.Conv S.Std))
    (hx : ∀ x ∈ xs, Writes n (.arg x : Val S) (fun K u => writeArg K.k u x)) (world : S.World) :
    ∀ (u : WriterU S.bits K.σ),
    forList (fun v => ifMatches (.var "item") v (eval cx (itemBody W)) M.stuck) (xs.map .arg)
      { env := E (writerVal K u), world := world } =
      (restRes Val.unit (writeArgs K.k u xs).1, { env := E (writerVal K (writeArgs K.k u xs).2), world := world }) := by
  induction xs with
  | nil => intro u; simp [forList, writeArgs, restRes, pure_apply]
  | cons x xs ih =>
    intro u
    have ih := ih fun y hy => hx y (List.mem_cons_of_mem _ hy)
    simp only [List.map_cons, forList, bind_apply,
      item_step hE cx hp m n hrun K x (hx x List.mem_cons_self) u world]
    rcases h : writeArg K.k u x with ⟨(_ | (_ | e) | o), u'⟩ <;> simp [restRes, Except.map, writeArgs, h]
    simpa [restRes] using ih u'

/-- The loop over the caller's iterator. -/
theorem client_loop (hx : ∀ w x w', S.next w = (.returns (some x), w') → Writes n (.arg x : Val S) (fun K u => writeArg K.k u x)) (fuel : Nat) :
    ∀ (u : WriterU S.bits K.σ) (world : S.World), ∃ s : State S,
    forClient (fun v => ifMatches (.var "item") v (eval cx (itemBody W)) M.stuck) fuel
      { env := E (writerVal K u), world := world } =
      match nextArgs K.k fuel u world with
      | some (r, u, world) => (restRes Val.unit r, { env := E (writerVal K u), world := world })
      | none => (.timeout, s) := by
  induction fuel with
  | zero => intro u world; exact ⟨_, rfl⟩
  | succ fuel ih =>
    intro u world
    rcases hn : S.next world with ⟨(_ | x) | _, world'⟩
    · exact ⟨⟨[], world⟩, by simp [forClient, nextArgs, hn, nextOf, bind_apply, pure_apply, restRes]⟩
    · obtain ⟨s, hs⟩ := ih (writeArg K.k u x).2 world'
      refine ⟨s, ?_⟩
      simp only [forClient, nextArgs, hn, nextOf, bind_apply, item_step hE cx hp m n hrun K x (hx _ _ _ hn) u world']
      rcases h : writeArg K.k u x with ⟨(_ | (_ | e) | o), u'⟩ <;> simp [restRes, Except.map, h]
      simpa [restRes, h] using hs
    · exact ⟨⟨[], world⟩, by simp [forClient, nextArgs, hn, nextOf, bind_apply, pure_apply, restRes]⟩

/-- The statement that writes the first item. -/
def stFirst (W : String) : Stmt :=
  .expr (.condLet (.ctor "Some" "item") (.method (.var "iter") "next" []) (firstBody W) .unit)

/-- The statement that writes the others. -/
def stRest (W : String) : Stmt := .expr (.each (.var "item") (.var "iter") (itemBody W))

/-- The variable `offset` after the first item. -/
def newOffset {S : Setting} (o : Val S) : Option (Except (Option S.Err) (BitVec S.bits)) → Val S
  | some (.ok o) => .word o
  | _ => o

/-- The first item, from an iterator that yields one. -/
theorem do_first (it it' : Val S) (x : Arg S.Conv S.Std)
    (hx : Writes n (.arg x : Val S) (fun K u => writeArg K.k u x))
    (u : WriterU S.bits K.σ) (o : Val S) (world world' : S.World)
    (hit : typeOf lib.items it = .other)
    (hb : ∀ env : Env S, builtin cx (.var "iter") it "next" [] { env := env, world := world } =
      ((setPlace (.var "iter") it').bind fun _ => M.pure (.enum "Some" [.arg x])) { env := env, world := world' }) :
    evalStmt cx (stFirst W)
        { env := ("iter", it) :: ("offset", o) :: E (writerVal K u), world := world } =
      (restRes () ((writeArg K.k u x).1.map fun r => r.map fun _ => ()),
        { env := ("iter", it') :: ("offset", newOffset o (writeArg K.k u x).1) :: E (writerVal K (writeArg K.k u x).2), world := world' }) := by
  have hnames := hE.names
  simp only [List.mem_cons, List.not_mem_nil, or_false, not_or] at hnames
  obtain ⟨h1, h2, h3, h4⟩ := hnames
  have hne : (W == "item") = false := by simpa using h1
  have hne' : ¬ "item" = W := fun e => h1 e.symm
  have hne3 : (W == "iter") = false := by simpa using h3
  have hne3' : ¬ "iter" = W := fun e => h3 e.symm
  have hne4 : (W == "offset") = false := by simpa using h4
  have hne4' : ¬ "offset" = W := fun e => h4 e.symm
  have hnext : ∀ env : Env S, callMethod cx (.var "iter") it "next" [] [] { env := env, world := world } =
      ((setPlace (.var "iter") it').bind fun _ => M.pure (.enum "Some" [.arg x])) { env := env, world := world' } := by
    intro env
    simp only [callMethod, hp, hit, find_next, hb]
  rcases h : writeArg K.k u x with ⟨(_ | (_ | e) | o), u'⟩ <;>
    simp [rust, stFirst, firstBody, hnext, hne, hne', hne3, hne3', hne4, hne4', hE.length, hE.get, hE.set, hx cx m hp hrun, h, finish, attemptVal, restRes,
      Except.map, newOffset, h2]

/-- No first item. -/
theorem do_first_none (it it' : Val S) (w o : Val S) (world world' : S.World)
    (hit : typeOf lib.items it = .other)
    (hb : ∀ env : Env S, builtin cx (.var "iter") it "next" [] { env := env, world := world } =
      ((setPlace (.var "iter") it').bind fun _ => M.pure (.enum "None" [])) { env := env, world := world' }) :
    evalStmt cx (stFirst W) { env := ("iter", it) :: ("offset", o) :: E w, world := world } =
      (.val (), { env := ("iter", it') :: ("offset", o) :: E w, world := world' }) := by
  have hnext : ∀ env : Env S, callMethod cx (.var "iter") it "next" [] [] { env := env, world := world } =
      ((setPlace (.var "iter") it').bind fun _ => M.pure (.enum "None" [])) { env := env, world := world' } := by
    intro env
    simp only [callMethod, hp, hit, find_next, hb]
  simp [rust, stFirst, firstBody, hnext]

/-- A slice or another list of items, from the first on. -/
theorem do_list (xs : List (Arg S.Conv S.Std))
    (hx : ∀ x ∈ xs, Writes n (.arg x : Val S) (fun K u => writeArg K.k u x)) (u : WriterU S.bits K.σ)
    (world : S.World) :
    ∃ r it o, Ending (writeArg K.k u (.slice xs)).1 r ∧
      ((evalStmts cx [stFirst W, stRest W]).bind fun _ => eval cx (.call (.var "Ok") [.var "offset"]))
        { env := ("iter", .iter (xs.map .arg)) :: ("offset", .word u.offset) :: E (writerVal K u), world := world } =
      (r, { env := ("iter", it) :: ("offset", o) :: E (writerVal K (writeArg K.k u (.slice xs)).2), world := world }) := by
  have hnames := hE.names
  simp only [List.mem_cons, List.not_mem_nil, or_false, not_or] at hnames
  obtain ⟨h1, h2, h3, h4⟩ := hnames
  cases xs with
  | nil =>
    refine ⟨_, .iter [], .word u.offset, by rw [writeArg]; exact .ok u.offset, ?_⟩
    have := do_first_none hE cx hp m n hrun (.iter []) (.iter []) (writerVal K u) (.word u.offset) world world
      (by simp [typeOf]) (fun env => rfl)
    simp [rust, this, stRest, forLoop, intoIter, forList, call, writeArg]
  | cons x xs =>
    have hf := do_first hE cx hp m n hrun K (.iter ((x :: xs).map .arg)) (.iter (xs.map .arg)) x
      (hx x List.mem_cons_self) u (.word u.offset) world world (by simp [typeOf]) (fun env => rfl)
    rw [List.map_cons] at hf
    rcases h : writeArg K.k u x with ⟨(_ | (_ | e) | o), u'⟩
    · refine ⟨_, .iter (xs.map .arg), .word u.offset, by simp only [writeArg, h]; exact .panic, ?_⟩
      simp [rust, hf, h, restRes, writeArg, newOffset]
    · refine ⟨_, .iter (xs.map .arg), .word u.offset, by simp only [writeArg, h]; exact .sinkPanic, ?_⟩
      simp [rust, hf, h, restRes, writeArg, Except.map, newOffset]
    · refine ⟨_, .iter (xs.map .arg), .word u.offset, by simp only [writeArg, h]; exact .errRet e, ?_⟩
      simp [rust, hf, h, restRes, writeArg, Except.map, newOffset]
    · have hr := items_loop ((hE.cons "offset" h4 (.word o)).cons "iter" h3 (.iter (xs.map .arg))) cx hp m n hrun K xs
        (fun y hy => hx y (List.mem_cons_of_mem _ hy)) world u'
      simp only [ifMatches_var] at hr
      rw [h] at hf
      simp only [Option.map, Except.map, restRes, newOffset] at hf
      rcases h' : writeArgs K.k u' xs with ⟨(_ | (_ | e) | o'), u''⟩
      · refine ⟨_, .iter (xs.map .arg), .word o, by simp only [writeArg, h, h']; exact .panic, ?_⟩
        simp [rust, hf, restRes, writeArg, stRest, forLoop, intoIter, hr, h, h']
      · refine ⟨_, .iter (xs.map .arg), .word o, by simp only [writeArg, h, h']; exact .sinkPanic, ?_⟩
        simp [rust, hf, restRes, writeArg, stRest, forLoop, intoIter, hr, h, h']
      · refine ⟨_, .iter (xs.map .arg), .word o, by simp only [writeArg, h, h']; exact .errRet e, ?_⟩
        simp [rust, hf, restRes, writeArg, stRest, forLoop, intoIter, hr, h, h']
      · refine ⟨_, .iter (xs.map .arg), .word o, by simp only [writeArg, h, h']; exact .ok o, ?_⟩
        simp [rust, hf, restRes, writeArg, stRest, forLoop, intoIter, hr, h, h', call]

/-- The caller's iterator. -/
theorem do_client (hx : ∀ w x w', S.next w = (.returns (some x), w') → Writes n (.arg x : Val S) (fun K u => writeArg K.k u x)) (u : WriterU S.bits K.σ)
    (world : S.World) :
    match writeNext K.k cx.fuel u world with
    | some (res, u', world') => ∃ r it o, Ending res r ∧
      ((evalStmts cx [stFirst W, stRest W]).bind fun _ => eval cx (.call (.var "Ok") [.var "offset"]))
        { env := ("iter", .clientIter) :: ("offset", .word u.offset) :: E (writerVal K u), world := world } =
      (r, { env := ("iter", it) :: ("offset", o) :: E (writerVal K u'), world := world' })
    | none => ∃ s, ((evalStmts cx [stFirst W, stRest W]).bind fun _ => eval cx (.call (.var "Ok") [.var "offset"]))
        { env := ("iter", .clientIter) :: ("offset", .word u.offset) :: E (writerVal K u), world := world } =
      (.timeout, s) := by
  have hnames := hE.names
  simp only [List.mem_cons, List.not_mem_nil, or_false, not_or] at hnames
  obtain ⟨h1, h2, h3, h4⟩ := hnames
  have rest : ∀ (o : BitVec S.bits) (u : WriterU S.bits K.σ) (world : S.World),
      match nextArgs K.k cx.fuel u world with
      | some (res, u', world') => ∃ r it o', Ending (res.map fun x => x.map fun _ => o) r ∧
        ((evalStmts cx [stRest W]).bind fun _ => eval cx (.call (.var "Ok") [.var "offset"]))
          { env := ("iter", .clientIter) :: ("offset", .word o) :: E (writerVal K u), world := world } =
        (r, { env := ("iter", it) :: ("offset", o') :: E (writerVal K u'), world := world' })
      | none => ∃ s, ((evalStmts cx [stRest W]).bind fun _ => eval cx (.call (.var "Ok") [.var "offset"]))
          { env := ("iter", .clientIter) :: ("offset", .word o) :: E (writerVal K u), world := world } =
        (.timeout, s) := by
    intro o u world
    obtain ⟨s, hr⟩ := client_loop ((hE.cons "offset" h4 (.word o)).cons "iter" h3 .clientIter) cx hp m n hrun K hx
      cx.fuel u world
    simp only [ifMatches_var] at hr
    rcases h : nextArgs K.k cx.fuel u world with _ | ⟨(_ | (_ | e) | o'), u', world'⟩
    · exact ⟨s, by simp [rust, stRest, forLoop, intoIter, hr, h]⟩
    · refine ⟨_, .clientIter, .word o, .panic, ?_⟩
      simp [rust, stRest, forLoop, intoIter, hr, h, restRes]
    · refine ⟨_, .clientIter, .word o, .sinkPanic, ?_⟩
      simp [rust, stRest, forLoop, intoIter, hr, h, restRes]
    · refine ⟨_, .clientIter, .word o, .errRet e, ?_⟩
      simp [rust, stRest, forLoop, intoIter, hr, h, restRes]
    · refine ⟨_, .clientIter, .word o, .ok o, ?_⟩
      simp [rust, stRest, forLoop, intoIter, hr, h, restRes, call]
  rcases hn : S.next world with ⟨(_ | x) | _, world'⟩
  · have hf := do_first_none hE cx hp m n hrun .clientIter .clientIter (writerVal K u) (.word u.offset) world world'
      (by simp [typeOf]) (fun env => by simp [builtin, nextOf, bind_apply, hn, optionVal])
    have := rest u.offset u world'
    simp only [writeNext, hn]
    rcases h : nextArgs K.k cx.fuel u world' with _ | ⟨res, u', world''⟩ <;> simp only [h, Option.map_none, Option.map_some] at this ⊢ <;>
      simpa only [evalStmts, bind_apply, hf, pure_apply] using this
  · have hf := do_first hE cx hp m n hrun K .clientIter .clientIter x (hx _ _ _ hn) u (.word u.offset) world world'
      (by simp [typeOf]) (fun env => by simp [builtin, nextOf, bind_apply, hn, optionVal])
    simp only [writeNext, hn]
    rcases h : writeArg K.k u x with ⟨(_ | (_ | e) | o), u'⟩ <;> rw [h] at hf <;>
      simp only [Option.map, Except.map, restRes, newOffset] at hf
    · refine ⟨_, .clientIter, .word u.offset, .panic, ?_⟩
      simp only [evalStmts, bind_apply, hf, pure_apply]
    · refine ⟨_, .clientIter, .word u.offset, .sinkPanic, ?_⟩
      simp only [evalStmts, bind_apply, hf, pure_apply]
    · refine ⟨_, .clientIter, .word u.offset, .errRet e, ?_⟩
      simp only [evalStmts, bind_apply, hf, pure_apply]
    · have := rest o u' world'
      rcases h : nextArgs K.k cx.fuel u' world' with _ | ⟨res, u'', world''⟩ <;> simp only [h, Option.map_none, Option.map_some] at this ⊢ <;>
        simpa only [evalStmts, bind_apply, hf, pure_apply] using this
  · simp only [writeNext, hn]
    refine ⟨_, .clientIter, .word u.offset, .panic, ?_⟩
    have : ∀ env : Env S, callMethod cx (.var "iter") .clientIter "next" [] [] { env := env, world := world } =
        (.panic, { env := env, world := world' }) := by
      intro env
      simp only [callMethod, hp, typeOf, find_next]
      simp [builtin, nextOf, bind_apply, hn]
    simp [rust, stFirst, this]

end Items

theorem run_len {S : Setting} (n : Nat) (K : Kind S) (u : WriterU S.bits K.σ) (tys : Tys S) (world : S.World) :
    runFn lib (n + 1) Parsed.std430Writer6_len tys { env := [("self", writerVal K u)], world := world } =
      (.val (.word u.offset), { env := [("self", writerVal K u)], world := world }) := by
  simp [runFn, Parsed.std430Writer6_len, rust, writerVal]

/-- `Writer::len`. -/
theorem method_len {S : Setting} (cx : Ctx S) (hp : cx.prog = lib) (n : Nat) (h : cx.run = runFn lib (n + 1))
    (K : Kind S) (u : WriterU S.bits K.σ) (e : Expr) (s : State S) :
    callMethod cx e (writerVal K u) "len" [] [] s = (.val (.word u.offset), s) := by
  obtain ⟨env, world⟩ := s
  simp only [callMethod, hp, typeOf_writer, find_Writer_len]
  unfold callFn
  rw [h]
  have := run_len n K u [("Self", .named "Writer" [.other]), ("W", .other)] world
  simp only [Parsed.std430Writer6_len] at this
  simp [rust, Parsed.std430Writer6_len, this]

/-- The writing of a slice. -/
theorem writes_slice {S : Setting} (n : Nat) (xs : List (Arg S.Conv S.Std))
    (hx : ∀ x ∈ xs, Writes (n + 1) (.arg x : Val S) (fun K u => writeArg K.k u x)) :
    Writes (n + 2) (.arg (.slice xs) : Val S) (fun K u => writeArg K.k u (.slice xs)) := by
  intro cx m hp hrun K u e a s
  have hE : Holds (S := S) "writer" (fun w => [("self", .arg (.slice xs)), ("writer", w)]) 2 :=
    ⟨fun _ => rfl, fun _ => rfl, fun _ _ => rfl, by decide⟩
  obtain ⟨cx', hp', htys', -, hrun', heq⟩ := runFn_body (S := S) (p := lib) (n := m + (n + 1))
    (f := Parsed.std430Traits9_write_std430) (tys := [("Self", .slice)])
    (s := { env := [("self", .arg (.slice xs)), ("writer", writerVal K u)], world := s.world }) rfl
  obtain ⟨r, it, o, hr, hl⟩ := do_list hE cx' hp' m (n + 1) hrun' K xs hx u s.world
  simp only [callMethod, hp, typeOf, find_write_slice]
  refine callFn_param (self := .arg (.slice xs)) (rest := []) (x := "writer") rfl (by decide) rfl rfl
    (by simp [Parsed.std430Traits9_write_std430, typeArg, Ty.isParam]) rfl ?_ hr
  rw [hrun, show m + (n + 2) = m + (n + 1) + 1 from rfl, heq]
  refine block_tail (ss := [.bind true "offset" .unit (.method (.var "writer") "len" []),
    .bind true "iter" .unit (.method (.var "self") "iter" [])]) (tt := [stFirst "writer", stRest "writer"]) ?_ hl
  have hiter : ∀ s : State S, callMethod cx' (.var "self") (.arg (.slice xs)) "iter" [] [] s =
      (.val (.iter (xs.map .arg)), s) := by
    intro s
    simp only [callMethod, hp', typeOf, find_iter_slice]
    simp [builtin, intoIter, rust]
  simp [rust, method_len cx' hp' (m + n) hrun', hiter]

theorem Writes.mono {S : Setting} {n n' : Nat} (h : n ≤ n') {v : Val S}
    {f : ∀ K : Kind S, WriterU S.bits K.σ → Option (Except (Option S.Err) (BitVec S.bits)) × WriterU S.bits K.σ}
    (hw : Writes n v f) : Writes n' v f := by
  intro cx m hp hrun K u e a s
  exact hw cx (m + (n' - n)) hp (by rw [hrun]; congr 1; omega) K u e a s

/-- Every argument. -/
theorem writes_arg {S : Setting} (d : Nat) :
    ∀ x : Arg S.Conv S.Std, x.depth ≤ d → Writes (d + 5) (.arg x : Val S) (fun K u => writeArg K.k u x) := by
  induction d with
  | zero =>
    intro x hx
    match x, hx with
    | .conv c, _ => exact writes_conv c
    | .std d, _ => exact writes_std d
    | .slice xs, hx => rw [Arg.depth] at hx; omega
  | succ d ih =>
    intro x hx
    match x, hx with
    | .conv c, _ => exact (writes_conv c).mono (by omega)
    | .std d, _ => exact (writes_std d).mono (by omega)
    | .slice xs, hx =>
      rw [Arg.depth] at hx
      exact writes_slice (d + 4) xs fun x hmem => ih x (by have := Arg.depth_mem hmem; omega)

/-! ### `Writer::write` and `Writer::write_iter` -/

/-- `Writer::write`. -/
theorem method_write {S : Setting} (cx : Ctx S) (hp : cx.prog = lib) (n m : Nat) (h : cx.run = runFn lib (m + n + 1))
    (K : Kind S) (u : WriterU S.bits K.σ) (v : Val S) (hv : ∀ t, v.coerce t = v)
    (f : ∀ K : Kind S, WriterU S.bits K.σ → Option (Except (Option S.Err) (BitVec S.bits)) × WriterU S.bits K.σ)
    (hw : Writes n v f) (e a : Expr) (s : State S) :
    callMethod cx e (writerVal K u) "write" [a] [v] s =
      ((setPlace e (writerVal K (f K u).2)).bind fun _ => finish (f K u).1) s := by
  simp only [callMethod, hp, typeOf_writer, find_Writer_write]
  obtain ⟨r, hr, hfin⟩ := finish_ending (f K u).1
    { env := [("self", writerVal K (f K u).2), ("value", v)], world := s.world }
  have henv : params Parsed.std430Writer6_write.params [v] = [("value", v)] := by
    simp [Parsed.std430Writer6_write, params, hv]
  refine callFn_self (rest := [("value", v)]) rfl rfl rfl ?_ hr
  rw [h, henv]
  obtain ⟨cx', hp', htys', -, hrun', heq⟩ := runFn_body (S := S) (p := lib) (n := m + n)
    (f := Parsed.std430Writer6_write) (tys := _)
    (s := { env := [("self", writerVal K u), ("value", v)], world := s.world }) rfl
  simp only [Parsed.std430Writer6_write] at heq ⊢
  simp only [List.filterMap_nil, List.append_nil]
  rw [heq]
  simp [rust, hw cx' m hp' hrun', hfin]

/-- `write_iter` of a list or slice. -/
theorem method_writeIter {S : Setting} (cx : Ctx S) (hp : cx.prog = lib) (n m : Nat)
    (h : cx.run = runFn lib (m + n + 1)) (K : Kind S) (u : WriterU S.bits K.σ) (xs : List (Arg S.Conv S.Std))
    (hx : ∀ x ∈ xs, Writes n (.arg x : Val S) (fun K u => writeArg K.k u x)) (e a : Expr) (s : State S) :
    callMethod cx e (writerVal K u) "write_iter" [a] [.iter (xs.map .arg)] s =
      ((setPlace e (writerVal K (writeArg K.k u (.slice xs)).2)).bind fun _ => finish (writeArg K.k u (.slice xs)).1)
        s := by
  simp only [callMethod, hp, typeOf_writer, find_Writer_writeIter]
  have hE : Holds (S := S) "self" (fun w => [("self", w), ("iter", .iter (xs.map .arg))]) 2 :=
    ⟨fun _ => rfl, fun _ => rfl, fun _ _ => rfl, by decide⟩
  obtain ⟨cx', hp', htys', -, hrun', heq⟩ := runFn_body (S := S) (p := lib) (n := m + n)
    (f := Parsed.std430Writer6_write_iter) (tys := _)
    (s := { env := [("self", writerVal K u), ("iter", .iter (xs.map .arg))], world := s.world }) rfl
  obtain ⟨r, it, o, hr, hl⟩ := do_list hE cx' hp' m n hrun' K xs hx u s.world
  refine callFn_self (rest := [("iter", .iter (xs.map .arg))]) rfl rfl rfl ?_ hr
  rw [h]
  have henv : params Parsed.std430Writer6_write_iter.params [(.iter (xs.map .arg) : Val S)] =
      [("iter", .iter (xs.map .arg))] := rfl
  rw [henv]
  simp only [Parsed.std430Writer6_write_iter] at heq ⊢
  simp only [List.filterMap_nil, List.append_nil]
  rw [heq]
  refine block_tail (ss := [.bind true "offset" .unit (.field (.var "self") "offset"),
    .bind true "iter" .unit (.method (.var "iter") "into_iter" [])]) (tt := [stFirst "self", stRest "self"]) ?_ hl
  have hiter : ∀ s : State S, callMethod cx' (.var "iter") (.iter (xs.map .arg)) "into_iter" [] [] s =
      (.val (.iter (xs.map .arg)), s) := by
    intro s
    simp only [callMethod, hp', typeOf, find_into_iter]
    simp [builtin, intoIter, rust]
  simp [rust, hiter, writerVal]

/-- `write_iter` of the caller's iterator. -/
theorem method_writeNext {S : Setting} (cx : Ctx S) (hp : cx.prog = lib) (n m : Nat)
    (h : cx.run = runFn lib (m + n + 1)) (K : Kind S) (u : WriterU S.bits K.σ)
    (hx : ∀ w x w', S.next w = (.returns (some x), w') → Writes n (.arg x : Val S) (fun K u => writeArg K.k u x))
    (e a : Expr) (s : State S) :
    match writeNext K.k (m + n) u s.world with
    | some (res, u', world') => callMethod cx e (writerVal K u) "write_iter" [a] [.clientIter] s =
      ((setPlace e (writerVal K u')).bind fun _ => finish res) { s with world := world' }
    | none => ∃ s', callMethod cx e (writerVal K u) "write_iter" [a] [.clientIter] s = (.timeout, s') := by
  simp only [callMethod, hp, typeOf_writer, find_Writer_writeIter]
  have hE : Holds (S := S) "self" (fun w => [("self", w), ("iter", .clientIter)]) 2 :=
    ⟨fun _ => rfl, fun _ => rfl, fun _ _ => rfl, by decide⟩
  have henv : params Parsed.std430Writer6_write_iter.params [(.clientIter : Val S)] = [("iter", .clientIter)] := rfl
  obtain ⟨cx', hp', htys', hfuel', hrun', heq⟩ := runFn_body (S := S) (p := lib) (n := m + n)
    (f := Parsed.std430Writer6_write_iter)
    (tys := [("Self", .named "Writer" [.other]), ("W", .other)] ++
      Parsed.std430Writer6_write_iter.generics.types.filterMap fun x =>
        (typeArg cx.prog.items x Parsed.std430Writer6_write_iter.params [.clientIter]).map fun t => (x, t))
    (s := { env := [("self", writerVal K u), ("iter", .clientIter)], world := s.world }) rfl
  have hc := do_client hE cx' hp' m n hrun' K hx u s.world
  have hiter : ∀ s : State S, callMethod cx' (.var "iter") .clientIter "into_iter" [] [] s =
      (.val .clientIter, s) := by
    intro s
    simp only [callMethod, hp', typeOf, find_into_iter]
    simp [builtin, intoIter, rust]
  have hpre : evalStmts cx' [.bind true "offset" .unit (.field (.var "self") "offset"),
      .bind true "iter" .unit (.method (.var "iter") "into_iter" [])]
      { env := [("self", writerVal K u), ("iter", .clientIter)], world := s.world } =
      (.val (), { env := [("iter", .clientIter), ("offset", .word u.offset), ("self", writerVal K u), ("iter", .clientIter)], world := s.world }) := by
    simp [rust, hiter, writerVal]
  rw [hfuel'] at hc
  rcases hn : writeNext K.k (m + n) u s.world with _ | ⟨res, u', world'⟩ <;> simp only [hn] at hc ⊢
  · obtain ⟨s', hc⟩ := hc
    have hb := block_tail (ss := [.bind true "offset" .unit (.field (.var "self") "offset"),
      .bind true "iter" .unit (.method (.var "iter") "into_iter" [])]) (tt := [stFirst "self", stRest "self"]) hpre hc
    refine ⟨{ env := s.env, world := s'.world }, ?_⟩
    unfold callFn
    simp only [h, henv]
    simp only [Parsed.std430Writer6_write_iter] at heq ⊢
    simp only [List.filterMap_nil, List.append_nil, List.length_cons, List.length_nil, if_true, List.cons_append,
      List.nil_append] at heq ⊢
    rw [heq]
    simp only [List.cons_append, List.nil_append, stFirst, stRest, firstBody, itemBody] at hb
    rw [hb]
  · obtain ⟨r, it, o, hr, hl⟩ := hc
    refine callFn_self (rest := [("iter", .clientIter)]) rfl rfl rfl ?_ hr
    rw [h, henv]
    simp only [Parsed.std430Writer6_write_iter] at heq ⊢
    simp only [List.filterMap_nil, List.append_nil]
    rw [heq]
    exact block_tail (ss := [.bind true "offset" .unit (.field (.var "self") "offset"),
      .bind true "iter" .unit (.method (.var "iter") "into_iter" [])]) (tt := [stFirst "self", stRest "self"]) hpre hl

/-! ### `Writer::new`, sizes, the Sizer -/

/-- `Writer::new`. -/
theorem call_new {S : Setting} (cx : Ctx S) (hp : cx.prog = lib) (htys : cx.tys.lookup "Writer" = none) (n : Nat)
    (h : cx.run = runFn lib (n + 1)) (K : Kind S) (x : K.σ) (a : Expr) (s : State S) :
    call cx (.path (.path ["Writer", "new"] [])) [a] [K.inj x] s = (.val (writerVal K (WriterU.new S.bits x)), s) := by
  obtain ⟨env, world⟩ := s
  have ht : evalTy lib cx.tys (lib.depth + 1) (.path ["Writer"] []) = .named "Writer" [] := by
    rw [evalTy, htys]; rfl
  have h1 : findMethod (S := S) lib (.named "Writer" []) "new" = none := by rfl
  have h2 : findInherent lib.items "Writer" "new" = some Parsed.std430Writer6_new := by rfl
  have hcall : call cx (.path (.path ["Writer", "new"] [])) [a] [K.inj x] =
      callAssoc cx (evalTy cx.prog cx.tys (cx.prog.depth + 1) (.path ["Writer"] [])) "new" [a] [K.inj x] := rfl
  rw [hcall, hp, ht]
  simp only [callAssoc, hp, h1, h2]
  unfold callFn
  rw [h]
  have h3 : ∀ v : Val S, structVal lib.items "Writer" ["writer", "offset"] [v, .lit 0] =
      M.pure (.struct "Writer" [("writer", v.coerce (.path ["W"] [])), ("offset", .word 0#S.bits)]) := by
    intro v; rfl
  simp [rust, runFn, Parsed.std430Writer6_new, structName, h3, K.coerce, writerVal, WriterU.new]

/-- A type with a conversion, the type of the results, its size and alignment. -/
structure Converts {S : Setting} (t out : RtTy S) (size align : Nat) : Prop where
  proj : projectTy lib lib.depth t "Output" = out
  size : sizeOfTy lib.items out = some size
  align : ∀ cx n s, cx.prog = lib → cx.run = runFn lib (n + 2) →
    constOf cx out "ALIGNMENT" s = (.val (.word (BitVec.ofNat S.bits align)), s)

theorem converts_conv {S : Setting} (t : S.ConvTy) :
    Converts (S := S) (.conv t) (.std (S.outTy t)) (S.size (S.outTy t)) (S.align (S.outTy t)) :=
  ⟨rfl, rfl, fun _ _ _ _ _ => rfl⟩

theorem converts_std {S : Setting} (t : S.StdTy) :
    Converts (S := S) (.std t) (.std t) (S.size t) (S.align t) :=
  ⟨rfl, rfl, fun _ _ _ _ _ => rfl⟩

/-- `std430_size` of a value. -/
theorem method_size_value {S : Setting} (cx : Ctx S) (hp : cx.prog = lib) (n : Nat) (h : cx.run = runFn lib (n + 1))
    (v : Val S) (t out : RtTy S) (tys : Tys S) (size align : Nat) (ht : typeOf lib.items v = t)
    (hfind : findMethod lib t "std430_size" = some (Parsed.std430Traits8_std430_size, tys))
    (hc : Converts t out size align) (e : Expr) (s : State S) :
    callMethod cx e v "std430_size" [] [] s = (.val (.word (BitVec.ofNat S.bits size)), s) := by
  obtain ⟨env, world⟩ := s
  simp only [callMethod, hp, ht, hfind]
  unfold callFn
  rw [h]
  obtain ⟨cx', hp', htys', -, hrun', heq⟩ := runFn_body (S := S) (p := lib) (n := n)
    (f := Parsed.std430Traits8_std430_size) (tys := ("Self", t) :: tys)
    (s := { env := [("self", v)], world := world }) rfl
  have hT : evalTy lib cx'.tys (lib.depth + 1) (.proj (.path ["Self"] []) (.path ["AsStd430"] []) ["Output"]) = out := by
    rw [htys', ← hc.proj]; rfl
  simp only [Parsed.std430Traits8_std430_size] at heq
  simp [Parsed.std430Traits8_std430_size, rust]
  rw [heq]
  simp [rust, call, hp', hT, hc.size]

/-- `std430_size` of anything that implements `WriteStd430`, in the version that writes to a sink. -/
theorem run_size {S : Setting} (n m : Nat) (v : Val S) (tys : Tys S) (htys : tys.lookup "Writer" = none)
    (f : ∀ K : Kind S, WriterU S.bits K.σ → Option (Except (Option S.Err) (BitVec S.bits)) × WriterU S.bits K.σ)
    (hw : Writes n v f) (world : S.World) :
    runFn lib (m + (n + 1) + 1) Parsed.std430Traits9_std430_size tys { env := [("self", v)], world := world } =
      (match f (Kind.null S) (WriterU.new S.bits []) with
        | (some (.ok _), u) => .val (.word u.offset)
        | (_, _) => .panic, { env := [("self", v)], world := world }) := by
  obtain ⟨cx', hp', htys', -, hrun', heq⟩ := runFn_body (S := S) (p := lib) (n := m + (n + 1))
    (f := Parsed.std430Traits9_std430_size) (tys := tys)
    (s := { env := [("self", v)], world := world }) rfl
  rw [heq]
  have hnew := call_new cx' hp' (by rw [htys']; exact htys) (m + n) hrun' (Kind.null S) []
  have hnull : (Kind.null S).inj [] = .null := rfl
  rw [hnull] at hnew
  have hunwrap : ∀ (e : Expr) (c : String) (vs : List (Val S)) (s : State S), callMethod cx' e (.enum c vs) "unwrap" [] [] s =
      builtin cx' e (.enum c vs) "unwrap" [] s := by
    intro e c vs s
    simp only [callMethod, hp', typeOf, find_unwrap]
  have hsink : ∀ s : State S, call cx' (.path (.path ["io", "sink"] [])) [] [] s = (.val .null, s) := fun _ => rfl
  have hw := hw cx' (m + 1) hp' (by rw [hrun']; congr 1; omega) (Kind.null S) (WriterU.new S.bits [])
  have hlen := fun u => method_len cx' hp' (m + n) hrun' (Kind.null S) u
  have hcoe : ∀ (u : WriterU S.bits (Kind.null S).σ) (t : Ty), (writerVal (Kind.null S) u).coerce t = writerVal (Kind.null S) u := fun _ _ => rfl
  rcases h : f (Kind.null S) (WriterU.new S.bits []) with ⟨(_ | (_ | e) | o), u⟩ <;>
    simp [rust, hnew, hsink, hw, h, finish, hunwrap, builtin, hlen, hcoe]

/-- `std430_size` of a slice. -/
theorem method_size_slice {S : Setting} (cx : Ctx S) (hp : cx.prog = lib) (n m : Nat)
    (h : cx.run = runFn lib (m + (n + 1) + 1)) (xs : List (Arg S.Conv S.Std))
    (hw : Writes n (.arg (.slice xs) : Val S) (fun K u => writeArg K.k u (.slice xs))) (e : Expr) (s : State S) :
    callMethod cx e (.arg (.slice xs)) "std430_size" [] [] s = (wordRes (sizeArg (.slice xs)), s) := by
  obtain ⟨env, world⟩ := s
  simp only [callMethod, hp, typeOf, find_size_slice]
  have hr := run_size n m (.arg (.slice xs) : Val S) [("Self", .slice)] rfl _ hw world
  unfold callFn
  rw [h]
  simp only [Parsed.std430Traits9_std430_size] at hr ⊢
  simp [rust, hr]
  rw [sizeArg]
  change _ = (wordRes (match writeArg (Kind.null S).k (WriterU.new S.bits []) (.slice xs) with
    | (some (.ok _), u) => some u.offset
    | (_, _) => none), _)
  rcases h : writeArg (Kind.null S).k (WriterU.new S.bits []) (.slice xs) with ⟨(_ | (_ | e) | o), u⟩ <;> rfl

/-- The same for every argument. -/
theorem method_size {S : Setting} (cx : Ctx S) (hp : cx.prog = lib) (n : Nat) (x : Arg S.Conv S.Std)
    (h : cx.run = runFn lib (n + x.depth + 7)) (e : Expr) (s : State S) :
    callMethod cx e (.arg x) "std430_size" [] [] s = (wordRes (sizeArg x), s) := by
  match x with
  | .conv c =>
    exact method_size_value cx hp _ h (.arg (.conv c)) _ _ [("T", .conv (S.convTy c))] _ _ (by simp [typeOf])
      (by simp [rust]) (converts_conv _) e s
  | .std d =>
    exact method_size_value cx hp _ h (.arg (.std d)) _ _ [("T", .std (S.stdTy d))] _ _ (by simp [typeOf])
      (by simp [rust]) (converts_std _) e s
  | .slice xs =>
    exact method_size_slice cx hp _ n (by rw [h]; rfl) xs (writes_arg _ (.slice xs) (Nat.le_refl _)) e s

/-- `T::std430_size_static()`. -/
theorem call_sizeStatic {S : Setting} (cx : Ctx S) (hp : cx.prog = lib) (n : Nat) (h : cx.run = runFn lib (n + 1))
    (t out : RtTy S) (tys : Tys S) (size align : Nat)
    (hfind : findMethod lib t "std430_size_static" = some (Parsed.std430Traits5_std430_size_static, tys))
    (hproj : ∀ tys : Tys S, evalTy lib (("Self", t) :: tys) (lib.depth + 1) (.path ["Self", "Output"] []) = out)
    (hc : Converts t out size align) (s : State S) :
    callAssoc cx t "std430_size_static" [] [] s = (.val (.word (BitVec.ofNat S.bits size)), s) := by
  obtain ⟨env, world⟩ := s
  simp only [callAssoc, hp, hfind]
  unfold callFn
  rw [h]
  obtain ⟨cx', hp', htys', -, hrun', heq⟩ := runFn_body (S := S) (p := lib) (n := n)
    (f := Parsed.std430Traits5_std430_size_static) (tys := ("Self", t) :: tys)
    (s := { env := [], world := world }) rfl
  have hT : evalTy lib cx'.tys (lib.depth + 1) (.path ["Self", "Output"] []) = out := by
    rw [htys', hproj]
  simp only [Parsed.std430Traits5_std430_size_static] at heq
  simp [Parsed.std430Traits5_std430_size_static, rust]
  rw [heq]
  simp [rust, call, hp', hT, hc.size]

/-- `as_bytes`. -/
theorem method_asBytes {S : Setting} (cx : Ctx S) (hp : cx.prog = lib) (n : Nat) (h : cx.run = runFn lib (n + 1))
    (v : Val S) (t : RtTy S) (x : StdVal) (hv : IsStd v t x)
    (hfind : findMethod lib t "as_bytes" = some (Parsed.std430Traits4_as_bytes, [])) (e : Expr) (s : State S) :
    callMethod cx e v "as_bytes" [] [] s = (.val (.bytes x.bytes), s) := by
  obtain ⟨env, world⟩ := s
  simp only [callMethod, hp, hv.ty, hfind]
  unfold callFn
  rw [h]
  simp [rust, runFn, Parsed.std430Traits4_as_bytes, call, hv.bytes]

/-- A Sizer as a value. -/
def sizerVal {S : Setting} (o : BitVec S.bits) : Val S := .struct "Sizer" [("offset", .word o)]

/-- `Sizer::add`. -/
theorem run_add {S : Setting} (n : Nat) (t out : RtTy S) (size align : Nat) (hc : Converts t out size align)
    (tys : Tys S) (htys : tys.lookup "T" = some t) (o : BitVec S.bits) (world : S.World) :
    runFn lib (n + 3) Parsed.std430Sizer4_add tys { env := [("self", sizerVal o)], world := world } =
      (wordRes (sizerAdd (mode S) o size align).1,
        { env := [("self", sizerVal (sizerAdd (mode S) o size align).2)], world := world }) := by
  obtain ⟨cx, hp, htys', -, hrun, heq⟩ := runFn_body (S := S) (p := lib) (n := n + 2)
    (f := Parsed.std430Sizer4_add) (tys := tys)
    (s := { env := [("self", sizerVal o)], world := world }) rfl
  rw [heq]
  have hT : evalTy lib cx.tys (lib.depth + 1) (.proj (.path ["T"] []) (.path ["AsStd430"] []) ["Output"]) = out := by
    rw [← hc.proj, htys']
    have : ∀ d, evalTy lib tys (d + 1) (.path ["T"] []) = t := by intro d; rw [evalTy, htys]
    rw [evalTy, show lib.depth = (lib.depth - 1) + 1 from rfl, this]
  have hA : ∀ s : State S, pathVal cx (.proj (.path ["T"] []) (.path ["AsStd430"] []) ["Output", "ALIGNMENT"]) s =
      (.val (.word (BitVec.ofNat S.bits align)), s) := by
    intro s
    rw [pathVal, hp, hT, hc.align cx n s hp hrun]
  have hcall := call_alignOffset cx lib (n + 1) hrun
  cases h1 : alignOffsetU (mode S) o (BitVec.ofNat S.bits align) with
  | none => simp [rust, call, hp, hT, hc.size, hA, hcall, h1, sizerAdd, sizerVal]
  | some p =>
    cases h2 : uadd (mode S) o p with
    | none => simp [rust, call, hp, hT, hc.size, hA, hcall, h1, h2, sizerAdd, sizerVal, setField]
    | some o1 =>
      cases h3 : uadd (mode S) o1 (BitVec.ofNat S.bits size) <;>
        simp [rust, call, hp, hT, hc.size, hA, hcall, h1, h2, h3, sizerAdd, sizerVal, setField]

/-! ### As client code -/

section Client
variable {S : Setting} (K : Kind S)

/-- How a method of the Writer ends for the client. -/
theorem finish_apply (o : Option (Except (Option S.Err) (BitVec S.bits))) (s : State S) :
    finish o s = (writeRes o, s) := by
  match o with
  | some (.ok o) => rfl
  | some (.error (some e)) => rfl
  | some (.error none) => rfl
  | none => rfl

/-- `w.write(&x)`. -/
theorem exec_write (v : Val S) (hv : ∀ t, v.coerce t = v) (k m : Nat)
    (f : ∀ K : Kind S, WriterU S.bits K.σ → Option (Except (Option S.Err) (BitVec S.bits)) × WriterU S.bits K.σ)
    (hw : Writes k v f) (u : WriterU S.bits K.σ) (world : S.World) :
    exec lib [] (m + k + 1) (.method (.var "w") "write" [.ref false (.var "x")])
        [("w", writerVal K u), ("x", v)] world =
      (writeRes (f K u).1, { env := [("w", writerVal K (f K u).2), ("x", v)], world := world }) := by
  rw [exec]
  simp [rust, method_write { prog := lib, tys := [], fuel := m + k + 1, run := runFn lib (m + k + 1) } rfl k m rfl K u v hv f
    hw, finish_apply]

/-- `w.write_iter(it)` for the iterator of a list or slice. -/
theorem exec_writeIter (xs : List (Arg S.Conv S.Std)) (m : Nat) (u : WriterU S.bits K.σ) (world : S.World) :
    exec lib [] (m + (Arg.depths xs + 5) + 1) (.method (.var "w") "write_iter" [.var "it"])
        [("w", writerVal K u), ("it", .iter (xs.map .arg))] world =
      (writeRes (writeArg K.k u (.slice xs)).1,
        { env := [("w", writerVal K (writeArg K.k u (.slice xs)).2), ("it", .iter (xs.map .arg))], world := world }) := by
  rw [exec]
  simp [rust, method_writeIter { prog := lib, tys := [], fuel := m + (Arg.depths xs + 5) + 1, run := runFn lib (m + (Arg.depths xs + 5) + 1) } rfl
    (Arg.depths xs + 5) m rfl K u xs (fun x hx => writes_arg _ x (Arg.depth_mem hx)), finish_apply]

/-- `w.write_iter(it)` for an iterator of the client. -/
theorem exec_writeNext (d m : Nat) (hx : ∀ w x w', S.next w = (.returns (some x), w') → x.depth ≤ d)
    (u : WriterU S.bits K.σ) (world : S.World) :
    match writeNext K.k (m + (d + 5)) u world with
    | some (res, u', world') =>
      exec lib [] (m + (d + 5) + 1) (.method (.var "w") "write_iter" [.var "it"])
          [("w", writerVal K u), ("it", .clientIter)] world =
        (writeRes res, { env := [("w", writerVal K u'), ("it", .clientIter)], world := world' })
    | none => ∃ s, exec lib [] (m + (d + 5) + 1) (.method (.var "w") "write_iter" [.var "it"])
          [("w", writerVal K u), ("it", .clientIter)] world = (.timeout, s) := by
  have h := method_writeNext { prog := lib, tys := [], fuel := m + (d + 5) + 1, run := runFn lib (m + (d + 5) + 1) } rfl
    (d + 5) m rfl K u (fun w x w' h => writes_arg d x (hx w x w' h)) (.var "w") (.var "it")
    { env := [("w", writerVal K u), ("it", .clientIter)], world := world }
  rcases hn : writeNext K.k (m + (d + 5)) u world with _ | ⟨res, u', world'⟩ <;> simp only [hn] at h ⊢
  · obtain ⟨s, h⟩ := h
    refine ⟨s, ?_⟩
    rw [exec]
    simp [rust, h]
  · rw [exec]
    simp [rust, h, finish_apply]

/-- `w.len()`. -/
theorem exec_len (m : Nat) (u : WriterU S.bits K.σ) (world : S.World) :
    exec lib [] (m + 1) (.method (.var "w") "len" []) [("w", writerVal K u)] world =
      (.val (.word u.offset), { env := [("w", writerVal K u)], world := world }) := by
  rw [exec]
  simp [rust, method_len { prog := lib, tys := [], fuel := m + 1, run := runFn lib (m + 1) } rfl m rfl K u]

/-- `Writer::new(s)`. -/
theorem exec_new (m : Nat) (x : K.σ) (world : S.World) :
    exec lib [] (m + 1) (.call (.path (.path ["Writer", "new"] [])) [.var "s"]) [("s", K.inj x)] world =
      (.val (writerVal K (WriterU.new S.bits x)), { env := [("s", K.inj x)], world := world }) := by
  rw [exec]
  simp [rust, call_new { prog := lib, tys := [], fuel := m + 1, run := runFn lib (m + 1) } rfl rfl m rfl K x]

/-- `x.std430_size()`. -/
theorem exec_size (m : Nat) (x : Arg S.Conv S.Std) (world : S.World) :
    exec lib [] (m + x.depth + 7) (.method (.var "x") "std430_size" []) [("x", .arg x)] world =
      (wordRes (sizeArg x), { env := [("x", .arg x)], world := world }) := by
  rw [exec]
  simp [rust, method_size { prog := lib, tys := [], fuel := m + x.depth + 7, run := runFn lib (m + x.depth + 7) } rfl m x rfl]

/-- `T::std430_size_static()`. -/
theorem exec_sizeStatic (m : Nat) (t : S.ConvTy) (env : Env S) (world : S.World) :
    exec lib [("T", .conv t)] (m + 1) (.call (.path (.path ["T", "std430_size_static"] [])) []) env world =
      (.val (.word (BitVec.ofNat _ (S.size (S.outTy t)))), { env := env, world := world }) := by
  have hcall : ∀ cx : Ctx S, call cx (.path (.path ["T", "std430_size_static"] [])) [] [] =
      callAssoc cx (evalTy cx.prog cx.tys (cx.prog.depth + 1) (.path ["T"] [])) "std430_size_static" [] [] := by
    intro cx; rfl
  have ht : evalTy lib [("T", (.conv t : RtTy S))] (lib.depth + 1) (.path ["T"] []) = .conv t := rfl
  rw [exec]
  simp only [eval, evalList, bind_apply, pure_apply, hcall, ht]
  exact call_sizeStatic _ rfl m rfl _ _ [] _ _ (by rfl) (fun tys => by rfl) (converts_conv t) _

/-- `x.as_bytes()`. -/
theorem exec_asBytes (m : Nat) (d : S.Std) (world : S.World) :
    exec lib [] (m + 1) (.method (.var "x") "as_bytes" []) [("x", .arg (.std d))] world =
      (.val (.bytes (S.bytes d)), { env := [("x", .arg (.std d))], world := world }) := by
  rw [exec]
  have h := method_asBytes { prog := lib, tys := [], fuel := m + 1, run := runFn lib (m + 1) } rfl m rfl _ _ _
    (isStd_std d) (by rfl) (.var "x")
  simp [rust, h, viewStd]

/-- The provided `std430_size`. -/
theorem exec_provided (m : Nat) (x : Arg S.Conv S.Std) (world : S.World) :
    execProvided lib "WriteStd430" "std430_size" (m + x.depth + 7) (.arg x) world =
      (wordRes (sizeArg (.slice [x])), { env := [("self", .arg x)], world := world }) := by
  have hf : providedFn lib.items "WriteStd430" "std430_size" = some Parsed.std430Traits9_std430_size := rfl
  rw [execProvided, hf]
  have hr := run_size (x.depth + 5) m (.arg x : Val S) [] rfl _ (writes_arg _ x (Nat.le_refl _)) world
  have hn : m + x.depth + 7 = m + (x.depth + 5 + 1) + 1 := by omega
  rw [hn]
  refine hr.trans ?_
  rw [sizeArg]
  change _ = (wordRes (match writeArg (Kind.null S).k (WriterU.new S.bits []) (.slice [x]) with
    | (some (.ok _), u) => some u.offset
    | (_, _) => none), _)
  simp only [writeArg, writeArgs]
  rcases h : writeArg (Kind.null S).k (WriterU.new S.bits []) x with ⟨(_ | (_ | e) | o), u⟩ <;> rfl

/-- `x.as_std430()` for a type that implements `Std430`. -/
theorem exec_asStd (m : Nat) (d : S.Std) (world : S.World) :
    exec lib [] (m + 1) (.method (.var "x") "as_std430" []) [("x", .arg (.std d))] world =
      (.val (.arg (.std d)), { env := [("x", .arg (.std d))], world := world }) := by
  rw [exec]
  have h := call_as_std { prog := lib, tys := [], fuel := m + 1, run := runFn lib (m + 1) } m rfl
    [("Self", .std (S.stdTy d)), ("T", .std (S.stdTy d))] (.var "x") (.arg (.std d)) (fun _ => rfl)
  simp [rust, callMethod, typeOf, find_as_std, h]

/-- `T::from_std430(x)` for such a type. -/
theorem exec_fromStd (m : Nat) (t : S.StdTy) (d : S.Std) (world : S.World) :
    exec lib [("T", .std t)] (m + 1) (.call (.path (.path ["T", "from_std430"] [])) [.var "x"]) [("x", .arg (.std d))] world =
      (.val (.arg (.std d)), { env := [("x", .arg (.std d))], world := world }) := by
  have hcall : ∀ (cx : Ctx S) (as : List Expr) (vs : List (Val S)), call cx (.path (.path ["T", "from_std430"] [])) as vs =
      callAssoc cx (evalTy cx.prog cx.tys (cx.prog.depth + 1) (.path ["T"] [])) "from_std430" as vs := by
    intro cx as vs; rfl
  have ht : evalTy lib [("T", (.std t : RtTy S))] (lib.depth + 1) (.path ["T"] []) = .std t := rfl
  have hf : findMethod lib (.std t : RtTy S) "from_std430" = some (Parsed.std430Traits6_from_std430, [("T", .std t)]) := by
    rfl
  rw [exec]
  simp only [eval, evalList, bind_apply, pure_apply, hcall, ht, callAssoc, hf]
  simp [rust, callFn, runFn, Parsed.std430Traits6_from_std430, Val.coerce]

/-- `Sizer::new()`. -/
theorem exec_sizerNew (m : Nat) (env : Env S) (world : S.World) :
    exec lib [] (m + 1) (.call (.path (.path ["Sizer", "new"] [])) []) env world =
      (.val (sizerVal 0), { env := env, world := world }) := by
  have hcall : ∀ cx : Ctx S, call cx (.path (.path ["Sizer", "new"] [])) [] [] =
      callAssoc cx (evalTy cx.prog cx.tys (cx.prog.depth + 1) (.path ["Sizer"] [])) "new" [] [] := by
    intro cx; rfl
  have ht : evalTy (S := S) lib [] (lib.depth + 1) (.path ["Sizer"] []) = .named "Sizer" [] := rfl
  have h1 : findMethod (S := S) lib (.named "Sizer" []) "new" = some (Parsed.std430Sizer4_new, []) := by rfl
  have h3 : structVal (S := S) lib.items "Sizer" ["offset"] [.lit 0] = M.pure (sizerVal 0) := by rfl
  rw [exec]
  simp only [eval, evalList, bind_apply, pure_apply, hcall, ht, callAssoc, h1]
  unfold callFn
  simp [rust, runFn, Parsed.std430Sizer4_new, structName, h3]
  rfl

theorem typeOf_sizer (o : BitVec S.bits) : typeOf lib.items (sizerVal o) = .named "Sizer" [] := by
  rw [sizerVal, typeOf]; rfl

/-- `z.len()`. -/
theorem exec_sizerLen (m : Nat) (o : BitVec S.bits) (world : S.World) :
    exec lib [] (m + 1) (.method (.var "z") "len" []) [("z", sizerVal o)] world =
      (.val (.word o), { env := [("z", sizerVal o)], world := world }) := by
  have h1 : findMethod (S := S) lib (.named "Sizer" []) "len" = some (Parsed.std430Sizer4_len, []) := by rfl
  rw [exec]
  have h : ∀ cx : Ctx S, cx.prog = lib → cx.run = runFn lib (m + 1) → ∀ s : State S, callMethod cx (.var "z") (sizerVal o) "len" [] [] s =
      (.val (.word o), s) := by
    intro cx hp hrun s
    obtain ⟨env, world⟩ := s
    simp only [callMethod, hp, typeOf_sizer, h1]
    unfold callFn
    simp [hrun, rust, runFn, Parsed.std430Sizer4_len, sizerVal]
  simp [rust, h]

/-- `z.add::<T>()`. -/
theorem exec_sizerAdd (m : Nat) (t out : RtTy S) (size align : Nat) (hc : Converts t out size align)
    (o : BitVec S.bits) (world : S.World) :
    execMethod lib (m + 3) [t] "z" "add" [("z", sizerVal o)] world =
      (wordRes (sizerAdd (mode S) o size align).1,
        { env := [("z", sizerVal (sizerAdd (mode S) o size align).2)], world := world }) := by
  have h1 : findMethod (S := S) lib (.named "Sizer" []) "add" = some (Parsed.std430Sizer4_add, []) := by rfl
  have hr := run_add m t out size align hc [("Self", .named "Sizer" []), ("T", t)] rfl o world
  unfold execMethod
  simp [rust, typeOf_sizer, h1]
  unfold callFn
  simp only [Parsed.std430Sizer4_add] at hr ⊢
  simp [rust, typeArg, hr]
  rcases sizerAdd (mode S) o size align with ⟨_ | r, o'⟩ <;> simp [rust, outs, copyBack]

end Client

end RustCode.L430
