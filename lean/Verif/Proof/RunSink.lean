import Verif.Proof.RunInternal
/-
Writers and their sinks in the interpreter.
-/
namespace RustCode
open Crevice

/-- A kind of sink the Writer can have: how it is a value and what `write_all` does to it (the error `none` is a
panic). -/
structure Kind (S : Setting) where
  σ : Type
  k : Crevice.Sink σ (Option S.Err)
  inj : σ → Val S
  ty : ∀ items x, typeOf items (inj x) = .other
  write : ∀ cx e x b bs s, toBytes b = some bs →
    builtin cx e (inj x) "write_all" [b] s =
      match k.writeAll x bs with
      | (.ok (), x') => ((setPlace e (inj x')).bind fun _ => M.pure (.enum "Ok" [.unit])) s
      | (.error (some r), x') => ((setPlace e (inj x')).bind fun _ => M.pure (.enum "Err" [.err r])) s
      | (.error none, x') => ((setPlace e (inj x')).bind fun _ => M.panic) s
  coerce : ∀ t x, (inj x).coerce t = inj x

/-- A sink of the caller. -/
def Kind.caller (S : Setting) (delivered : S.Sink → List Byte) : Kind S :=
  { σ := S.Sink
    k := callerSink S delivered
    inj := .sink
    ty := fun _ _ => by simp [typeOf]
    write := fun cx e x b bs s h => by
      simp only [builtin, if_true, h, ofOption_some, bind_apply, pure_apply, callerSink]
      rcases hw : S.writeAll x bs with ⟨r, x'⟩
      rcases r with (r | ⟨⟩) | _ <;> rfl
    coerce := fun _ _ => rfl }

/-- `io::sink()`. -/
def Kind.null (S : Setting) : Kind S :=
  { σ := List Byte
    k := nullSink _
    inj := fun _ => .null
    ty := fun _ _ => by simp [typeOf]
    write := fun cx e x b bs s h => by
      simp only [builtin, if_true, h, ofOption_some, bind_apply, pure_apply, nullSink]
    coerce := fun _ _ => rfl }

/-- A Writer as a value. -/
def writerVal {S : Setting} (K : Kind S) (u : WriterU S.bits K.σ) : Val S :=
  .struct "Writer" [("writer", K.inj u.sink), ("offset", .word u.offset)]

/-- How a method of the Writer ends. -/
def finish {S : Setting} : Option (Except (Option S.Err) (BitVec S.bits)) → M S (Val S)
  | some (.ok o) => M.pure (.enum "Ok" [.word o])
  | some (.error (some e)) => M.pure (.enum "Err" [.err e])
  | some (.error none) => M.panic
  | none => M.panic

/-- Assignment to a place ends normally or is outside of the fragment; it does not look at the iterator. -/
theorem setPlace_cases {S : Setting} (e : Expr) (v : Val S) (s : State S) :
    (∃ env, setPlace e v s = (.val (), { s with env := env })) ∨ setPlace e v s = (.stuck, s) := by
  have hget : ∀ (e : Expr) (s : State S), (∃ w, getPlace e s = (.val w, s)) ∨ getPlace e s = (.stuck, s) := by
    intro e s
    induction e using getPlace.induct with
    | case1 x =>
      simp only [rust]
      cases s.env.lookup x <;> simp
    | case2 e f ih =>
      simp only [getPlace, bind_apply]
      rcases ih with ⟨w, hw⟩ | hw
      · rw [hw]
        cases w <;> simp [getField, stuck_apply]
        rename_i fs
        cases fs.lookup f <;> simp [M.ofOption, stuck_apply, pure_apply]
      · rw [hw]; right; rfl
    | case3 e ih => simpa only [getPlace] using ih
    | case4 e ih => simpa only [getPlace] using ih
    | case5 e h1 h2 h3 h4 =>
      right
      unfold getPlace
      split <;> first | rfl | (exfalso; simp_all)
  induction e, v using setPlace.induct (S := S) generalizing s with
  | case1 x v =>
    simp only [rust]
    cases s.env.set x v <;> simp
  | case2 e f v ih =>
    simp only [setPlace, bind_apply]
    rcases hget e s with ⟨w, hw⟩ | hw
    · rw [hw]
      cases w with
      | struct n fs =>
        cases hs : setField fs f v with
        | none => right; simp [M.ofOption, bind_apply, stuck_apply, hs]
        | some fs => simpa [M.ofOption, bind_apply, pure_apply, hs] using ih _ _ s
      | _ => right; rfl
    · rw [hw]; right; rfl
  | case3 e v ih => simpa only [setPlace] using ih s
  | case4 e v ih => simpa only [setPlace] using ih s
  | case5 e v h1 h2 h3 h4 =>
    right
    unfold setPlace
    split <;> first | rfl | (exfalso; simp_all)

theorem Arg.depth_mem {γ δ : Type} {xs : List (Arg γ δ)} {x : Arg γ δ} (h : x ∈ xs) : x.depth ≤ Arg.depths xs := by
  induction xs with
  | nil => cases h
  | cons y xs ih =>
    rw [Arg.depths]
    rcases List.mem_cons.1 h with rfl | h
    · omega
    · have := ih h; omega

mutual
/-- Writing an argument: `WriterU.write` with conversions that may panic. -/
def writeArg {S : Setting} {σ : Type} (k : Crevice.Sink σ (Option S.Err)) (u : WriterU S.bits σ) :
    Arg S.Conv S.Std → Option (Except (Option S.Err) (BitVec S.bits)) × WriterU S.bits σ
  | .conv c =>
    match S.convert c with
    | .returns d => u.writeStd (mode S) k (viewStd d)
    | .panics => (none, u)
  | .std d => u.writeStd (mode S) k (viewStd d)
  | .slice [] => (some (.ok u.offset), u)
  | .slice (x :: xs) =>
    match writeArg k u x with
    | (none, u) => (none, u)
    | (some (.error e), u) => (some (.error e), u)
    | (some (.ok offset), u) =>
      match writeArgs k u xs with
      | (none, u) => (none, u)
      | (some (.error e), u) => (some (.error e), u)
      | (some (.ok ()), u) => (some (.ok offset), u)
/-- The remaining items. -/
def writeArgs {S : Setting} {σ : Type} (k : Crevice.Sink σ (Option S.Err)) (u : WriterU S.bits σ) :
    List (Arg S.Conv S.Std) → Option (Except (Option S.Err) Unit) × WriterU S.bits σ
  | [] => (some (.ok ()), u)
  | x :: xs =>
    match writeArg k u x with
    | (none, u) => (none, u)
    | (some (.error e), u) => (some (.error e), u)
    | (some (.ok _), u) => writeArgs k u xs
end

/-- `for item in iter { item.write_stdN(self)?; }` for the caller's iterator and at most `n` calls of `next`; `none`
when it has not ended by then. -/
def nextArgs {S : Setting} {σ : Type} (k : Crevice.Sink σ (Option S.Err)) : Nat → WriterU S.bits σ → S.World →
    Option (Option (Except (Option S.Err) Unit) × WriterU S.bits σ × S.World)
  | 0, _, _ => none
  | n + 1, u, world =>
    match S.next world with
    | (.panics, world) => some (none, u, world)
    | (.returns none, world) => some (some (.ok ()), u, world)
    | (.returns (some x), world) =>
      match writeArg k u x with
      | (none, u) => some (none, u, world)
      | (some (.error e), u) => some (some (.error e), u, world)
      | (some (.ok _), u) => nextArgs k n u world

/-- `write_iter` of the caller's iterator. -/
def writeNext {S : Setting} {σ : Type} (k : Crevice.Sink σ (Option S.Err)) (n : Nat) (u : WriterU S.bits σ)
    (world : S.World) : Option (Option (Except (Option S.Err) (BitVec S.bits)) × WriterU S.bits σ × S.World) :=
  match S.next world with
  | (.panics, world) => some (none, u, world)
  | (.returns none, world) =>
    (nextArgs k n u world).map fun (r, u', world) => (r.map fun r => r.map fun _ => u.offset, u', world)
  | (.returns (some x), world) =>
    match writeArg k u x with
    | (none, u) => some (none, u, world)
    | (some (.error e), u) => some (some (.error e), u, world)
    | (some (.ok offset), u) =>
      (nextArgs k n u world).map fun (r, u', world) => (r.map fun r => r.map fun _ => offset, u', world)

/-- `Sizer::add`, with the offset afterwards also if it panics. -/
def sizerAdd {w : Nat} (m : Checks) (o : BitVec w) (size align : Nat) : Option (BitVec w) × BitVec w :=
  match alignOffsetU m o (BitVec.ofNat w align) with
  | none => (none, o)
  | some padding =>
    match uadd m o padding with
    | none => (none, o)
    | some o =>
      match uadd m o (BitVec.ofNat w size) with
      | none => (none, o)
      | some o' => (some o, o')

/-- `std140_size`. -/
def sizeArg {S : Setting} : Arg S.Conv S.Std → Option (BitVec S.bits)
  | .conv c => some (BitVec.ofNat _ (S.size (S.outTy (S.convTy c))))
  | .std d => some (BitVec.ofNat _ (S.size (S.stdTy d)))
  | .slice xs =>
    match writeArg (nullSink (Option S.Err)) (WriterU.new S.bits []) (.slice xs) with
    | (some (.ok _), u) => some u.offset
    | (_, _) => none

/-- How a function with this result ends inside its body. -/
inductive Ending {S : Setting} : Option (Except (Option S.Err) (BitVec S.bits)) → Res S (Val S) → Prop
  | ok (o : BitVec S.bits) : Ending (some (.ok o)) (.val (.enum "Ok" [.word o]))
  | err (e : S.Err) : Ending (some (.error (some e))) (.val (.enum "Err" [.err e]))
  | errRet (e : S.Err) : Ending (some (.error (some e))) (.ret (.enum "Err" [.err e]))
  | sinkPanic : Ending (some (.error none)) .panic
  | panic : Ending none .panic

/-- The rest of a call of a method that takes `&mut self`. -/
theorem callFn_self {S : Setting} {cx : Ctx S} {f : Fn} {tys : Tys S} {e : Expr} {v w : Val S} {args : List Expr}
    {vs : List (Val S)} {s : State S} {rest : Env S} {world : S.World} {r : Res S (Val S)}
    {o : Option (Except (Option S.Err) (BitVec S.bits))}
    (hlen : f.params.length = vs.length) (hself : f.receiver = .mutRef) (hout : outs f.params args = [])
    (hrun : cx.run f
      (tys ++ f.generics.types.filterMap fun x => (typeArg cx.prog.items x f.params vs).map fun t => (x, t))
      { env := ("self", v) :: (params f.params vs ++
          f.generics.consts.filterMap fun x => (constArg x f.params vs).map fun v => (x, v)), world := s.world } =
        (r, { env := ("self", w) :: rest, world := world }))
    (hr : Ending o r) :
    callFn cx f tys (some (e, v)) args vs s =
      ((setPlace e w).bind fun _ => finish o) { env := s.env, world := world } := by
  have hne1 : r ≠ .timeout := by cases hr <;> simp
  have hne2 : r ≠ .stuck := by cases hr <;> simp
  unfold callFn
  simp only [hlen, if_true, hself, hout, List.append_nil, List.cons_append, List.nil_append, hrun, copyBack,
    List.lookup, beq_self_eq_true, bind_apply]
  rcases setPlace_cases e w { env := s.env, world := world } with ⟨env, h⟩ | h
  · rw [h]
    cases hr <;> rfl
  · rw [h]

/-- The rest of a call of a method with a parameter `&mut`. -/
theorem callFn_param {S : Setting} {cx : Ctx S} {f : Fn} {tys : Tys S} {e a : Expr} {v u w self : Val S} {x : String}
    {t : Ty} {s : State S} {rest : Env S} {world : S.World} {r : Res S (Val S)}
    {o : Option (Except (Option S.Err) (BitVec S.bits))}
    (hps : f.params = [(x, .ref true t)]) (hx : x ≠ "self") (hself : f.receiver = .ref)
    (hu : u.coerce (.ref true t) = u)
    (hgs : f.generics.types.filterMap (fun x => (typeArg cx.prog.items x f.params [u]).map fun t => (x, t)) = [])
    (hcs : f.generics.consts = [])
    (hrun : cx.run f tys { env := [("self", v), (x, u)], world := s.world } =
        (r, { env := ("self", self) :: (x, w) :: rest, world := world }))
    (hr : Ending o r) :
    callFn cx f tys (some (e, v)) [a] [u] s =
      ((setPlace a w).bind fun _ => finish o) { env := s.env, world := world } := by
  have hbeq : (x == "self") = false := by simpa using hx
  have hne1 : r ≠ .timeout := by cases hr <;> simp
  have hne2 : r ≠ .stuck := by cases hr <;> simp
  unfold callFn
  rw [hgs]
  simp only [hps, hself, hcs, List.length_cons, List.length_nil, if_true, List.append_nil, List.cons_append, List.nil_append,
    List.filterMap_nil, params, List.zip_cons_cons, List.zip_nil_right, List.map_cons, List.map_nil, hu, hrun, outs,
    List.filterMap_cons, copyBack, List.lookup, beq_self_eq_true, bind_apply, hbeq]
  rcases setPlace_cases a w { env := s.env, world := world } with ⟨env, h⟩ | h
  · rw [h]
    cases hr <;> rfl
  · rw [h]

end RustCode
