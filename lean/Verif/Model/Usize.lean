import Verif.Model.Writer
/-
`usize` arithmetic. The rest of the model computes sizes and offsets in `Nat`; this file models the
same functions with `w`-bit machine words, with and without overflow checks, so that the difference
can be stated and proved (`Props/C33.lean`).
-/
namespace Crevice

/-- rustc's `-C overflow-checks`: on in debug builds, off in release builds. -/
inductive Checks
  | on | off
  deriving DecidableEq, Repr

/-- `a + b` on `usize`; `none` is a panic ("attempt to add with overflow"). -/
def uadd {w : Nat} (m : Checks) (a b : BitVec w) : Option (BitVec w) :=
  match m with
  | .on => if a.toNat + b.toNat < 2 ^ w then some (a + b) else none
  | .off => some (a + b)

/-- `a - b` on `usize`; `none` is a panic ("attempt to subtract with overflow"). -/
def usub {w : Nat} (m : Checks) (a b : BitVec w) : Option (BitVec w) :=
  match m with
  | .on => if b.toNat ≤ a.toNat then some (a - b) else none
  | .off => some (a - b)

/-- `a % b` on `usize`; `none` is a panic ("attempt to calculate the remainder with a divisor of
zero"), which does not depend on overflow checks. -/
def urem {w : Nat} (a b : BitVec w) : Option (BitVec w) :=
  if b = 0 then none else some (a % b)

/-- `src/internal.rs:7-13` `align_offset` on machine words; `||` is lazy. -/
def alignOffsetU {w : Nat} (m : Checks) (offset alignment : BitVec w) : Option (BitVec w) :=
  if alignment = 0 then some 0
  else
    (urem offset alignment).bind fun r =>
      if r = 0 then some 0
      else (urem offset alignment).bind fun r => usub m alignment r

/-- `src/internal.rs:17-23` `max` on machine words. -/
def constMaxU {w : Nat} (a b : BitVec w) : BitVec w :=
  if a > b then a else b

/-- The `while` loop of `src/internal.rs:31-37`, with the loop variables `max` and `i`. `fuel` bounds
the number of iterations (running out of it is `none`, as is a panic). -/
def maxArrLoopU {w : Nat} (m : Checks) (input : List (BitVec w)) :
    Nat → BitVec w → BitVec w → Option (BitVec w)
  | 0, _, _ => none
  | fuel + 1, max, i =>
    if i < BitVec.ofNat w input.length then
      (input[i.toNat]?).bind fun x =>
        (uadd m i 1).bind fun i' => maxArrLoopU m input fuel (if x > max then x else max) i'
    else some max

/-- `src/internal.rs:27-40` `max_arr` on machine words. -/
def maxArrU {w : Nat} (m : Checks) (input : List (BitVec w)) : Option (BitVec w) :=
  maxArrLoopU m input (input.length + 1) 0 0

/-! ### Constants of generated code -/

mutual
/-- Const evaluation of an expression generated by the derive (`layout.rs:40-126`) on machine words,
given the values of the functions it calls. `none` is a panic, i.e. a compile error. -/
def CExpr.evalWithU {w : Nat} (m : Checks) (tg : Target) (call : String → Option (BitVec w)) :
    CExpr Impl → Option (BitVec w)
  | .lit n => some (BitVec.ofNat w n)
  | .sizeOf i => some (BitVec.ofNat w (i.out.size tg))
  | .alignmentOf i => some (BitVec.ofNat w i.alignment)
  | .call f => call f
  | .add a b =>
    (CExpr.evalWithU m tg call a).bind fun x =>
      (CExpr.evalWithU m tg call b).bind fun y => uadd m x y
  | .alignOffset o a =>
    (CExpr.evalWithU m tg call o).bind fun x =>
      (CExpr.evalWithU m tg call a).bind fun y => alignOffsetU m x y
  | .maxArr args => (CExpr.evalArgsU m tg call args).bind fun xs => maxArrU m xs
/-- Elements of an array literal. -/
def CExpr.evalArgsU {w : Nat} (m : Checks) (tg : Target) (call : String → Option (BitVec w)) :
    List (CExpr Impl) → Option (List (BitVec w))
  | [] => some []
  | a :: r =>
    (CExpr.evalWithU m tg call a).bind fun x =>
      (CExpr.evalArgsU m tg call r).map fun xs => x :: xs
end

/-- Call a generated const fn on machine words, with a bound on the call depth (as `evalFn`). -/
def evalFnU {w : Nat} (m : Checks) (tg : Target) (fns : List (String × CExpr Impl)) :
    Nat → String → Option (BitVec w)
  | 0, _ => none
  | depth + 1, f => (fns.lookup f).bind fun body => body.evalWithU m tg (evalFnU m tg fns depth)

/-- Value of a call to a generated padding function (`layout.rs:118-124`). -/
def Generated.callU {w : Nat} (m : Checks) (tg : Target) (g : Generated Impl) (f : String) :
    Option (BitVec w) :=
  evalFnU m tg g.padFns g.padFns.length f

/-! ### Sizer -/

/-- `struct Sizer` (`sizer.rs:48-50`). -/
structure SizerU (w : Nat) where
  offset : BitVec w

/-- `Sizer::new` (`sizer.rs:54-56`). -/
def SizerU.new (w : Nat) : SizerU w := { offset := 0 }

/-- `Sizer::add::<T>` (`sizer.rs:60-74`), where `i` is `T`'s implementation; `none` is a panic. -/
def SizerU.add {w : Nat} (m : Checks) (tg : Target) (s : SizerU w) (i : Impl) :
    Option (BitVec w × SizerU w) :=
  let size := BitVec.ofNat w (i.out.size tg)
  let alignment := BitVec.ofNat w i.alignment
  (alignOffsetU m s.offset alignment).bind fun padding =>
    (uadd m s.offset padding).bind fun offset =>
      let writeHere := offset
      (uadd m offset size).map fun offset => (writeHere, { offset := offset })

/-- A client program: add the types one after the other; `none` if one of them panics. -/
def SizerU.addAll {w : Nat} (m : Checks) (tg : Target) (s : SizerU w) :
    List Impl → Option (List (BitVec w) × SizerU w)
  | [] => some ([], s)
  | i :: is =>
    (s.add m tg i).bind fun (o, s) =>
      (SizerU.addAll m tg s is).map fun (os, s) => (o :: os, s)

/-! ### Writer -/

/-- `struct Writer<W>` (`writer.rs:78-81`). -/
structure WriterU (w : Nat) (σ : Type) where
  sink : σ
  offset : BitVec w

/-- `Writer::new` (`writer.rs:86-88`). -/
def WriterU.new (w : Nat) {σ : Type} (sink : σ) : WriterU w σ := { sink := sink, offset := 0 }

/-- `Writer::write_stdN` (`writer.rs:126-144`). The first component is `none` if the call panics;
the second is the Writer afterwards, also in that case. -/
def WriterU.writeStd {w : Nat} {σ ε : Type} (m : Checks) (k : Sink σ ε) (u : WriterU w σ)
    (v : StdVal) : Option (Except ε (BitVec w)) × WriterU w σ :=
  match alignOffsetU m u.offset (BitVec.ofNat w v.alignment) with
  | none => (none, u)
  | some padding =>
    match writeZeros k padding.toNat u.sink with
    | (.error e, s) => (some (.error e), { u with sink := s })
    | (.ok (), s) =>
      match uadd m u.offset padding with
      | none => (none, { u with sink := s })
      | some o =>
        match k.writeAll s v.bytes with
        | (.error e, s) => (some (.error e), { sink := s, offset := o })
        | (.ok (), s) =>
          match uadd m o (BitVec.ofNat w v.size) with
          | none => (none, { sink := s, offset := o })
          | some o' => (some (.ok o), { sink := s, offset := o' })

mutual
/-- `Writer::write` (`writer.rs:94-99`), i.e. `value.write_stdN(self)`, for both kinds of values
(`traits.rs:132-139,146-165`). -/
def WriterU.write {w : Nat} {σ ε : Type} (m : Checks) (k : Sink σ ε) (u : WriterU w σ) :
    WVal → Option (Except ε (BitVec w)) × WriterU w σ
  | .std x => u.writeStd m k x
  | .slice [] => (some (.ok u.offset), u)
  | .slice (x :: xs) =>
    match WriterU.write m k u x with
    | (none, u) => (none, u)
    | (some (.error e), u) => (some (.error e), u)
    | (some (.ok offset), u) =>
      match WriterU.writeRest m k u xs with
      | (none, u) => (none, u)
      | (some (.error e), u) => (some (.error e), u)
      | (some (.ok ()), u) => (some (.ok offset), u)
/-- `for item in iter { item.write_stdN(writer)?; }` (`traits.rs:160-162`). -/
def WriterU.writeRest {w : Nat} {σ ε : Type} (m : Checks) (k : Sink σ ε) (u : WriterU w σ) :
    List WVal → Option (Except ε Unit) × WriterU w σ
  | [] => (some (.ok ()), u)
  | x :: xs =>
    match WriterU.write m k u x with
    | (none, u) => (none, u)
    | (some (.error e), u) => (some (.error e), u)
    | (some (.ok _), u) => WriterU.writeRest m k u xs
end

/-- A client program: write the values one after the other, going on after errors; a panic ends
it. -/
def WriterU.history {w : Nat} {σ ε : Type} (m : Checks) (k : Sink σ ε) (u : WriterU w σ) :
    List WVal → Option (List (Except ε (BitVec w))) × WriterU w σ
  | [] => (some [], u)
  | v :: vs =>
    match u.write m k v with
    | (none, u) => (none, u)
    | (some r, u) =>
      match WriterU.history m k u vs with
      | (none, u) => (none, u)
      | (some rs, u) => (some (r :: rs), u)

/-- `WriteStdN::stdN_size` of a value (`traits.rs:137-139`) and of a slice (`traits.rs:167-171`);
`none` is a panic. -/
def WVal.stdSizeU (w : Nat) (m : Checks) : WVal → Option (BitVec w)
  | .std x => some (BitVec.ofNat w x.size)
  | .slice xs =>
    match (WriterU.new w []).write m (nullSink Unit) (.slice xs) with
    | (some (.ok _), u) => some u.offset
    | (some (.error _), _) => none
    | (none, _) => none

end Crevice
