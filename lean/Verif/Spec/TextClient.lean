import Verif.Spec.RustRun
import Verif.Model.Usize
import Verif.Spec.Unwind
import Verif.Model.Iter
import Verif.Model.Text
/-
Specification: client code that calls the library as program text, and what its values and results are in terms of the
models of the Writer and the Sizer.
-/
namespace RustCode
open Crevice

/-! ### Running -/

/-- The expression ends with the result `r`, these variables and this state of the client's iterator, however large
the step bound is, from some bound on. -/
def Runs {S : Setting} (p : Program) (e : Expr) (env : Env S) (world : S.World) (r : Res S (Val S)) (env' : Env S)
    (world' : S.World) : Prop :=
  ∃ n₀, ∀ n, n₀ ≤ n → exec p [] n e env world = (r, { env := env', world := world' })

/-- A `Writer` as a value. -/
def writer {S : Setting} (s : S.Sink) (offset : BitVec S.bits) : Val S :=
  .struct "Writer" [("writer", .sink s), ("offset", .word offset)]

/-- A `Sizer` as a value. -/
def sizer {S : Setting} (offset : BitVec S.bits) : Val S := .struct "Sizer" [("offset", .word offset)]

/-- `w.write(&x)`. -/
def callWrite : Expr := .method (.var "w") "write" [.ref false (.var "x")]

/-- `w.write_iter(it)`. -/
def callWriteIter : Expr := .method (.var "w") "write_iter" [.var "it"]

/-- `x.stdN_size()`. -/
def callSize (l : Layout) : Expr :=
  .method (.var "x") (match l with | .std140 => "std140_size" | .std430 => "std430_size") []

/-- `T::stdN_size_static()`. -/
def callSizeStatic (l : Layout) : Expr :=
  .call (.path (.path ["T", match l with | .std140 => "std140_size_static" | .std430 => "std430_size_static"] [])) []

/-- `x.as_stdN()`. -/
def callAs (l : Layout) : Expr :=
  .method (.var "x") (match l with | .std140 => "as_std140" | .std430 => "as_std430") []

/-- `T::from_stdN(x)`. -/
def callFrom (l : Layout) : Expr :=
  .call (.path (.path ["T", match l with | .std140 => "from_std140" | .std430 => "from_std430"] [])) [.var "x"]

/-- A client that writes the values one after the other with the same Writer, catching panics (`catch_unwind`) and going on after them
and after errors. -/
def session {S : Setting} (p : Program) (n : Nat) (world : S.World) : Val S → List (Val S) → List (Res S (Val S)) × Val S
  | w, [] => ([], w)
  | w, x :: xs =>
    match exec p [] n callWrite [("w", w), ("x", x)] world with
    | (r, s) =>
      match session p n world ((s.env.lookup "w").getD .unit) xs with
      | (rs, w) => (r :: rs, w)

/-- The provided method of a trait. -/
def providedFn (items : List Item) (tr name : String) : Option Fn :=
  items.findSome? fun i =>
    match i with
    | .trait n as => if n = tr then assocFn as name else none
    | _ => none

/-- `x.name()` for a type whose implementation of the trait does not override the provided method. -/
def execProvided {S : Setting} (p : Program) (tr name : String) (n : Nat) (x : Val S) (world : S.World) :
    Res S (Val S) × State S :=
  match providedFn p.items tr name with
  | some f => runFn p n f [] { env := [("self", x)], world := world }
  | none => (.stuck, { env := [], world := world })

/-! ### In terms of the models -/

/-- The mode of overflow checks. -/
def mode (S : Setting) : Checks := if S.checked then .on else .off

/-- A machine word, or a panic. -/
def wordRes {S : Setting} : Option (BitVec S.bits) → Res S (Val S)
  | some x => .val (.word x)
  | none => .panic

/-- The sinks of the caller as sinks whose error `none` is a panic. -/
def callerSink (S : Setting) (delivered : S.Sink → List Byte) : Crevice.Sink S.Sink (Option S.Err) :=
  { writeAll := fun s bs =>
      match S.writeAll s bs with
      | (.returns (.ok ()), s) => (.ok (), s)
      | (.returns (.error e), s) => (.error (some e), s)
      | (.panics, s) => (.error none, s)
    delivered := delivered }

/-- The caller's sink as one that may unwind. -/
def callerPSink (S : Setting) (delivered : S.Sink → List Byte) : PSink S.Sink S.Err :=
  { writeAll := fun s bs =>
      match S.writeAll s bs with
      | (.returns r, s) => (.returned r, s)
      | (.panics, s) => (.unwinds, s)
    delivered := delivered }

/-- What the Writer sees of a value of the caller. -/
def viewStd {S : Setting} (d : S.Std) : StdVal :=
  { alignment := S.align (S.stdTy d), size := S.size (S.stdTy d), bytes := S.bytes d }

/-- `DynamicUniform(v)`. -/
def uniformVal {S : Setting} (a : Arg S.Conv S.Std) : Val S := .struct "DynamicUniform" [("0", .arg a)]

/-- `DynamicUniformStd140(d)`. -/
def uniformStdVal {S : Setting} (d : S.Std) : Val S := .struct "DynamicUniformStd140" [("0", .arg (.std d))]

/-- What the Writer sees of it. -/
def viewUniform {S : Setting} (d : S.Std) : StdVal :=
  { alignment := max 256 (S.align (S.stdTy d)), size := S.size (S.stdTy d), bytes := S.bytes d }

mutual
/-- An argument as one of the models: what the Writer sees of the converted values. -/
def viewArg {S : Setting} : Arg S.Conv S.Std → UVal
  | .conv c =>
    match S.convert c with
    | .returns d => .std (viewStd d)
    | .panics => .panics (S.size (S.outTy (S.convTy c)))
  | .std d => .std (viewStd d)
  | .slice xs => .slice (viewArgs xs)
/-- Item by item. -/
def viewArgs {S : Setting} : List (Arg S.Conv S.Std) → List UVal
  | [] => []
  | x :: xs => viewArg x :: viewArgs xs
end

/-- How a method of the Writer ends for the client. -/
def writeRes {S : Setting} : Option (Except (Option S.Err) (BitVec S.bits)) → Res S (Val S)
  | some (.ok o) => .val (.enum "Ok" [.word o])
  | some (.error (some e)) => .val (.enum "Err" [.err e])
  | some (.error none) => .panic
  | none => .panic

/-- How a call ends, as a result of the program. -/
def outcomeRes {S : Setting} : Outcome (Except S.Err Nat) → Res S (Val S)
  | .returned (.ok o) => .val (.enum "Ok" [.word (BitVec.ofNat _ o)])
  | .returned (.error e) => .val (.enum "Err" [.err e])
  | .unwinds => .panic

/-- `w.write(&x)` on machine words, where panics of conversions and of the sink count: `none` and the error `none` are
panics. -/
def writeMachine {S : Setting} (u : WriterU S.bits S.Sink) (v : UVal) :
    Option (Except (Option S.Err) (BitVec S.bits)) × WriterU S.bits S.Sink :=
  match u.write (mode S) (callerSink S fun _ => []) v.written with
  | (some (.ok o), u) => (if v.panicking then none else some (.ok o), u)
  | r => r

/-- `x.stdN_size()` on machine words: a value is not converted; a slice is written to `io::sink()`, so that it panics if
the conversion of one of its items does. `none` is a panic. -/
def sizeMachine (S : Setting) : UVal → Option (BitVec S.bits)
  | .std x => some (BitVec.ofNat _ x.size)
  | .panics n => some (BitVec.ofNat _ n)
  | .slice xs => if (UVal.slice xs).panicking then none else (UVal.slice xs).plain.stdSizeU S.bits (mode S)

/-- The client's iterator as one of the model, for iterators and conversions that do not panic. -/
def clientIter (S : Setting) : Iter S.World :=
  { next := fun w =>
      match S.next w with
      | (.returns (some x), w) => (some (viewArg x).plain, w)
      | (.returns none, w) => (none, w)
      | (.panics, w) => (none, w) }

/-- The client's iterator yields these items, one after the other. -/
inductive TakesArgs (S : Setting) : S.World → List (Arg S.Conv S.Std) → S.World → Prop
  | nil (w : S.World) : TakesArgs S w [] w
  | cons {w w₁ w₂ : S.World} {x : Arg S.Conv S.Std} {xs : List (Arg S.Conv S.Std)}
      (h : S.next w = (.returns (some x), w₁)) (r : TakesArgs S w₁ xs w₂) : TakesArgs S w (x :: xs) w₂

/-- Sizes and alignments of types are below the number of addresses. -/
def Sane (S : Setting) : Prop := ∀ t, S.align t < 2 ^ S.bits ∧ S.size t < 2 ^ S.bits

mutual
/-- How deep slices are nested. -/
def Arg.depth {γ δ : Type} : Arg γ δ → Nat
  | .conv _ => 0
  | .std _ => 0
  | .slice xs => Arg.depths xs + 1
/-- The deepest of the items. -/
def Arg.depths {γ δ : Type} : List (Arg γ δ) → Nat
  | [] => 0
  | x :: xs => max x.depth (Arg.depths xs)
end

/-- What the Writer sees of `DynamicUniform(x)` for a value `x`. -/
def viewDynamic {S : Setting} : Arg S.Conv S.Std → UVal
  | .conv c =>
    match S.convert c with
    | .returns d => .std (viewUniform d)
    | .panics => .panics (S.size (S.outTy (S.convTy c)))
  | .std d => .std (viewUniform d)
  | .slice _ => .panics 0

end RustCode
