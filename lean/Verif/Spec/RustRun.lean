import Verif.Spec.RustCode
import Verif.Basic
/-
Specification: what a Rust program in the fragment of `Spec/RustCode.lean` does (The Rust Reference,
"Statements and expressions"; the documentation of `std::io::Write`, `Iterator`, `Option`, `Result`, `String`,
`core::mem::size_of` and `bytemuck::bytes_of`). Written without reference to crevice.

References. In this fragment references are only passed to functions, never stored in structs or
returned as `&mut`. A shared reference is then as good as the value. A `&mut` argument is copied into the
function and its contents are copied back when the function ends, in whichever way; nobody can
observe the difference, because while the function runs nobody else may look at the place.

Types. Programs are taken to be type-checked. Values carry enough of their type to choose
implementations. An integer literal without suffix takes the type of the other operand of an operator, and is a
`usize` otherwise.

Generic parameters stand for code of the caller (`Setting`), which may also panic.
-/
namespace RustCode
open Crevice (Byte)

/-! ### Values -/

/-- How a call of the caller's code ends. -/
inductive Ends (α : Type)
  | returns (a : α)
  | panics

/-- A value the caller hands to generic code: `conv` and `std` are values of two kinds of types of the caller,
where a `conv` can be converted to a `std`; `slice` is a slice of such values. -/
inductive Arg (γ δ : Type)
  | conv (c : γ)
  | std (d : δ)
  | slice (xs : List (Arg γ δ))

/-- What the caller and the machine provide. -/
structure Setting where
  /-- width of `usize` -/
  bits : Nat
  /-- whether arithmetic overflow panics -/
  checked : Bool
  /-- values of a type `W: std::io::Write` -/
  Sink : Type
  /-- `std::io::Error` -/
  Err : Type
  /-- the types of kind `conv`, their values, and likewise for `std` -/
  ConvTy : Type
  Conv : Type
  StdTy : Type
  Std : Type
  convTy : Conv → ConvTy
  stdTy : Std → StdTy
  /-- the state of an iterator over arguments -/
  World : Type
  /-- `Write::write_all` -/
  writeAll : Sink → List Byte → Ends (Except Err Unit) × Sink
  /-- `Iterator::next` -/
  next : World → Ends (Option (Arg Conv Std)) × World
  /-- the associated type, and the conversions in both directions -/
  outTy : ConvTy → StdTy
  convert : Conv → Ends Std
  restore : ConvTy → Std → Ends Conv
  convert_ty : ∀ c d, convert c = .returns d → stdTy d = outTy (convTy c)
  /-- the associated constant `ALIGNMENT` -/
  align : StdTy → Nat
  /-- `size_of` -/
  size : StdTy → Nat
  /-- `bytemuck::bytes_of` -/
  bytes : Std → List Byte

/-- A program, with the names by which it refers to what the caller provides. -/
structure Program where
  items : List Item
  /-- the traits that types of kind `conv` implement -/
  convTraits : List String
  /-- the traits that types of kind `std` implement -/
  stdTraits : List String
  /-- names of the conversions -/
  convertName : String
  restoreName : String

/-- Values. -/
inductive Val (S : Setting)
  | unit
  | bool (b : Bool)
  /-- integer literal whose type is not yet known -/
  | lit (n : Nat)
  /-- `usize` -/
  | word (x : BitVec S.bits)
  | u32 (x : BitVec 32)
  | str (s : String)
  | chr (c : Char)
  /-- `&[u8]` -/
  | bytes (bs : List Byte)
  /-- array -/
  | seq (vs : List (Val S))
  | struct (name : String) (fields : List (String × Val S))
  /-- `Some(v)`, `None`, `Ok(v)`, `Err(v)` -/
  | enum (c : String) (vs : List (Val S))
  | err (e : S.Err)
  | range (a b : BitVec S.bits)
  /-- iterator over a slice or array -/
  | iter (vs : List (Val S))
  /-- the caller's iterator -/
  | clientIter
  | sink (s : S.Sink)
  /-- `std::io::sink()` -/
  | null
  | arg (a : Arg S.Conv S.Std)

/-- Local variables, innermost first. -/
abbrev Env (S : Setting) := List (String × Val S)

/-- Types at run time. -/
inductive RtTy (S : Setting)
  | conv (t : S.ConvTy)
  | std (t : S.StdTy)
  | slice
  | named (name : String) (args : List (RtTy S))
  | other

/-- Bindings of type parameters and `Self`. -/
abbrev Tys (S : Setting) := List (String × RtTy S)

/-- How an expression ends: with a value, a `return` (from `?`), a panic; `timeout` when the step bound is too
small, `stuck` for programs outside of the fragment. -/
inductive Res (S : Setting) (α : Type)
  | val (a : α)
  | ret (v : Val S)
  | panic
  | timeout
  | stuck

/-- Local variables and the state of the caller's iterator. -/
structure State (S : Setting) where
  env : Env S
  world : S.World

/-- Computations. -/
abbrev M (S : Setting) (α : Type) := State S → Res S α × State S

/-- Sequence. -/
def M.bind {S : Setting} {α β : Type} (p : M S α) (f : α → M S β) : M S β := fun s =>
  match p s with
  | (.val a, s) => f a s
  | (.ret v, s) => (.ret v, s)
  | (.panic, s) => (.panic, s)
  | (.timeout, s) => (.timeout, s)
  | (.stuck, s) => (.stuck, s)

/-- A value. -/
def M.pure {S : Setting} {α : Type} (a : α) : M S α := fun s => (.val a, s)

instance (S : Setting) : Monad (M S) where
  pure := M.pure
  bind := M.bind

/-- A panic. -/
def M.panic {S : Setting} {α : Type} : M S α := fun s => (.panic, s)

/-- Outside of the fragment. -/
def M.stuck {S : Setting} {α : Type} : M S α := fun s => (.stuck, s)

/-- Early return. -/
def M.ret {S : Setting} {α : Type} (v : Val S) : M S α := fun s => (.ret v, s)

/-- A value, or outside of the fragment. -/
def M.ofOption {S : Setting} {α : Type} : Option α → M S α
  | some a => M.pure a
  | none => M.stuck

/-! ### Variables and places -/

/-- Change the innermost variable of that name. -/
def Env.set {S : Setting} : Env S → String → Val S → Option (Env S)
  | [], _, _ => none
  | (y, u) :: r, x, v => if y = x then some ((y, v) :: r) else (Env.set r x v).map fun r => (y, u) :: r

/-- Change a field. -/
def setField {S : Setting} : List (String × Val S) → String → Val S → Option (List (String × Val S)) := Env.set

/-- The value of a variable. -/
def getVar {S : Setting} (x : String) : M S (Val S) := fun s =>
  match s.env.lookup x with
  | some v => (.val v, s)
  | none => (.stuck, s)

/-- Assign to a variable. -/
def setVar {S : Setting} (x : String) (v : Val S) : M S Unit := fun s =>
  match s.env.set x v with
  | some env => (.val (), { s with env := env })
  | none => (.stuck, s)

/-- A field of a struct. -/
def getField {S : Setting} (f : String) : Val S → M S (Val S)
  | .struct _ fs => M.ofOption (fs.lookup f)
  | _ => M.stuck

/-- The value of a place: a variable, or a field of a place. -/
def getPlace {S : Setting} : Expr → M S (Val S)
  | .var x => getVar x
  | .field e f => (getPlace e).bind (getField f)
  | .deref e => getPlace e
  | .ref true e => getPlace e
  | _ => M.stuck

/-- Assign to a place. -/
def setPlace {S : Setting} : Expr → Val S → M S Unit
  | .var x, v => setVar x v
  | .field e f, v => (getPlace e).bind fun w =>
    match w with
    | .struct n fs => (M.ofOption (setField fs f v)).bind fun fs => setPlace e (.struct n fs)
    | _ => M.stuck
  | .deref e, v => setPlace e v
  | .ref true e, v => setPlace e v
  | _, _ => M.stuck

/-- Whether an expression is a place. -/
def Expr.isPlace : Expr → Bool
  | .var _ => true
  | .field e _ => e.isPlace
  | .deref e => e.isPlace
  | .ref true e => e.isPlace
  | _ => false

/-- Declare a variable. -/
def declare {S : Setting} (x : String) (v : Val S) : M S Unit := fun s =>
  (.val (), { s with env := (x, v) :: s.env })

/-- Variables declared inside go out of scope. -/
def inScope {S : Setting} {α : Type} (p : M S α) : M S α := fun s =>
  match p s with
  | (r, s') => (r, { s' with env := s'.env.drop (s'.env.length - s.env.length) })

/-! ### Operators -/

/-- Give a literal the type that is written in its place. -/
def Val.coerce {S : Setting} (t : Ty) : Val S → Val S
  | .lit n =>
    match t with
    | .path ["u32"] [] => .u32 (BitVec.ofNat 32 n)
    | _ => .word (BitVec.ofNat S.bits n)
  | v => v

/-- `+`, `-`, `*`, `/`, `%` on unsigned integers; `none` is a panic. -/
def arith {w : Nat} (checked : Bool) : BinOp → BitVec w → BitVec w → Option (BitVec w)
  | .add, a, b => if checked = true ∧ 2 ^ w ≤ a.toNat + b.toNat then none else some (a + b)
  | .sub, a, b => if checked = true ∧ a.toNat < b.toNat then none else some (a - b)
  | .mul, a, b => if checked = true ∧ 2 ^ w ≤ a.toNat * b.toNat then none else some (a * b)
  | .div, a, b => if b = 0 then none else some (a / b)
  | .rem, a, b => if b = 0 then none else some (a % b)
  | _, _, _ => none

/-- Comparisons. -/
def compare? {w : Nat} : BinOp → BitVec w → BitVec w → Option Bool
  | .eq, a, b => some (decide (a = b))
  | .ne, a, b => some (decide (a ≠ b))
  | .lt, a, b => some (decide (a < b))
  | .gt, a, b => some (decide (a > b))
  | _, _, _ => none

/-- Operators on two integers of the same type. -/
def intOp {S : Setting} {w : Nat} (mk : BitVec w → Val S) (o : BinOp) (a b : BitVec w) : M S (Val S) :=
  match compare? o a b with
  | some c => M.pure (.bool c)
  | none =>
    match arith S.checked o a b with
    | some x => M.pure (mk x)
    | none => M.panic

/-- Binary operators other than `&&` and `||`. -/
def binOpVal {S : Setting} (o : BinOp) : Val S → Val S → M S (Val S)
  | .word a, .word b => intOp .word o a b
  | .word a, .lit n => intOp .word o a (BitVec.ofNat _ n)
  | .lit n, .word b => intOp .word o (BitVec.ofNat _ n) b
  | .lit n, .lit m => intOp .word o (BitVec.ofNat _ n) (BitVec.ofNat _ m)
  | .u32 a, .u32 b => intOp .u32 o a b
  | .u32 a, .lit n => intOp .u32 o a (BitVec.ofNat _ n)
  | _, _ => M.stuck

/-! ### Types and implementations -/

/-- The last name of a path. -/
def Ty.last : Ty → String
  | .path ns _ => ns.getLast?.getD ""
  | _ => ""

/-- The struct definition of that name: attributes, parameters and fields. -/
def findStruct (items : List Item) (name : String) : Option (List (List Tok) × List String × List (String × Ty)) :=
  items.findSome? fun i =>
    match i with
    | .struct as n gs fs => if n = name then some (as, gs.types, fs) else none
    | _ => none

/-- Whether a type is the given parameter. -/
def Ty.isParam : Ty → String → Bool
  | .path [x] [], y => decide (x = y)
  | _, _ => false

mutual
/-- The type of a value. A type parameter of a struct is the type of the first field that is declared with it. -/
def typeOf {S : Setting} (items : List Item) : Val S → RtTy S
  | .arg (.conv c) => .conv (S.convTy c)
  | .arg (.std d) => .std (S.stdTy d)
  | .arg (.slice _) => .slice
  | .struct n fs =>
    let ts := typesOf items fs
    match findStruct items n with
    | some (_, gs, decl) =>
      .named n (gs.map fun g =>
        ((decl.find? fun d => d.2.isParam g).bind fun d => ts.lookup d.1).getD .other)
    | none => .named n []
  | .bool _ => .named "bool" []
  | .u32 _ => .named "u32" []
  | _ => .other
/-- The types of fields. -/
def typesOf {S : Setting} (items : List Item) : List (String × Val S) → List (String × RtTy S)
  | [] => []
  | (f, v) :: r => (f, typeOf items v) :: typesOf items r
end

/-- Whether `impl<gs> .. for self` covers the type, and with what parameters; `sat` decides bounds. -/
def covers {S : Setting} (sat : RtTy S → String → Bool) (gs : Generics) (self : Ty) (t : RtTy S) :
    Option (Tys S) :=
  match self with
  | .path [x] args =>
    if x ∈ gs.types then
      if gs.bounds.all fun b => !b.1.isParam x || b.2.all fun tr => sat t tr.last then some [(x, t)] else none
    else
      match t with
      | .named n ts =>
        if n = x ∧ args.length = ts.length then some ((args.map Ty.last).zip ts) else none
      | _ => none
  | .slice _ =>
    match t with
    | .slice => some []
    | _ => none
  | _ => none

/-- Whether a type implements a trait: the caller says so, or the program has an `impl`; `n` bounds the number of
steps through `where` clauses. -/
def implements {S : Setting} (p : Program) : Nat → RtTy S → String → Bool
  | 0, _, _ => false
  | n + 1, t, tr =>
    (match t with
      | .conv .. => p.convTraits.contains tr
      | .std .. => p.stdTraits.contains tr
      | _ => false) ||
    p.items.any fun i =>
      match i with
      | .impl gs via self _ =>
        decide (via.last = tr) && (covers (implements p n) gs self t).isSome
      | _ => false

/-- The bound on steps through `where` clauses and associated types. -/
def Program.depth (p : Program) : Nat := p.items.length

/-- The `impl`s that cover a type, with the trait, the parameters and the items. -/
def implsOf {S : Setting} (p : Program) (t : RtTy S) : List (Ty × Tys S × List Assoc) :=
  p.items.filterMap fun i =>
    match i with
    | .impl gs via self items =>
      (covers (implements p p.depth) gs self t).map fun ts => (via, ts, items)
    | _ => none

/-- A function among associated items. -/
def assocFn (items : List Assoc) (name : String) : Option Fn :=
  items.findSome? fun a =>
    match a with
    | .fn f => if f.name = name ∧ f.body.isSome then some f else none
    | _ => none

/-- A type among associated items. -/
def assocType (items : List Assoc) (name : String) : Option Ty :=
  items.findSome? fun a =>
    match a with
    | .type n (some t) => if n = name then some t else none
    | _ => none

/-- A constant among associated items. -/
def assocConst (items : List Assoc) (name : String) : Option Expr :=
  items.findSome? fun a =>
    match a with
    | .const n _ (some e) => if n = name then some e else none
    | _ => none

/-- Whether an `impl` is of no trait. -/
def Ty.isInherent : Ty → Bool
  | .unit => true
  | _ => false

/-- A method or associated function of a type, with the parameters of its `impl`: inherent ones first, then those of
traits, then provided ones of the traits the type implements. -/
def findMethod {S : Setting} (p : Program) (t : RtTy S) (name : String) : Option (Fn × Tys S) :=
  let impls := implsOf p t
  let pick := fun (i : Ty × Tys S × List Assoc) => (assocFn i.2.2 name).map fun f => (f, i.2.1)
  match (impls.filter fun i => i.1.isInherent).findSome? pick with
  | some r => some r
  | none =>
    match (impls.filter fun i => !i.1.isInherent).findSome? pick with
    | some r => some r
    | none =>
      p.items.findSome? fun i =>
        match i with
        | .trait tr items =>
          if implements p p.depth t tr then (assocFn items name).map fun f => (f, []) else none
        | _ => none

mutual
/-- The type an expression for a type stands for; the bound is on the number of steps. -/
def evalTy {S : Setting} (p : Program) (tys : Tys S) : Nat → Ty → RtTy S
  | 0, _ => .other
  | n + 1, .path [x] args =>
    match tys.lookup x with
    | some t => t
    | none => .named x (args.map (evalTy p tys n))
  | n + 1, .path ["Self", a] [] => projectTy p n ((tys.lookup "Self").getD .other) a
  | n + 1, .proj t _ [a] => projectTy p n (evalTy p tys n t) a
  | _, _ => .other
/-- `<T as Trait>::Name`. The caller's types of kind `conv` have one associated type. -/
def projectTy {S : Setting} (p : Program) : Nat → RtTy S → String → RtTy S
  | 0, _, _ => .other
  | _ + 1, .conv t, _ => .std (S.outTy t)
  | n + 1, t, a =>
    match (implsOf p t).findSome? fun i => (assocType i.2.2 a).map fun ty => (ty, i.2.1) with
    | some (ty, tys) => evalTy p (("Self", t) :: tys) n ty
    | none => .other
end

/-- Whether a struct has the layout of its only field. -/
def isTransparent (attrs : List (List Tok)) : Bool :=
  attrs.contains [.id "repr", .op .lparen, .id "transparent", .op .rparen]

/-- `size_of`, for the caller's types and for transparent structs around them. -/
def sizeOfTy {S : Setting} (items : List Item) : RtTy S → Option Nat
  | .std t => some (S.size t)
  | .named n [.std t] =>
    match findStruct items n with
    | some (as, [g], [(_, ty)]) => if isTransparent as ∧ ty.isParam g then some (S.size t) else none
    | _ => none
  | _ => none

/-- `bytes_of`, likewise. -/
def bytesOfVal {S : Setting} (items : List Item) : Val S → Option (List Byte)
  | .arg (.std d) => some (S.bytes d)
  | .struct n [(_, .arg (.std d))] =>
    match findStruct items n with
    | some (as, _, [_]) => if isTransparent as then some (S.bytes d) else none
    | _ => none
  | _ => none

/-! ### Calls -/

/-- What expressions are evaluated with: the program, the type parameters in scope, a bound on the number of
iterations of a loop, and how functions run. -/
structure Ctx (S : Setting) where
  prog : Program
  tys : Tys S
  fuel : Nat
  run : Fn → Tys S → State S → Res S (Val S) × State S

/-- Parameters taken by `&mut`, with the places of the arguments. -/
def outs (ps : List (String × Ty)) (args : List Expr) : List (String × Expr) :=
  (ps.zip args).filterMap fun (p, a) =>
    match p.2 with
    | .ref true _ => some (p.1, a)
    | _ => none

/-- Copy final values of parameters back. -/
def copyBack {S : Setting} : List (String × Expr) → Env S → M S Unit
  | [], _ => M.pure ()
  | (x, a) :: r, env =>
    match env.lookup x with
    | some v => (setPlace a v).bind fun _ => copyBack r env
    | none => M.stuck

/-- The type that `T` has when it is the declared type of a parameter, possibly behind a reference. -/
def typeArg {S : Setting} (items : List Item) (x : String) (ps : List (String × Ty)) (vs : List (Val S)) :
    Option (RtTy S) :=
  (ps.zip vs).findSome? fun (p, v) =>
    match p.2 with
    | .ref _ t => if t.isParam x then some (typeOf items v) else none
    | t => if t.isParam x then some (typeOf items v) else none

/-- The length that `N` has when a parameter is an `[T; N]`. -/
def constArg {S : Setting} (x : String) (ps : List (String × Ty)) (vs : List (Val S)) : Option (Val S) :=
  (ps.zip vs).findSome? fun (p, v) =>
    match p.2, v with
    | .array _ (.var y), .seq us => if x = y then some (.word (BitVec.ofNat S.bits us.length)) else none
    | _, _ => none

/-- The parameters of a function with their values. -/
def params {S : Setting} (ps : List (String × Ty)) (vs : List (Val S)) : Env S :=
  (ps.zip vs).map fun (p, v) => (p.1, v.coerce p.2)

/-- Call a function: it starts with its parameters, and generic constants, as variables; whether it returns or
panics, `&mut` parameters are copied back. -/
def callFn {S : Setting} (cx : Ctx S) (f : Fn) (tys : Tys S) (self : Option (Expr × Val S)) (args : List Expr)
    (vs : List (Val S)) : M S (Val S) := fun s =>
  if f.params.length = vs.length then
    let selfEnv : Env S := match self with
      | some (_, v) => [("self", v)]
      | none => []
    let selfOut := match self, f.receiver with
      | some (e, _), .mutRef => [("self", e)]
      | _, _ => []
    let typeArgs := f.generics.types.filterMap fun x => (typeArg cx.prog.items x f.params vs).map fun t => (x, t)
    let consts := f.generics.consts.filterMap fun x => (constArg x f.params vs).map fun v => (x, v)
    match cx.run f (tys ++ typeArgs) { env := selfEnv ++ params f.params vs ++ consts, world := s.world } with
    | (.timeout, s') => (.timeout, { env := s.env, world := s'.world })
    | (.stuck, s') => (.stuck, { env := s.env, world := s'.world })
    | (r, s') =>
      match copyBack (selfOut ++ outs f.params args) s'.env { env := s.env, world := s'.world } with
      | (.val (), s'') =>
        match r with
        | .val v => (.val (v.coerce f.ret), s'')
        | .ret v => (.val (v.coerce f.ret), s'')
        | .panic => (.panic, s'')
        | .timeout => (.timeout, s'')
        | .stuck => (.stuck, s'')
      | (_, s'') => (.stuck, s'')
  else (.stuck, s)

/-- A constant of a type. -/
def constOf {S : Setting} (cx : Ctx S) (t : RtTy S) (name : String) : M S (Val S) :=
  match t with
  | .std t => if name = "ALIGNMENT" then M.pure (.word (BitVec.ofNat S.bits (S.align t))) else M.stuck
  | t =>
    match (implsOf cx.prog t).findSome? fun i => (assocConst i.2.2 name).map fun e => (e, i.2.1) with
    | some (e, tys) =>
      callFn cx ⟨name, ⟨[], [], []⟩, .static, [], .unit, some e⟩ (("Self", t) :: tys) none [] []
    | none => M.stuck

/-- A path that is an expression. -/
def pathVal {S : Setting} (cx : Ctx S) : Ty → M S (Val S)
  | .path [x, c] [] => constOf cx (evalTy cx.prog cx.tys (cx.prog.depth + 1) (.path [x] [])) c
  | .proj t _ [c] => constOf cx (evalTy cx.prog cx.tys (cx.prog.depth + 1) t) c
  | .proj t via [a, c] => constOf cx (evalTy cx.prog cx.tys (cx.prog.depth + 1) (.proj t via [a])) c
  | _ => M.stuck

/-- The name of the struct that a path stands for. -/
def structName {S : Setting} (tys : Tys S) : Ty → Option String
  | .path [x] _ =>
    match tys.lookup x with
    | some (.named n _) => some n
    | some _ => none
    | none => some x
  | _ => none

/-- Fields with their values. -/
def structVal {S : Setting} (items : List Item) (name : String) (fs : List String) (vs : List (Val S)) :
    M S (Val S) :=
  match findStruct items name with
  | some (_, _, decl) =>
    if decl.length = fs.length ∧ fs.length = vs.length then
      (M.ofOption (decl.mapM fun d => ((fs.zip vs).lookup d.1).map fun v => (d.1, v.coerce d.2))).bind fun fs =>
        M.pure (.struct name fs)
    else M.stuck
  | none => M.stuck

/-- A free function of the program. -/
def findFn (items : List Item) (name : String) : Option Fn :=
  items.findSome? fun i =>
    match i with
    | .fn f => if f.name = name then some f else none
    | _ => none

/-- A function of an inherent `impl` of a struct whose parameters are not written. -/
def findInherent (items : List Item) (self name : String) : Option Fn :=
  items.findSome? fun i =>
    match i with
    | .impl _ .unit (.path [x] _) fns => if x = self then assocFn fns name else none
    | _ => none

/-- The outcome of code of the caller. -/
def M.ends {S : Setting} {α : Type} : Ends α → M S α
  | .returns a => M.pure a
  | .panics => M.panic

/-- Call an associated function of a type. -/
def callAssoc {S : Setting} (cx : Ctx S) (t : RtTy S) (name : String) (args : List Expr) (vs : List (Val S)) :
    M S (Val S) :=
  match findMethod cx.prog t name with
  | some (f, tys) => callFn cx f (("Self", t) :: tys) none args vs
  | none =>
    match t, vs with
    | .conv t, [.arg (.std d)] =>
      if name = cx.prog.restoreName then (M.ends (S.restore t d)).bind fun c => M.pure (.arg (.conv c))
      else M.stuck
    | .named n [], vs =>
      match findInherent cx.prog.items n name with
      | some f => callFn cx f [("Self", t)] none args vs
      | none => M.stuck
    | _, _ => M.stuck

/-- Call what a path stands for: a constructor, a function of the program or one of the libraries. -/
def call {S : Setting} (cx : Ctx S) (f : Expr) (args : List Expr) (vs : List (Val S)) : M S (Val S) :=
  match f with
  | .var x =>
    if x = "Ok" ∨ x = "Some" ∨ x = "Err" then M.pure (.enum x vs)
    else if x = "bytes_of" then
      match vs with
      | [v] => (M.ofOption (bytesOfVal cx.prog.items v)).bind fun bs => M.pure (.bytes bs)
      | _ => M.stuck
    else
      match findFn cx.prog.items x with
      | some f => callFn cx f [] none args vs
      | none =>
        (M.ofOption (structName cx.tys (.path [x] []))).bind fun n =>
          structVal cx.prog.items n ((List.range vs.length).map toString) vs
  | .path (.path ["size_of"] [t]) =>
    (M.ofOption (sizeOfTy cx.prog.items (evalTy cx.prog cx.tys (cx.prog.depth + 1) t))).bind fun n =>
      M.pure (.word (BitVec.ofNat S.bits n))
  | .path (.path ["io", "sink"] []) => M.pure .null
  | .path (.path ["String", "new"] []) => M.pure (.str "")
  | .path (.path [x, name] []) =>
    callAssoc cx (evalTy cx.prog cx.tys (cx.prog.depth + 1) (.path [x] [])) name args vs
  | .path (.proj t _ [name]) => callAssoc cx (evalTy cx.prog cx.tys (cx.prog.depth + 1) t) name args vs
  | _ => M.stuck

/-- Bytes given as such or as an array of literals. -/
def toBytes {S : Setting} : Val S → Option (List Byte)
  | .bytes bs => some bs
  | .seq vs => vs.mapM fun v =>
    match v with
    | .lit n => some (BitVec.ofNat 8 n)
    | _ => none
  | _ => none

/-- The next item of an iterator. -/
def nextOf {S : Setting} : Val S → M S (Option (Val S) × Val S)
  | .iter [] => M.pure (none, .iter [])
  | .iter (v :: vs) => M.pure (some v, .iter vs)
  | .clientIter => fun s =>
    match S.next s.world with
    | (.returns none, w) => (.val (none, .clientIter), { s with world := w })
    | (.returns (some a), w) => (.val (some (.arg a), .clientIter), { s with world := w })
    | (.panics, w) => (.panic, { s with world := w })
  | _ => M.stuck

/-- `IntoIterator::into_iter`. -/
def intoIter {S : Setting} : Val S → Option (Val S)
  | .iter vs => some (.iter vs)
  | .clientIter => some .clientIter
  | .seq vs => some (.iter vs)
  | .arg (.slice xs) => some (.iter (xs.map .arg))
  | _ => none

/-- `Option` as a value. -/
def optionVal {S : Setting} : Option (Val S) → Val S
  | some v => .enum "Some" [v]
  | none => .enum "None" []

/-- Methods of the libraries and of the caller. `e` is the receiver, `v` its value. -/
def builtin {S : Setting} (cx : Ctx S) (e : Expr) (v : Val S) (name : String) (vs : List (Val S)) : M S (Val S) :=
  match v, vs with
  | .sink k, [b] =>
    if name = "write_all" then (M.ofOption (toBytes b)).bind fun bs =>
      match S.writeAll k bs with
      | (.returns (.ok ()), k) => (setPlace e (.sink k)).bind fun _ => M.pure (.enum "Ok" [.unit])
      | (.returns (.error x), k) => (setPlace e (.sink k)).bind fun _ => M.pure (.enum "Err" [.err x])
      | (.panics, k) => (setPlace e (.sink k)).bind fun _ => M.panic
    else M.stuck
  | .null, [b] =>
    if name = "write_all" then (M.ofOption (toBytes b)).bind fun _ =>
      (setPlace e .null).bind fun _ => M.pure (.enum "Ok" [.unit])
    else M.stuck
  | .str s, [.str t] =>
    if name = "push_str" then (setPlace e (.str (s ++ t))).bind fun _ => M.pure .unit else M.stuck
  | .str s, [.chr c] =>
    if name = "push" then (setPlace e (.str (s.push c))).bind fun _ => M.pure .unit else M.stuck
  | .enum c us, [] =>
    if name = "unwrap" then
      match c, us with
      | "Ok", [u] => M.pure u
      | "Some", [u] => M.pure u
      | _, _ => M.panic
    else M.stuck
  | v, [] =>
    if name = "iter" ∨ name = "into_iter" then M.ofOption (intoIter v)
    else if name = "next" then
      (nextOf v).bind fun (o, it) => (setPlace e it).bind fun _ => M.pure (optionVal o)
    else
      match v with
      | .arg (.conv c) =>
        if name = cx.prog.convertName then (M.ends (S.convert c)).bind fun d => M.pure (.arg (.std d))
        else M.stuck
      | _ => M.stuck
  | _, _ => M.stuck

/-- Call a method: one of the program or one of the libraries. -/
def callMethod {S : Setting} (cx : Ctx S) (e : Expr) (v : Val S) (name : String) (args : List Expr)
    (vs : List (Val S)) : M S (Val S) :=
  let t := typeOf cx.prog.items v
  match findMethod cx.prog t name with
  | some (f, tys) => callFn cx f (("Self", t) :: tys) (some (e, v)) args vs
  | none => builtin cx e v name vs

/-! ### Branches and loops -/

/-- A choice by a value. -/
def ifVal {S : Setting} {α : Type} (v : Val S) (p q : M S α) : M S α :=
  match v with
  | .bool b => if b then p else q
  | _ => M.stuck

/-- `while`, for a bounded number of iterations. -/
def whileLoop {S : Setting} (c : M S (Val S)) (body : M S (Val S)) : Nat → M S (Val S)
  | 0 => fun s => (.timeout, s)
  | n + 1 => c.bind fun b => ifVal b (body.bind fun _ => whileLoop c body n) (M.pure .unit)

/-- `for` over the given items. -/
def forList {S : Setting} (body : Val S → M S (Val S)) : List (Val S) → M S (Val S)
  | [] => M.pure .unit
  | v :: vs => (body v).bind fun _ => forList body vs

/-- `for` over the `n` integers from `a`. -/
def forRange {S : Setting} (body : Val S → M S (Val S)) : Nat → BitVec S.bits → M S (Val S)
  | 0, _ => M.pure .unit
  | n + 1, a => (body (.word a)).bind fun _ => forRange body n (a + 1)

/-- `for` over the caller's iterator, for a bounded number of iterations. -/
def forClient {S : Setting} (body : Val S → M S (Val S)) : Nat → M S (Val S)
  | 0 => fun s => (.timeout, s)
  | n + 1 => (nextOf .clientIter).bind fun (o, _) =>
    match o with
    | some v => (body v).bind fun _ => forClient body n
    | none => M.pure .unit

/-- `for` over anything. -/
def forLoop {S : Setting} (fuel : Nat) (body : Val S → M S (Val S)) : Val S → M S (Val S)
  | .range a b => forRange body (b.toNat - a.toNat) a
  | v =>
    match intoIter v with
    | some (.iter vs) => forList body vs
    | some .clientIter => forClient body fuel
    | _ => M.stuck

/-! ### Expressions -/

/-- Declare what a pattern binds; `none` if it does not match. -/
def Pat.binds {S : Setting} : Pat → Val S → Option (Env S)
  | .wild, _ => some []
  | .var x, v => some [(x, v)]
  | .ctor c x, .enum d [v] => if c = d then some [(x, v)] else none
  | .ctor _ _, _ => none
  | .tuple _, _ => none
  | .variant _ _, _ => none

/-- Declare variables. -/
def declareAll {S : Setting} (vs : Env S) : M S Unit := fun s => (.val (), { s with env := vs ++ s.env })

/-- A choice by whether a pattern matches. -/
def ifMatches {S : Setting} (p : Pat) (v : Val S) (q r : M S (Val S)) : M S (Val S) :=
  match p.binds v with
  | some vs => inScope ((declareAll vs).bind fun _ => q)
  | none => r

/-- `a[i]`. -/
def indexVal {S : Setting} : Val S → Val S → M S (Val S)
  | .seq vs, .word i =>
    match vs[i.toNat]? with
    | some v => M.pure v
    | none => M.panic
  | _, _ => M.stuck

/-- `v as T`. -/
def castVal {S : Setting} : Val S → Ty → M S (Val S)
  | .bool b, .path ["u32"] [] => M.pure (.u32 (if b then 1 else 0))
  | _, _ => M.stuck

/-- `v?`. -/
def attemptVal {S : Setting} : Val S → M S (Val S)
  | .enum "Ok" [v] => M.pure v
  | .enum "Err" [e] => M.ret (.enum "Err" [e])
  | _ => M.stuck

/-- `a..b`. -/
def rangeVal {S : Setting} : Val S → Val S → M S (Val S)
  | .word a, .word b => M.pure (.range a b)
  | .lit n, .word b => M.pure (.range (BitVec.ofNat _ n) b)
  | _, _ => M.stuck

mutual
/-- Evaluate an expression. -/
def eval {S : Setting} (cx : Ctx S) : Expr → M S (Val S)
  | .num n s => if s = "" then M.pure (.lit n) else if s = "usize" then M.pure (.word (BitVec.ofNat _ n)) else M.stuck
  | .str s => M.pure (.str s)
  | .chr c => M.pure (.chr c)
  | .var x => if x = "None" then M.pure (.enum "None" []) else getVar x
  | .path p => pathVal cx p
  | .call f args => (evalList cx args).bind fun vs => call cx f args vs
  | .method e name args =>
    (eval cx e).bind fun v => (evalList cx args).bind fun vs => callMethod cx e v name args vs
  | .field e f => (eval cx e).bind fun v => getField f v
  | .index e i => (eval cx e).bind fun v => (eval cx i).bind fun w => indexVal v w
  | .attempt e => (eval cx e).bind fun v => attemptVal v
  | .ref _ e => eval cx e
  | .deref e => eval cx e
  | .bin .or a b => (eval cx a).bind fun v => ifVal v (M.pure (.bool true)) (eval cx b)
  | .bin .and a b => (eval cx a).bind fun v => ifVal v (eval cx b) (M.pure (.bool false))
  | .bin o a b => (eval cx a).bind fun v => (eval cx b).bind fun w => binOpVal o v w
  | .cast e t => (eval cx e).bind fun v => castVal v t
  | .range a b => (eval cx a).bind fun v => (eval cx b).bind fun w => rangeVal v w
  | .assign a e => (eval cx e).bind fun v => (setPlace a v).bind fun _ => M.pure .unit
  | .addAssign a e => (eval cx e).bind fun v => (getPlace a).bind fun w =>
    (binOpVal .add w v).bind fun u => (setPlace a u).bind fun _ => M.pure .unit
  | .array es => (evalList cx es).bind fun vs => M.pure (.seq vs)
  | .struct p names es => (evalList cx es).bind fun vs =>
    (M.ofOption (structName cx.tys p)).bind fun n => structVal cx.prog.items n names vs
  | .structBase .. => M.stuck
  | .block ss e => inScope ((evalStmts cx ss).bind fun _ => eval cx e)
  | .cond c t e => (eval cx c).bind fun v => ifVal v (eval cx t) (eval cx e)
  | .condLet p c t e => (eval cx c).bind fun v => ifMatches p v (eval cx t) (eval cx e)
  | .loop c body => whileLoop (eval cx c) (eval cx body) cx.fuel
  | .each p e body => (eval cx e).bind fun v =>
    forLoop cx.fuel (fun v => ifMatches p v (eval cx body) M.stuck) v
  | .mac .. => M.stuck
  | .turbofish .. => M.stuck
  | .rangeIncl .. => M.stuck
  | .arms .. => M.stuck
  | .closure .. => M.stuck
  | .unit => M.pure .unit
/-- Evaluate expressions from left to right. -/
def evalList {S : Setting} (cx : Ctx S) : List Expr → M S (List (Val S))
  | [] => M.pure []
  | e :: es => (eval cx e).bind fun v => (evalList cx es).bind fun vs => M.pure (v :: vs)
/-- Execute a statement. -/
def evalStmt {S : Setting} (cx : Ctx S) : Stmt → M S Unit
  | .bind _ x t e => (eval cx e).bind fun v => declareAll [(x, v.coerce t)]
  | .bindTuple .. => M.stuck
  | .expr e => (eval cx e).bind fun _ => M.pure ()
/-- Execute statements. -/
def evalStmts {S : Setting} (cx : Ctx S) : List Stmt → M S Unit
  | [] => M.pure ()
  | s :: ss => (evalStmt cx s).bind fun _ => evalStmts cx ss
end

/-- Run a function, with a bound on the depth of calls and the number of iterations of each loop. -/
def runFn {S : Setting} (p : Program) : Nat → Fn → Tys S → State S → Res S (Val S) × State S
  | 0, _, _, s => (.timeout, s)
  | n + 1, f, tys, s =>
    match f.body with
    | some e => eval { prog := p, tys := tys, fuel := n, run := runFn p n } e s
    | none => (.stuck, s)

/-- Evaluate an expression of client code. -/
def exec {S : Setting} (p : Program) (tys : Tys S) (n : Nat) (e : Expr) (env : Env S) (world : S.World) :
    Res S (Val S) × State S :=
  eval { prog := p, tys := tys, fuel := n, run := runFn p n } e { env := env, world := world }

/-- The method call `x.name::<targs>()` of client code. -/
def execMethod {S : Setting} (p : Program) (n : Nat) (targs : List (RtTy S)) (x name : String) (env : Env S)
    (world : S.World) : Res S (Val S) × State S :=
  ((getVar x).bind fun v =>
    let t := typeOf p.items v
    match findMethod p t name with
    | some (f, tys) =>
      callFn { prog := p, tys := [], fuel := n, run := runFn p n } f
        (("Self", t) :: tys ++ f.generics.types.zip targs) (some (.var x, v)) [] []
    | none => M.stuck) { env := env, world := world }

end RustCode
