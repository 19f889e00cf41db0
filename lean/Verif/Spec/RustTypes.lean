import Verif.Model.Rust
import Verif.Spec.RustCode
/-
Specification: the part of Rust's static and dynamic semantics that decides what implementations of traits mean (The
Rust Reference, "Paths", "Implementations", "Traits", "Associated items", "Type layout", "Struct expressions"): which
item a name stands for, which implementation of a trait applies to a type, what its associated types and constants are,
how its types are laid out in memory, and what its functions return. Written without reference to crevice.

Evaluation is directed by types: the expected type of an expression decides what `into`, `zeroed` and `<_ as Tr>::f` are.
It is assumed that rustc accepts the program; types of arguments are not compared with those of parameters.

Recursion is bounded by a number (`sem n`); `none` means that the bound is too small, that rustc rejects the program or
that the form is not covered. Not covered: references other than `&self` (a reference is the value it points to),
lifetimes, inherent implementations, default items of traits, type variables that occur more than once in the head of an
implementation, impls for slices and references. `usize` has no bound.

The module with the empty name stands for another crate that uses this one. It sees its own names and what it writes with
its full path; `crate` means this crate there too.
-/
namespace RustTypes
open RustCode Crevice

/-- Types without variables and projections. Types of the crate have paths `[module, name]`, all other types the path
they are written with. -/
inductive CTy
  | named (path : List String) (args : List CTy)
  | array (t : CTy) (len : Nat)

/-! ### The items of a crate -/

/-- A struct: whether it is a tuple struct, whether it has `repr(C)` or `repr(transparent)`, and the traits it
derives. -/
structure StructDef where
  module : String
  params : List String
  fields : List (String × RustCode.Ty)
  reprC : Bool
  transparent : Bool
  derives : List String

/-- An implementation. -/
structure ImplDef where
  module : String
  /-- the arguments that the trait is given -/
  traitArgs : List RustCode.Ty
  params : List String
  bounds : List (RustCode.Ty × List RustCode.Ty)
  self : RustCode.Ty
  items : List Assoc

/-- The items of a crate, sorted. -/
structure Index where
  /-- names that the modules declare -/
  names : List (String × List String)
  structs : List (List String × StructDef)
  /-- which trait has an associated item of the given name -/
  owners : List (String × List String)
  fns : List (List String × Fn)
  /-- implementations of a trait -/
  impls : List String → List ImplDef

/-- The names that items declare. -/
def declared : Item → Option String
  | .fn f => some f.name
  | .struct _ n _ _ => some n
  | .trait n _ => some n
  | _ => none

/-- What a path stands for. `crate::m::x` is `x` in `m`. A single name is looked up in the module, then it is assumed to
be imported from the only module of the crate that declares it, and if there is none it belongs to another crate or to
the language. The crate imports nothing from a crate that uses it. -/
def resolveName (names : List (String × List String)) (m : String) (p : List String) : Option (List String) :=
  match p with
  | [x] =>
    if ((names.lookup m).getD []).contains x then some [m, x]
    else
      match names.filter fun n => n.1 != "" && n.2.contains x with
      | [] => some [x]
      | [n] => some [n.1, x]
      | _ => none
  | [c, m', x] =>
    if c = "crate" then
      if ((names.lookup m').getD []).contains x then some [m', x] else none
    else some p
  | _ => some p

/-- Whether the attribute is `name(.., x, ..)`. -/
def attrHas (name x : String) (attr : List Tok) : Bool :=
  attr.head? == some (.id name) && attr.tail.contains (.id x)

/-- The names in `derive(..)`. -/
def attrDerives (attr : List Tok) : List String :=
  if attr.head? == some (.id "derive") then
    attr.tail.filterMap fun t => match t with | .id x => some x | _ => none
  else []

/-- The name of an associated item. -/
def Assoc.name : Assoc → String
  | .fn f => f.name
  | .const n _ _ => n
  | .type n _ => n

/-- The trait of an implementation with its arguments. -/
def implTrait (names : List (String × List String)) (m : String) : RustCode.Ty → Option (List String × List RustCode.Ty)
  | .path p args => (resolveName names m p).map fun t => (t, args)
  | _ => none

/-- Sort the items of modules. -/
def indexItems (modules : List (String × List Item)) : Index :=
  let names := modules.map fun m => (m.1, m.2.filterMap declared)
  let all := modules.flatMap fun m => m.2.map fun i => (m.1, i)
  { names := names
    structs := all.filterMap fun i =>
      match i.2 with
      | .struct attrs n g fs => some ([i.1, n], {
          module := i.1
          params := g.types
          fields := fs
          reprC := attrs.any (attrHas "repr" "C")
          transparent := attrs.any (attrHas "repr" "transparent")
          derives := attrs.flatMap attrDerives })
      | _ => none
    owners := all.flatMap fun i =>
      match i.2 with
      | .trait n as => as.map fun a => (Assoc.name a, [i.1, n])
      | _ => []
    fns := all.filterMap fun i =>
      match i.2 with
      | .fn f => some ([i.1, f.name], f)
      | _ => none
    impls := fun trait => all.filterMap fun i =>
      match i.2 with
      | .impl g via self as => (implTrait names i.1 via).bind fun t =>
        if t.1 = trait then
          some { module := i.1, traitArgs := t.2, params := g.types, bounds := g.bounds, self := self, items := as }
        else none
      | _ => none }

/-! ### The rest of the world -/

/-- Values of constants. -/
inductive Const
  | nat (n : Nat)
  | str (s : String)
  /-- `[usize; N]` -/
  | nats (ns : List Nat)

/-- The language and the other crates. -/
structure Outside where
  /-- fields of a struct of another crate -/
  fields : List String → List CTy → Option (List (String × CTy))
  /-- whether a type of another crate or of the language implements a trait that is not one of the crate -/
  implements : String → List String → List CTy → Bool
  /-- `From`/`Into` of other crates, from the first type to the second -/
  into : CTy → CTy → RVal → Option RVal
  /-- `size_of` -/
  sizeOf : RTy → Option Nat
  /-- `const` functions that are known by what they return -/
  constFn : List String → List Const → Option Const

/-- Machine types. -/
def scalarOf : List String → Option RTy
  | [x] =>
    if x = "f32" then some (.scalar .f32)
    else if x = "f64" then some (.scalar .f64)
    else if x = "i32" then some (.scalar .i32)
    else if x = "u32" then some (.scalar .u32)
    else if x = "u8" then some (.scalar .u8)
    else if x = "bool" then some .bool
    else none
  | _ => none

/-! ### Matching -/

mutual
/-- Match the head of an implementation against a type; type variables are bound. -/
def matchTy (names : List (String × List String)) (m : String) (vars : List String) : RustCode.Ty → CTy →
    Option (List (String × CTy))
  | .path p args, c =>
    match p with
    | [x] =>
      if vars.contains x then some [(x, c)]
      else
        match c with
        | .named q cs => if resolveName names m p = some q then matchTys names m vars args cs else none
        | .array _ _ => none
    | _ =>
      match c with
      | .named q cs => if resolveName names m p = some q then matchTys names m vars args cs else none
      | .array _ _ => none
  | _, _ => none
/-- Argument by argument. -/
def matchTys (names : List (String × List String)) (m : String) (vars : List String) : List RustCode.Ty → List CTy →
    Option (List (String × CTy))
  | [], [] => some []
  | t :: ts, c :: cs =>
    (matchTy names m vars t c).bind fun a => (matchTys names m vars ts cs).map fun b => a ++ b
  | _, _ => none
end

/-! ### Semantics -/

/-- Where a type or expression is written: the module, the type variables (with `Self`), and the associated types and
the bounds of the implementation it is in. -/
structure Scope where
  module : String
  vars : List (String × CTy)
  assoc : List (String × RustCode.Ty)
  bounds : List (RustCode.Ty × List RustCode.Ty)

/-- The traits that the bounds name for a type variable. -/
def boundTraits (ix : Index) (s : Scope) (p : List String) : List (List String) :=
  s.bounds.flatMap fun b =>
    match b.1 with
    | .path q _ =>
      if q = p then
        b.2.filterMap fun t =>
          match t with
          | .path r _ => resolveName ix.names s.module r
          | _ => none
      else []
    | _ => []

/-- The trait that an associated item of the type written `p` belongs to: the only one with an item of that name, or
the only one of those in the bounds. -/
def ownerOf (ix : Index) (s : Scope) (p : List String) (a : String) : Option (List String) :=
  match ix.owners.filter fun o => o.1 == a with
  | [o] => some o.2
  | os =>
    match os.filter fun o => (boundTraits ix s p).contains o.2 with
    | [o] => some o.2
    | _ => none

/-- An implementation that applies to a type. -/
structure Found where
  scope : Scope
  items : List Assoc

/-- Local variables. -/
abbrev Locals := List (String × CTy × RVal)

/-- The mutually recursive parts. -/
structure Sem where
  /-- the type a type expression stands for -/
  norm : Scope → RustCode.Ty → Option CTy
  /-- the implementations of a trait of the crate that apply to a type -/
  candidates : List String → List CTy → CTy → Option (List Found)
  /-- whether a type implements a trait -/
  implements : List String → CTy → Option Bool
  /-- memory layout -/
  layout : CTy → Option RTy
  /-- value and type of an expression of the given type, if one is expected -/
  eval : Scope → Locals → Option CTy → Expr → Option (CTy × RVal)
  /-- value of a constant expression -/
  const : Scope → List (String × Const) → Expr → Option Const

/-- Associated types of an implementation. -/
def assocTypes (items : List Assoc) : List (String × RustCode.Ty) :=
  items.filterMap fun a =>
    match a with
    | .type n (some t) => some (n, t)
    | _ => none

/-- The function of the given name. -/
def assocFn (items : List Assoc) (f : String) : Option Fn :=
  items.findSome? fun a =>
    match a with
    | .fn g => if g.name = f then some g else none
    | _ => none

/-- The constant of the given name. -/
def assocConst (items : List Assoc) (x : String) : Option Expr :=
  items.findSome? fun a =>
    match a with
    | .const n _ e => if n = x then e else none
    | _ => none

/-- The implementation of a trait for a type: coherence lets at most one apply. -/
def Sem.find (g : Sem) (trait : List String) (args : List CTy) (c : CTy) : Option Found :=
  (g.candidates trait args c).bind fun fs =>
    match fs with
    | [f] => some f
    | _ => none

/-- `<C as Trait>::Name`. -/
def Sem.project (g : Sem) (trait : List String) (c : CTy) (a : String) : Option CTy :=
  (g.find trait [] c).bind fun f => (f.scope.assoc.lookup a).bind (g.norm f.scope)

/-- As a number. -/
def Const.toNat? : Const → Option Nat
  | .nat n => some n
  | _ => none

/-- The length of an array. -/
def constLen (g : Sem) (s : Scope) : Expr → Option Nat
  | .num n _ => some n
  | e => (g.const s [] e).bind Const.toNat?

/-- The type a type expression stands for. -/
def normRule (ix : Index) (g : Sem) (s : Scope) : RustCode.Ty → Option CTy
  | .path p args =>
    if p.head? = some "Self" then
      match p with
      | [_, a] => (s.assoc.lookup a).bind (g.norm s)
      | [_] => s.vars.lookup "Self"
      | _ => none
    else
      match (match p with | [x] => s.vars.lookup x | _ => none) with
      | some c => some c
      | none => (resolveName ix.names s.module p).bind fun q => (args.mapM (g.norm s)).map (.named q)
  | .proj t via names =>
    match via, names with
    | .path p _, [a] =>
      (g.norm s t).bind fun c => (resolveName ix.names s.module p).bind fun tr => g.project tr c a
    | _, _ => none
  | .array t e => (g.norm s t).bind fun c => (constLen g s e).map fun n => .array c n
  | _ => none

/-- All of them hold. -/
def allM {α : Type} (p : α → Option Bool) : List α → Option Bool
  | [] => some true
  | x :: xs => (p x).bind fun b => if b then allM p xs else some false

/-- Whether the bounds of an implementation hold. -/
def boundsHold (ix : Index) (g : Sem) (s : Scope) (bounds : List (RustCode.Ty × List RustCode.Ty)) : Option Bool :=
  allM (fun b => (g.norm s b.1).bind fun c => allM (fun tr =>
    match tr with
    | .path p _ => (resolveName ix.names s.module p).bind fun t => g.implements t c
    | _ => none) b.2) bounds

/-- Whether an implementation applies: `none` is undecided. -/
def applies (ix : Index) (g : Sem) (args : List CTy) (c : CTy) (i : ImplDef) : Option (Option Found) :=
  match matchTy ix.names i.module i.params i.self c, matchTys ix.names i.module i.params i.traitArgs args with
  | some a, some b =>
    let s : Scope := { module := i.module, vars := ("Self", c) :: (a ++ b),
                        assoc := assocTypes i.items, bounds := i.bounds }
    (boundsHold ix g s i.bounds).map fun ok => if ok then some { scope := s, items := i.items } else none
  | _, _ => some none

/-- The ones that apply. -/
def filterMapM {α β : Type} (p : α → Option (Option β)) : List α → Option (List β)
  | [] => some []
  | x :: xs => (p x).bind fun r => (filterMapM p xs).map fun ys => r.toList ++ ys

/-- The implementations of a trait that apply to a type. -/
def candidatesRule (ix : Index) (g : Sem) (trait : List String) (args : List CTy) (c : CTy) : Option (List Found) :=
  filterMapM (applies ix g args c) (ix.impls trait)

/-- Fields of a struct with their types. -/
def fieldsOf (ix : Index) (o : Outside) (g : Sem) : CTy → Option (List (String × CTy))
  | .named p args =>
    match ix.structs.lookup p with
    | some d =>
      d.fields.mapM fun f => (g.norm { module := d.module, vars := d.params.zip args, assoc := [], bounds := [] } f.2).map fun c => (f.1, c)
    | none => o.fields p args
  | .array _ _ => none

/-- Whether a type implements a trait: by an implementation, by `derive` (which asks for the same of the types of the
fields), or outside of the crate. -/
def implementsRule (ix : Index) (o : Outside) (g : Sem) (trait : List String) (c : CTy) : Option Bool :=
  (g.candidates trait [] c).bind fun fs =>
    if !fs.isEmpty then some true
    else
      match trait with
      | [x] =>
        match c with
        | .named p args =>
          match ix.structs.lookup p with
          | some d =>
            if d.derives.contains x then
              (fieldsOf ix o g c).bind fun fs => allM (fun f => g.implements trait f.2) fs
            else some false
          | none => some (o.implements x p args)
        | .array t _ => g.implements trait t
      | _ => some false

/-- Memory layout: of machine types, arrays, `repr(C)` structs and `repr(transparent)` tuple structs with one field. -/
def layoutRule (ix : Index) (o : Outside) (g : Sem) (c : CTy) : Option RTy :=
  match c with
  | .array t n => (g.layout t).map fun r => .array r n
  | .named p _ =>
    match ix.structs.lookup p with
    | some d =>
      (fieldsOf ix o g c).bind fun fs =>
        (fs.mapM fun f => (g.layout f.2).map fun r => (f.1, r)).bind fun rs =>
          if d.reprC then some (.struct rs)
          else if d.transparent then
            match rs with
            | [(f, r)] => if f = "0" then some (.newtype r) else none
            | _ => none
          else none
    | none => scalarOf p

/-- A field of a value; tuple structs have one field. -/
def getField (v : RVal) (f : String) : Option RVal :=
  if f = "0" then
    match v with
    | .newtype x => some x
    | _ => none
  else v.field f

/-- Call a function of an implementation. -/
def Sem.call (g : Sem) (f : Found) (name : String) (self : Option (CTy × RVal)) (args : List (CTy × RVal)) :
    Option (CTy × RVal) :=
  (assocFn f.items name).bind fun fn =>
    fn.body.bind fun body =>
      if fn.params.length = args.length ∧ (fn.receiver = .static ↔ self.isNone) then
        (g.norm f.scope fn.ret).bind fun ret =>
          g.eval f.scope ((self.map fun v => ("self", v)).toList ++ (fn.params.map Prod.fst).zip args) (some ret) body
      else none

/-- `into` from one type to another: `From` of the crate, or of other crates. -/
def Sem.convert (o : Outside) (g : Sem) (c d : CTy) (v : RVal) : Option RVal :=
  (g.candidates ["From"] [c] d).bind fun fs =>
    match fs with
    | [] => o.into c d v
    | [f] => (g.call f "from" none [(c, v)]).map Prod.snd
    | _ => none

/-- Compare a value of the given type with a literal. -/
def notEq (r : RTy) (v : RVal) (n : Nat) : Option Bool :=
  match r, v with
  | .scalar s, .scalar s' b => if s = s' then some (b.toNat != n) else none
  | _, _ => none

/-- `e as T`. -/
def castTo (v : RVal) (r : RTy) : Option RVal :=
  match v, r with
  | .bool b, .scalar .u32 => some (.scalar .u32 (if b then 1 else 0))
  | _, _ => none

/-- Evaluate field initialisers. -/
def evalFields (g : Sem) (s : Scope) (l : Locals) (fs : List (String × CTy)) (names : List String) (es : List Expr) :
    Option (List (String × RVal)) :=
  (names.zip es).mapM fun p => (g.eval s l (fs.lookup p.1) p.2).map fun r => (p.1, r.2)

/-- Statements. -/
def evalStmts (g : Sem) (s : Scope) : Locals → List Stmt → Option Locals
  | l, [] => some l
  | l, .bind false x t e :: r =>
    (g.norm s t).bind fun c => (g.eval s l (some c) e).bind fun v => evalStmts g s ((x, v) :: l) r
  | _, _ => none

/-- Expressions. -/
def evalRule (ix : Index) (o : Outside) (g : Sem) (s : Scope) (l : Locals) (want : Option CTy) :
    Expr → Option (CTy × RVal)
  | .var x => l.lookup x
  | .deref e => g.eval s l want e
  | .field e f =>
    (g.eval s l none e).bind fun r => (fieldsOf ix o g r.1).bind fun fs =>
      (fs.lookup f).bind fun c => (getField r.2 f).map fun v => (c, v)
  | .cast e t =>
    (g.norm s t).bind fun c => (g.layout c).bind fun r =>
      (g.eval s l none e).bind fun v => (castTo v.2 r).map fun w => (c, w)
  | .bin .ne e (.num n _) =>
    (g.eval s l none e).bind fun v => (g.layout v.1).bind fun r =>
      (notEq r v.2 n).map fun b => (.named ["bool"] [], .bool b)
  | .method e m args =>
    match args with
    | [] =>
      (g.eval s l none e).bind fun r =>
        if m = "into" then want.bind fun d => (g.convert o r.1 d r.2).map fun w => (d, w)
        else (ownerOf ix s [] m).bind fun tr => (g.find tr [] r.1).bind fun f => g.call f m (some r) []
    | _ => none
  | .call f args =>
    match f, args with
    -- a tuple struct with one field
    | .var x, [e] =>
      want.bind fun d =>
        match d with
        | .named p _ =>
          if x = "Self" ∨ resolveName ix.names s.module [x] = some p then
            (fieldsOf ix o g d).bind fun fs => (g.eval s l (fs.lookup "0") e).map fun r => (d, .newtype r.2)
          else none
        | .array _ _ => none
    -- `Zeroable::zeroed()`
    | .path (.path p _), [] =>
      if p = ["bytemuck", "Zeroable", "zeroed"] then
        want.bind fun d => (g.implements ["Zeroable"] d).bind fun ok =>
          if ok then (g.layout d).map fun r => (d, zeroed r) else none
      else none
    -- `Tr::f(e)`
    | .path (.path p _), [e] =>
      want.bind fun c => p.getLast?.bind fun f => (resolveName ix.names s.module p.dropLast).bind fun tr =>
        (g.find tr [] c).bind fun i =>
          (g.eval s l none e).bind fun r => g.call i f none [r]
    -- `<T as Tr>::f(e)`, `<T>::f(e)`
    | .path (.proj t via [f]), [e] =>
      (match t with
        | .path ["_"] _ => want
        | t => g.norm s t).bind fun c =>
        (match via with
          | .path p _ => resolveName ix.names s.module p
          | _ => ownerOf ix s [] f).bind fun tr =>
          (g.find tr [] c).bind fun i =>
            (g.eval s l none e).bind fun r => g.call i f none [r]
    | _, _ => none
  | .struct p names es =>
    (g.norm s p).bind fun d => (fieldsOf ix o g d).bind fun fs =>
      (evalFields g s l fs names es).bind fun inits =>
        (structNew (fs.map Prod.fst) inits).map fun v => (d, v)
  | .structBase p names es base =>
    (g.norm s p).bind fun d => (fieldsOf ix o g d).bind fun fs =>
      (evalFields g s l fs names es).bind fun inits =>
        (g.eval s l (some d) base).bind fun b =>
          (structUpdate (fs.map Prod.fst) inits b.2).map fun v => (d, v)
  | .block stmts e => (evalStmts g s l stmts).bind fun l => g.eval s l want e
  | _ => none

/-- The `let`s of a constant function. -/
def constLets (g : Sem) (s : Scope) : List (String × Const) → List Stmt → Option (List (String × Const))
  | l, [] => some l
  | l, .bind false x _ e :: r => (g.const s l e).bind fun v => constLets g s ((x, v) :: l) r
  | _, _ => none

/-- Constant expressions. -/
def constRule (ix : Index) (o : Outside) (g : Sem) (s : Scope) (l : List (String × Const)) : Expr → Option Const
  | .num n _ => some (.nat n)
  | .str t => some (.str t)
  | .var x => l.lookup x
  | .mac m ts =>
    match ts with
    | [.id x] => if m = "stringify" then some (.str x) else none
    | _ => none
  | .path (.path p _) =>
    -- `T::NAME`
    (g.norm s (.path p.dropLast [])).bind fun c => p.getLast?.bind fun x =>
      (ownerOf ix s p.dropLast x).bind fun tr => (g.find tr [] c).bind fun f =>
        (assocConst f.items x).bind fun e => g.const f.scope [] e
  | .path (.proj t via [x]) =>
    -- `<T as Tr>::NAME`
    (g.norm s t).bind fun c =>
      (match via with
        | .path p _ => resolveName ix.names s.module p
        | _ => ownerOf ix s [] x).bind fun tr => (g.find tr [] c).bind fun f =>
        (assocConst f.items x).bind fun e => g.const f.scope [] e
  | .call (.var f) args =>
    (resolveName ix.names s.module [f]).bind fun p => (ix.fns.lookup p).bind fun fn =>
      (args.mapM (g.const s l)).bind fun vs => fn.body.bind fun body =>
        g.const { module := p.headD "", vars := [], assoc := [], bounds := [] } ((fn.params.map Prod.fst).zip vs) body
  | .call (.path (.path p tys)) args =>
    if p = ["core", "mem", "size_of"] then
      match tys, args with
      | [t], [] => (g.norm s t).bind fun c => (g.layout c).bind fun r => (o.sizeOf r).map .nat
      | _, _ => none
    else
      (resolveName ix.names s.module p).bind fun q => (args.mapM (g.const s l)).bind (o.constFn q)
  | .bin .add a b =>
    (g.const s l a).bind fun x => x.toNat?.bind fun x =>
      (g.const s l b).bind fun y => y.toNat?.map fun y => .nat (x + y)
  | .array es => (es.mapM fun e => (g.const s l e).bind Const.toNat?).map .nats
  | .cond (.bin .gt a b) t e =>
    (g.const s l a).bind fun x => (g.const s l b).bind fun y =>
      match x, y with
      | .nat x, .nat y => if x > y then g.const s l t else g.const s l e
      | _, _ => none
  | .block stmts e => (constLets g s l stmts).bind fun l => g.const s l e
  | _ => none

/-- The semantics with bounded recursion. -/
def sem (ix : Index) (o : Outside) : Nat → Sem
  | 0 =>
    { norm := fun _ _ => none
      candidates := fun _ _ _ => none
      implements := fun _ _ => none
      layout := fun _ => none
      eval := fun _ _ _ _ => none
      const := fun _ _ _ => none }
  | n + 1 =>
    let g := sem ix o n
    { norm := normRule ix g
      candidates := candidatesRule ix g
      implements := implementsRule ix o g
      layout := layoutRule ix o g
      eval := evalRule ix o g
      const := constRule ix o g }

end RustTypes
