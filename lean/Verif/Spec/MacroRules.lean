import Verif.Spec.RustCode
/-
Specification: macros by example (The Rust Reference, "Macros By Example"): `macro_rules!` definitions, how an
invocation is matched against the patterns, and what is transcribed. Written without reference to crevice.

rustc matches without backtracking and rejects an invocation when it cannot tell from the next token whether a
repetition goes on; for an invocation that it accepts there is only one reading, which is the one found here by letting
repetitions go on for as long as they match.

Not covered: fragment specifiers other than those in `fragment`, `$crate`, macros defined by macros. Names from a
definition and from an invocation are not kept apart (hygiene); that only matters for local variables.
-/
namespace RustCode

/-- How often a repetition occurs. -/
inductive Times
  | star | plus | opt
  deriving DecidableEq

/-- Patterns and templates. -/
inductive MTree
  | tok (t : Tok)
  /-- `$name:kind` in a pattern, `$name` in a template -/
  | var (name kind : String)
  /-- `$( .. ) sep op` -/
  | rep (body : List MTree) (sep : Option Tok) (times : Times)

/-- The operator after a repetition. -/
def times : Tok → Option Times
  | .op .star => some .star
  | .op .plus => some .plus
  | .op .question => some .opt
  | _ => none

/-- Operator and separator of a repetition. -/
def repOp : List Tok → Option (Option Tok × Times × List Tok)
  | [] => none
  | t :: r =>
    match times t with
    | some k => some (none, k, r)
    | none =>
      match r with
      | u :: r => (times u).map fun k => (some t, k, r)
      | [] => none

/-- A pattern or a template; in a pattern variables have a kind. The bound is on the number of tokens. -/
def mtrees (pattern : Bool) : Nat → List Tok → Option (List MTree)
  | 0, _ => none
  | _ + 1, [] => some []
  | n + 1, .op .dollar :: .op .lparen :: r =>
    match balanced 0 r with
    | some (body, r) =>
      match repOp r, mtrees pattern n body with
      | some (sep, k, r), some ts => (mtrees pattern n r).map fun us => .rep ts sep k :: us
      | _, _ => none
    | none => none
  | n + 1, .op .dollar :: .id x :: r =>
    if pattern then
      match r with
      | .op .colon :: .id kind :: r => (mtrees pattern n r).map fun us => .var x kind :: us
      | _ => none
    else (mtrees pattern n r).map fun us => .var x "" :: us
  | n + 1, t :: r => (mtrees pattern n r).map fun us => .tok t :: us

/-- What a variable is bound to: tokens, or one binding for each iteration. -/
inductive Bound
  | toks (ts : List Tok)
  | seq (bs : List Bound)

/-- Bindings. -/
abbrev Bounds := List (String × Bound)

/-- The tokens that were consumed. -/
def consumed {α : Type} (ts : List Tok) (r : Option (α × List Tok)) : Option (List Tok × List Tok) :=
  r.map fun p => (ts.take (ts.length - p.2.length), p.2)

/-- `a::b = "literal"`, `a::b(..)` or `a::b`. -/
def metaRule : P Unit := fun ts =>
  match ts with
  | .id _ :: r =>
    match segments r with
    | some (_, .op .eq :: .str _ :: r) => some ((), r)
    | some (_, .op .lparen :: r) => (balanced 0 r).map fun p => ((), p.2)
    | some (_, r) => some ((), r)
    | none => none
  | _ => none

/-- The tokens of a fragment of the given kind, and the rest. -/
def fragment (kind : String) (ts : List Tok) : Option (List Tok × List Tok) :=
  if kind = "ident" then
    match ts with
    | .id s :: r => some ([.id s], r)
    | _ => none
  else if kind = "literal" then
    match ts with
    | .num n s :: r => some ([.num n s], r)
    | .str s :: r => some ([.str s], r)
    | _ => none
  else if kind = "ty" then consumed ts ((grammar (10 * ts.length + 10)).ty ts)
  else if kind = "meta" then consumed ts (metaRule ts)
  else none

mutual
/-- The variables of a pattern or template. -/
def MTree.vars : MTree → List String
  | .tok _ => []
  | .var x _ => [x]
  | .rep body _ _ => MTree.varsAll body
/-- Of a sequence. -/
def MTree.varsAll : List MTree → List String
  | [] => []
  | t :: ts => t.vars ++ MTree.varsAll ts
end

/-- The variables of a repetition, with one binding for each iteration. -/
def collect (vars : List String) (its : List Bounds) : Option Bounds :=
  vars.mapM fun x => (its.mapM fun (it : Bounds) => List.lookup x it).map fun bs => (x, .seq bs)

mutual
/-- Match a pattern at the beginning of a text. -/
def mmatch : Nat → List MTree → List Tok → Option (Bounds × List Tok)
  | 0, _, _ => none
  | _ + 1, [], ts => some ([], ts)
  | n + 1, .tok t :: ps, ts =>
    match ts with
    | u :: ts => if t = u then mmatch n ps ts else none
    | [] => none
  | n + 1, .var x kind :: ps, ts =>
    match fragment kind ts with
    | some (f, ts) => (mmatch n ps ts).map fun p => ((x, .toks f) :: p.1, p.2)
    | none => none
  | n + 1, .rep body sep k :: ps, ts =>
    match iterations n body sep k ts with
    | some (its, ts) =>
      if k = .plus ∧ its.isEmpty then none
      else
        match collect (MTree.varsAll body) its with
        | some b => (mmatch n ps ts).map fun p => (b ++ p.1, p.2)
        | none => none
    | none => none
/-- Iterations of a repetition, for as long as they match. -/
def iterations : Nat → List MTree → Option Tok → Times → List Tok → Option (List Bounds × List Tok)
  | 0, _, _, _, _ => none
  | n + 1, body, sep, k, ts =>
    match mmatch n body ts with
    | none => some ([], ts)
    | some (b, r) =>
      if r.length < ts.length ∧ k ≠ .opt then
        match sep with
        | none => (iterations n body sep k r).map fun p => (b :: p.1, p.2)
        | some s =>
          match r with
          | u :: r' =>
            if u = s then
              match iterations n body sep k r' with
              | some ([], _) => some ([b], r)
              | some (bs, r) => some (b :: bs, r)
              | none => none
            else some ([b], r)
          | [] => some ([b], r)
      else some ([b], r)
end

/-- The number of iterations that the variables of a repetition ask for: they agree, and there is one. -/
def iterCount (b : Bounds) (vars : List String) : Option Nat :=
  match vars.filterMap fun x =>
      match b.lookup x with
      | some (.seq bs) => some bs.length
      | _ => none with
  | [] => none
  | n :: ns => if ns.all (· == n) then some n else none

/-- The bindings in the `i`-th iteration. -/
def iteration (b : Bounds) (vars : List String) (i : Nat) : Bounds :=
  b.map fun p =>
    match p.2 with
    | .seq bs => if p.1 ∈ vars then (p.1, bs[i]?.getD (.seq [])) else p
    | .toks _ => p

/-- Join with separators. -/
def joinToks (sep : Option Tok) : List (List Tok) → List Tok
  | [] => []
  | [ts] => ts
  | ts :: r => ts ++ sep.toList ++ joinToks sep r

mutual
/-- Transcribe a template. -/
def transcribe (b : Bounds) : MTree → Option (List Tok)
  | .tok t => some [t]
  | .var x _ =>
    match b.lookup x with
    | some (.toks ts) => some ts
    | _ => none
  | .rep body sep _ =>
    (iterCount b (MTree.varsAll body)).bind fun n =>
      ((List.range n).mapM fun i => transcribeAll (iteration b (MTree.varsAll body) i) body).map (joinToks sep)
/-- One after the other. -/
def transcribeAll (b : Bounds) : List MTree → Option (List Tok)
  | [] => some []
  | t :: ts => (transcribe b t).bind fun us => (transcribeAll b ts).map fun vs => us ++ vs
end

/-- The rules of a definition: `(pattern) => { template };`, with any delimiters. -/
def rules : Nat → List Tok → Option (List (List MTree × List MTree))
  | 0, _ => none
  | _ + 1, [] => some []
  | n + 1, .op .semi :: r => rules n r
  | n + 1, .op o :: r =>
    if o = .lparen ∨ o = .lbrace ∨ o = .lbracket then
      match balanced 0 r with
      | some (pat, .op .fatArrow :: .op o :: r) =>
        if o = .lparen ∨ o = .lbrace ∨ o = .lbracket then
          match balanced 0 r with
          | some (tem, r) =>
            match mtrees true (pat.length + 1) pat, mtrees false (tem.length + 1) tem, rules n r with
            | some p, some t, some rs => some ((p, t) :: rs)
            | _, _, _ => none
          | none => none
        else none
      | _ => none
    else none
  | _, _ => none

/-- The text an invocation stands for: the first rule whose pattern matches all of it. -/
def invoke (rs : List (List MTree × List MTree)) (arg : List Tok) : Option (List Tok) :=
  rs.findSome? fun r =>
    match mmatch (10 * arg.length + 100) r.1 arg with
    | some (b, []) => transcribeAll b r.2
    | _ => none

/-- Items with all macros expanded; `defs` are the definitions so far, the last one first. -/
def expand (defs : List (String × List (List MTree × List MTree))) : List Item → Option (List Item)
  | [] => some []
  | .mac m arg :: is =>
    if m = "macro_rules" then
      match arg with
      | .id n :: body => (rules (body.length + 1) body).bind fun rs => expand ((n, rs) :: defs) is
      | _ => none
    else
      (defs.lookup m).bind fun rs => (invoke rs arg).bind fun ts => (parse ts).bind fun js =>
        (expand defs is).map fun is => js ++ is
  | i :: is => (expand defs is).map fun is => i :: is

/-- The items of files of one crate in which macros are in scope from their definition on. -/
def expandFiles (files : List (List Tok)) : Option (List Item) :=
  (files.mapM parse).bind fun is => expand [] is.flatten

end RustCode
