import Verif.Model.Expand
/-
Reading the tokens of the derive macros (`Model/Tokens.lean`) with the grammar of `Spec/RustSyntax.lean`:
expressions and padding functions.
-/
namespace Crevice.Tokens
open RustSyntax
variable {α : Type}

/-- From some bound on. -/
def Ev (P : Nat → Prop) : Prop := ∃ n, ∀ m, n ≤ m → P m

theorem Ev.and {P Q : Nat → Prop} (h : Ev P) (k : Ev Q) : Ev fun n => P n ∧ Q n := by
  obtain ⟨a, h⟩ := h; obtain ⟨b, k⟩ := k
  exact ⟨max a b, fun m hm => ⟨h m (by omega), k m (by omega)⟩⟩
theorem Ev.mono {P Q : Nat → Prop} (h : Ev P) (k : ∀ n, P n → Q n) : Ev Q := by
  obtain ⟨a, h⟩ := h
  exact ⟨a, fun m hm => k m (h m hm)⟩
theorem Ev.succ {P Q : Nat → Prop} (h : Ev P) (k : ∀ n, P n → Q (n+1)) : Ev Q := by
  obtain ⟨a, h⟩ := h
  refine ⟨a+1, fun m hm => ?_⟩
  obtain ⟨m, rfl⟩ : ∃ m', m = m'+1 := ⟨m-1, by omega⟩
  exact k m (h m (by omega))
theorem Ev.const {P : Nat → Prop} (b : Nat) (h : ∀ n, P (n+b)) : Ev P := by
  refine ⟨b, fun m hm => ?_⟩
  obtain ⟨m, rfl⟩ : ∃ m', m = m'+b := ⟨m-b, by omega⟩
  exact h m

/-- `<x as AsStdN>::Output`. -/
def verTy (l : Layout) (x : α) : TyExpr α := .proj (.spliced x) (Expand.asStdTrait l) "Output"
/-- `<<x as AsStdN>::Output as StdN>::ALIGNMENT`. -/
def alExpr (l : Layout) (x : α) : Expr α := .assoc (verTy l x) (Expand.stdTrait l) "ALIGNMENT"

theorem ty_version (l : Layout) (x : α) (rest : List (Tok α)) :
    Ev fun n => (parsers n).ty (layoutVersionOfTy l x ++ rest) = some (verTy l x, rest) :=
  .const 2 fun n => by cases l <;> rfl

theorem expr_align (l : Layout) (x : α) (q : Punct) (hq : q = .comma ∨ q = .semi) (rest : List (Tok α)) :
    Ev fun n => (parsers n).expr (layoutAlignmentOfTy l x ++ .punct q :: rest) =
      some (alExpr l x, .punct q :: rest) :=
  .const 4 fun n => by cases l <;> rcases hq with rfl | rfl <;> rfl


/-- `::core::mem::size_of::<<x as AsStdN>::Output>()`. -/
def sizeTokens (l : Layout) (x : α) : List (Tok α) :=
  [.punct .colon2, .ident "core", .punct .colon2, .ident "mem", .punct .colon2,
        .ident "size_of", .punct .colon2, .punct .lt] ++ layoutVersionOfTy l x ++
      [.punct .gt, .punct .lparen, .punct .rparen]
/-- `f()`. -/
def callTokens (f : String) : List (Tok α) := [.ident f, .punct .lparen, .punct .rparen]
/-- Its tree. -/
def sizeExpr (l : Layout) (x : α) : Expr α :=
  .call (.generic ⟨true, ["core", "mem", "size_of"]⟩ (verTy l x)) []
/-- Its tree. -/
def callExpr (f : String) : Expr α := .call (.path ⟨false, [f]⟩) []

mutual
/-- The Rust expression that an expression of `Model/Derive.lean` stands for. -/
def rust (l : Layout) : CExpr α → Expr α
  | .lit n => .int n "usize"
  | .sizeOf x => sizeExpr l x
  | .alignmentOf x => alExpr l x
  | .call f => callExpr f
  | .add a b => .add (rust l a) (rust l b)
  | .alignOffset a b => .call (.path ⟨true, ["crevice", "internal", "align_offset"]⟩) [rust l a, rust l b]
  | .maxArr es => .call (.path ⟨true, ["crevice", "internal", "max_arr"]⟩) [.array (rusts l es)]
/-- One after the other. -/
def rusts (l : Layout) : List (CExpr α) → List (Expr α)
  | [] => []
  | e :: es => rust l e :: rusts l es
end

theorem operand_size (l : Layout) (x : α) (q : Punct) (hq : q = .plus ∨ q = .semi) (rest : List (Tok α)) :
    Ev fun n => operand (parsers n) (sizeTokens l x ++ .punct q :: rest) =
      some (sizeExpr l x, .punct q :: rest) :=
  .const 4 fun n => by cases l <;> rcases hq with rfl | rfl <;> rfl

theorem operand_call (f : String) (q : Punct) (hq : q = .plus ∨ q = .semi) (rest : List (Tok α)) :
    Ev fun n => operand (parsers n) (callTokens f ++ .punct q :: rest) =
      some (callExpr f, .punct q :: rest) :=
  .const 4 fun n => by rcases hq with rfl | rfl <;> rfl

/-- Reading `out` as an expression amounts to having read `e` and going on with `+`. -/
def Chains (out : List (Tok α)) (e : Expr α) : Prop :=
  ∀ q rest r, (q = Punct.plus ∨ q = .semi) →
    (Ev fun n => (parsers n).sum e (.punct q :: rest) = some r) →
    Ev fun n => (parsers n).expr (out ++ .punct q :: rest) = some r

theorem chains_zero : Chains (α := α) [.int 0 "usize"] (.int 0 "usize") := by
  intro q rest r hq h
  refine (h.and (.const 1 fun n => rfl : Ev fun n => (parsers n).suffix (.int 0 "usize")
    (.punct q :: rest) = suffixStep (parsers (n-1)) (.int 0 "usize") (.punct q :: rest))).succ fun n hn => ?_
  show ((operand (parsers n) _).bind _) = _
  show ((((parsers n).suffix (.int 0 "usize") (.punct q :: rest))).bind _) = _
  rw [hn.2]
  rcases hq with rfl | rfl <;> exact hn.1

theorem chains_step {out op : List (Tok α)} {e oe : Expr α} (h : Chains out e)
    (ho : ∀ q rest, (q = Punct.plus ∨ q = .semi) →
      Ev fun n => operand (parsers n) (op ++ .punct q :: rest) = some (oe, .punct q :: rest)) :
    Chains (out ++ .punct .plus :: op) (.add e oe) := by
  intro q rest r hq hs
  have := h .plus (op ++ .punct q :: rest) r (.inl rfl) (((ho q rest hq).and hs).succ fun n hn => by
    show ((operand (parsers n) (op ++ .punct q :: rest)).bind _) = _
    rw [hn.1]; exact hn.2)
  simpa using this

theorem fold_chain (l : Layout) (fields : List (String × α)) (padFns : List String) (target : Nat)
    (is : List Nat) : ∀ (out : List (Tok α)) (e : CExpr α), Chains out (rust l e) →
    (∃ out' e',
      (is.foldlM (m := Except DeriveError) (init := out) fun output i => do
        let field ← index fields i
        let output := output ++
          [.punct .plus, .punct .colon2, .ident "core", .punct .colon2, .ident "mem", .punct .colon2,
            .ident "size_of", .punct .colon2, .punct .lt] ++ layoutVersionOfTy l field.2 ++
          [.punct .gt, .punct .lparen, .punct .rparen]
        if i < target then
          let padFn ← index padFns i
          return output ++ [.punct .plus, .ident padFn, .punct .lparen, .punct .rparen]
        else
          return output) = .ok out' ∧
      (is.foldlM (m := Except DeriveError) (init := e) fun output i => do
        let field ← index fields i
        let output := CExpr.add output (.sizeOf field.2)
        if i < target then
          let padFn ← index padFns i
          return .add output (.call padFn)
        else
          return output) = .ok e' ∧ Chains out' (rust l e')) ∨
    ∃ err,
      (is.foldlM (m := Except DeriveError) (init := out) fun output i => do
        let field ← index fields i
        let output := output ++
          [.punct .plus, .punct .colon2, .ident "core", .punct .colon2, .ident "mem", .punct .colon2,
            .ident "size_of", .punct .colon2, .punct .lt] ++ layoutVersionOfTy l field.2 ++
          [.punct .gt, .punct .lparen, .punct .rparen]
        if i < target then
          let padFn ← index padFns i
          return output ++ [.punct .plus, .ident padFn, .punct .lparen, .punct .rparen]
        else
          return output) = .error err ∧
      (is.foldlM (m := Except DeriveError) (init := e) fun output i => do
        let field ← index fields i
        let output := CExpr.add output (.sizeOf field.2)
        if i < target then
          let padFn ← index padFns i
          return .add output (.call padFn)
        else
          return output) = .error err := by
  induction is with
  | nil => intro out e h; exact .inl ⟨out, e, rfl, rfl, h⟩
  | cons i is ih =>
    intro out e h
    simp only [List.foldlM_cons]
    cases hf : index fields i with
    | error err => exact .inr ⟨err, rfl, rfl⟩
    | ok field =>
      have h1 : Chains (out ++
          [.punct .plus, .punct .colon2, .ident "core", .punct .colon2, .ident "mem", .punct .colon2,
            .ident "size_of", .punct .colon2, .punct .lt] ++ layoutVersionOfTy l field.2 ++
          [.punct .gt, .punct .lparen, .punct .rparen]) (rust l (.add e (.sizeOf field.2))) := by
        have := chains_step h fun q rest hq => operand_size l field.2 q hq rest
        simpa [rust, sizeTokens] using this
      by_cases hi : i < target
      · cases hp : index padFns i with
        | error err =>
          refine .inr ⟨err, ?_, ?_⟩ <;>
          simp only [hi, if_true, bind, Except.bind]
        | ok padFn =>
          have h2 := chains_step h1 fun q rest hq => operand_call padFn q hq rest
          simp only [hi, if_true, bind, Except.bind, pure, Except.pure] at ih ⊢
          exact ih _ (.add (.add e (.sizeOf field.2)) (.call padFn)) (by simpa [rust, callTokens] using h2)
      · simp only [hi, if_false, bind, Except.bind, pure, Except.pure] at ih ⊢
        exact ih _ _ h1

theorem offset_tokens (l : Layout) (fields : List (String × α)) (padFns : List String) (target : Nat) :
    (∃ out e, offsetAfterField l fields padFns target = .ok out ∧
      Crevice.offsetAfterField fields padFns target = .ok e ∧
      ∀ rest, Ev fun n => (parsers n).expr (out ++ .punct .semi :: rest) =
        some (rust l e, .punct .semi :: rest)) ∨
    ∃ err, offsetAfterField l fields padFns target = .error err ∧
      Crevice.offsetAfterField fields padFns target = .error err := by
  rcases fold_chain l fields padFns target (List.range (target+1)) [.int 0 "usize"] (.lit 0)
    (by simpa [rust] using chains_zero) with ⟨out, e, h1, h2, h3⟩ | h
  · exact .inl ⟨out, e, h1, h2, fun rest => h3 .semi rest _ (.inr rfl) (.const 1 fun n => rfl)⟩
  · exact .inr h

theorem exprs_aligns (l : Layout) (fields : List (String × α)) (rest : List (Tok α)) :
    Ev fun n => (parsers n).exprs .rbracket
      ((fields.map fun field => layoutAlignmentOfTy l field.2 ++ [.punct .comma]).flatten ++
        .punct .rbracket :: rest) = some (fields.map fun f => alExpr l f.2, rest) := by
  induction fields with
  | nil => exact .const 1 fun n => rfl
  | cons f r ih =>
    refine ((expr_align l f.2 .comma (.inl rfl)
      ((r.map fun field => layoutAlignmentOfTy l field.2 ++ [.punct .comma]).flatten ++
        .punct .rbracket :: rest)).and ih).succ fun n hn => ?_
    have : (parsers (n+1)).exprs .rbracket
      (((f :: r).map fun field => layoutAlignmentOfTy l field.2 ++ [.punct .comma]).flatten ++
        .punct .rbracket :: rest) = ((parsers n).expr (layoutAlignmentOfTy l f.2 ++ .punct .comma ::
        ((r.map fun field => layoutAlignmentOfTy l field.2 ++ [.punct .comma]).flatten ++
        .punct .rbracket :: rest))).bind fun (e, r) =>
        match r with
        | .punct .comma :: r => ((parsers n).exprs .rbracket r).map fun (es, r) => (e :: es, r)
        | .punct q :: r => if q = .rbracket then some ([e], r) else none
        | _ => none := by
      simp only [List.map_cons, List.flatten_cons, List.append_assoc, List.cons_append, List.nil_append]
      rfl
    rw [this, hn.1]
    simp [hn.2]

theorem rusts_map (l : Layout) (fields : List (String × α)) :
    rusts l (fields.map fun f => CExpr.alignmentOf f.2) = fields.map fun f => alExpr l f.2 := by
  induction fields with
  | nil => rfl
  | cons f r ih => simp [rusts, rust, ih]

/-- An expression from its parts. -/
theorem ev_expr {ts r : List (Tok α)} {e e' : Expr α} {r' : List (Tok α)} {res}
    (hp : Ev fun n => primary (parsers n) ts = some (e, r))
    (hs : Ev fun n => (parsers n).suffix e r = some (e', r'))
    (hm : Ev fun n => (parsers n).sum e' r' = some res) :
    Ev fun n => (parsers n).expr ts = some res :=
  (hp.and (hs.and hm)).succ fun n hn => by
    show ((((primary (parsers n) ts).bind _)).bind _) = _
    rw [hn.1]
    show (((parsers n).suffix _ _).bind _) = _
    rw [hn.2.1]
    exact hn.2.2

/-- `f(args)`, after `f`. -/
theorem ev_call {ts r : List (Tok α)} {e : Expr α} {es : List (Expr α)} {res}
    (h : Ev fun n => (parsers n).exprs .rparen ts = some (es, r))
    (hs : Ev fun n => (parsers n).suffix (.call e es) r = some res) :
    Ev fun n => (parsers n).suffix e (.punct .lparen :: ts) = some res :=
  (h.and hs).succ fun n hn => by
    show (((parsers n).exprs .rparen ts).bind _) = _
    rw [hn.1]
    exact hn.2

/-- `[es]`. -/
theorem ev_array {ts r : List (Tok α)} {es : List (Expr α)}
    (h : Ev fun n => (parsers n).exprs .rbracket ts = some (es, r)) :
    Ev fun n => primary (parsers n) (.punct .lbracket :: ts) = some (.array es, r) :=
  h.mono fun n hn => by
    show (((parsers n).exprs .rbracket ts).map _) = _
    rw [hn]; rfl

theorem expr_structAlignment (l : Layout) (fields : List (String × α)) (rest : List (Tok α)) :
    Ev fun n => (parsers n).expr (structAlignment l fields ++ .punct .semi :: rest) =
      some (rust l (Crevice.structAlignment l fields), .punct .semi :: rest) := by
  have h := exprs_aligns l fields (.punct .rparen :: .punct .semi :: rest)
  have h2 : Ev fun n => (parsers n).exprs .rbracket
      (.int l.minStructAlignment "usize" :: .punct .comma ::
        ((fields.map fun field => layoutAlignmentOfTy l field.2 ++ [.punct .comma]).flatten ++
        .punct .rbracket :: .punct .rparen :: .punct .semi :: rest)) =
      some (.int l.minStructAlignment "usize" :: fields.map fun f => alExpr l f.2,
        .punct .rparen :: .punct .semi :: rest) := by
    generalize ((fields.map fun field => layoutAlignmentOfTy l field.2 ++ [.punct .comma]).flatten ++
        .punct .rbracket :: .punct .rparen :: .punct .semi :: rest) = ts at h
    refine (h.and (.const 3 fun n => rfl : Ev fun n => (parsers n).expr
      (.int l.minStructAlignment "usize" :: .punct .comma :: ts) =
        some (.int l.minStructAlignment "usize", .punct .comma :: ts))).succ fun n hn => ?_
    show (((parsers n).expr _).bind _) = _
    rw [hn.2]
    show (((parsers n).exprs _ _).map _) = _
    rw [hn.1]; rfl
  have h3 : Ev fun n => (parsers n).exprs .rparen
      (.punct .lbracket :: .int l.minStructAlignment "usize" :: .punct .comma ::
        ((fields.map fun field => layoutAlignmentOfTy l field.2 ++ [.punct .comma]).flatten ++
        .punct .rbracket :: .punct .rparen :: .punct .semi :: rest)) =
      some ([.array (.int l.minStructAlignment "usize" :: fields.map fun f => alExpr l f.2)],
        .punct .semi :: rest) := by
    refine (ev_expr (ev_array h2) (.const 1 fun n => rfl) (.const 1 fun n => rfl)).succ fun n hn => ?_
    show (((parsers n).expr _).bind _) = _
    rw [hn]; rfl
  have h4 := ev_call (e := .path ⟨true, ["crevice", "internal", "max_arr"]⟩) h3 (.const 1 fun n => rfl)
  have h5 := ev_expr (ts := structAlignment l fields ++ .punct .semi :: rest)
    (.const 0 fun n => by simp only [structAlignment, List.append_assoc]; rfl) h4 (.const 1 fun n => rfl)
  rw [show rust l (Crevice.structAlignment l fields) = .call (.path ⟨true, ["crevice", "internal", "max_arr"]⟩)
    [.array (.int l.minStructAlignment "usize" :: fields.map fun f => alExpr l f.2)] by
      simp [Crevice.structAlignment, rust, rusts, rusts_map]]
  exact h5


/-- `let x = e;` and more of them. -/
theorem ev_let {x : String} {ts ts' r : List (Tok α)} {e : Expr α} {ls}
    (he : Ev fun n => (parsers n).expr ts = some (e, .punct .semi :: ts'))
    (hl : Ev fun n => (parsers n).lets ts' = some (ls, r)) :
    Ev fun n => (parsers n).lets (.kw .kLet :: .ident x :: .punct .eq :: ts) = some ((x, e) :: ls, r) :=
  (he.and hl).succ fun n hn => by
    show (((parsers n).expr ts).bind _) = _
    rw [hn.1]
    show (((parsers n).lets ts').map _) = _
    rw [hn.2]; rfl

/-- The function with the given offset and alignment. -/
def padFnAst (l : Layout) (name : String) (off al : CExpr α) : Fn α :=
  { attrs := [[.ident "doc", .punct .eq, .str " Tells how many bytes of padding have to be inserted after"],
      [.ident "doc", .punct .eq, .str " the field with index #index."],
      [.ident "allow", .punct .lparen, .ident "non_snake_case", .punct .rparen]]
    vis := .inherited
    const := true
    name := name
    params := []
    ret := .path ⟨false, ["usize"]⟩ []
    lets := [("starting_offset", rust l off), ("alignment", rust l al)]
    value := .call (.path ⟨true, ["crevice", "internal", "align_offset"]⟩)
      [.path ⟨false, ["starting_offset"]⟩, .path ⟨false, ["alignment"]⟩] }

theorem padFn_item (l : Layout) (fields : List (String × α)) (padFns : List String) (i : Nat)
    (padFn : String) :
    (∃ ts off al, padFnImpl l fields padFns i padFn = .ok ts ∧
      Crevice.padFnImpl l fields padFns i padFn = .ok (padFn, .alignOffset off al) ∧
      (∀ rest, Ev fun n => item (parsers n) (ts ++ rest) = some (.fn (padFnAst l padFn off al), rest)) ∧
      ∀ rest, ∃ t r, ts ++ rest = t :: r) ∨
    ∃ err, padFnImpl l fields padFns i padFn = .error err ∧
      Crevice.padFnImpl l fields padFns i padFn = .error err := by
  rcases offset_tokens l fields padFns i with ⟨out, e, h1, h2, h3⟩ | ⟨err, h1, h2⟩
  case inr => exact .inr ⟨err, by simp [padFnImpl, h1, bind, Except.bind],
    by simp [Crevice.padFnImpl, h2, bind, Except.bind]⟩
  let alT : List (Tok α) := match fields[i + 1]? with
    | some nextField => layoutAlignmentOfTy l nextField.2
    | none => structAlignment l fields
  let al : CExpr α := match fields[i + 1]? with
    | some nextField => .alignmentOf nextField.2
    | none => Crevice.structAlignment l fields
  have ha : ∀ rest, Ev fun n => (parsers n).expr (alT ++ .punct .semi :: rest) =
      some (rust l al, .punct .semi :: rest) := by
    intro rest
    simp only [alT, al]
    cases fields[i + 1]? with
    | some f => simpa [rust] using expr_align l f.2 .semi (.inr rfl) rest
    | none => exact expr_structAlignment l fields rest
  refine .inl ⟨docTokens " Tells how many bytes of padding have to be inserted after" ++
    docTokens " the field with index #index." ++
    [.punct .hash, .punct .lbracket, .ident "allow", .punct .lparen, .ident "non_snake_case",
      .punct .rparen, .punct .rbracket,
      .kw .kConst, .kw .kFn, .ident padFn, .punct .lparen, .punct .rparen, .punct .arrow, .ident "usize",
      .punct .lbrace,
      .kw .kLet, .ident "starting_offset", .punct .eq] ++ out ++ [.punct .semi,
      .kw .kLet, .ident "alignment", .punct .eq] ++ alT ++ [.punct .semi] ++
      internalPath "align_offset" ++
      [.punct .lparen, .ident "starting_offset", .punct .comma, .ident "alignment", .punct .rparen,
      .punct .rbrace], e, al, ?_, ?_, ?_, ?_⟩
  · simp only [padFnImpl, h1, bind, Except.bind, pure, Except.pure, alT]
    cases fields[i + 1]? <;> rfl
  · simp only [Crevice.padFnImpl, h2, bind, Except.bind, pure, Except.pure, al]
    cases fields[i + 1]? <;> rfl
  · intro rest
    have hl1 : Ev fun n => (parsers n).lets (internalPath "align_offset" ++
      [.punct .lparen, .ident "starting_offset", .punct .comma, .ident "alignment", .punct .rparen,
      .punct .rbrace] ++ rest) = some ([], internalPath "align_offset" ++
      [.punct .lparen, .ident "starting_offset", .punct .comma, .ident "alignment", .punct .rparen,
      .punct .rbrace] ++ rest) := .const 1 fun n => rfl
    have hl2 := ev_let (x := "alignment") (ha _) hl1
    have hl3 := ev_let (x := "starting_offset") (h3 _) hl2
    have he : Ev fun n => (parsers n).expr (internalPath "align_offset" ++
      [.punct .lparen, .ident "starting_offset", .punct .comma, .ident "alignment", .punct .rparen,
      .punct .rbrace] ++ rest) = some ((padFnAst l padFn e al).value, .punct .rbrace :: rest) :=
      .const 8 fun n => rfl
    refine (hl3.and (he.and (.const 4 fun n => ⟨rfl, fun _ => rfl⟩ : Ev fun n =>
      (parsers n).attrs (docTokens " Tells how many bytes of padding have to be inserted after" ++
        docTokens " the field with index #index." ++
        [.punct .hash, .punct .lbracket, .ident "allow", .punct .lparen, .ident "non_snake_case",
          .punct .rparen, .punct .rbracket,
          .kw .kConst, .kw .kFn, .ident padFn, .punct .lparen, .punct .rparen, .punct .arrow, .ident "usize",
          .punct .lbrace] ++ (.kw .kLet :: .ident "starting_offset" :: .punct .eq :: (out ++ .punct .semi ::
          (.kw .kLet :: .ident "alignment" :: .punct .eq :: (alT ++ .punct .semi ::
          (internalPath "align_offset" ++ [.punct .lparen, .ident "starting_offset", .punct .comma,
            .ident "alignment", .punct .rparen, .punct .rbrace] ++ rest)))))) =
        some ((padFnAst l padFn e al).attrs, [.kw .kConst, .kw .kFn, .ident padFn, .punct .lparen,
          .punct .rparen, .punct .arrow, .ident "usize",
          .punct .lbrace] ++ (.kw .kLet :: .ident "starting_offset" :: .punct .eq :: (out ++ .punct .semi ::
          (.kw .kLet :: .ident "alignment" :: .punct .eq :: (alT ++ .punct .semi ::
          (internalPath "align_offset" ++ [.punct .lparen, .ident "starting_offset", .punct .comma,
            .ident "alignment", .punct .rparen, .punct .rbrace] ++ rest)))))) ∧
        ∀ r : List (Tok α), (parsers n).ty (.ident "usize" :: .punct .lbrace :: r) =
          some (.path ⟨false, ["usize"]⟩ [], .punct .lbrace :: r)))).mono fun n hn => ?_
    obtain ⟨a, b, c, d⟩ := hn
    have hr : docTokens " Tells how many bytes of padding have to be inserted after" ++
      docTokens " the field with index #index." ++
      [.punct .hash, .punct .lbracket, .ident "allow", .punct .lparen, .ident "non_snake_case",
        .punct .rparen, .punct .rbracket,
        .kw .kConst, .kw .kFn, .ident padFn, .punct .lparen, .punct .rparen, .punct .arrow, .ident "usize",
        .punct .lbrace,
        .kw .kLet, .ident "starting_offset", .punct .eq] ++ out ++ [.punct .semi,
        .kw .kLet, .ident "alignment", .punct .eq] ++ alT ++ [.punct .semi] ++
        internalPath "align_offset" ++
        [.punct .lparen, .ident "starting_offset", .punct .comma, .ident "alignment", .punct .rparen,
        .punct .rbrace] ++ rest = docTokens " Tells how many bytes of padding have to be inserted after" ++
        docTokens " the field with index #index." ++
        [.punct .hash, .punct .lbracket, .ident "allow", .punct .lparen, .ident "non_snake_case",
          .punct .rparen, .punct .rbracket,
          .kw .kConst, .kw .kFn, .ident padFn, .punct .lparen, .punct .rparen, .punct .arrow, .ident "usize",
          .punct .lbrace] ++ (.kw .kLet :: .ident "starting_offset" :: .punct .eq :: (out ++ .punct .semi ::
          (.kw .kLet :: .ident "alignment" :: .punct .eq :: (alT ++ .punct .semi ::
          (internalPath "align_offset" ++ [.punct .lparen, .ident "starting_offset", .punct .comma,
            .ident "alignment", .punct .rparen, .punct .rbrace] ++ rest))))) := by
      simp
    rw [hr]
    unfold item
    rw [c]
    simp only [Option.bind_some, List.cons_append, List.nil_append, vis, function, params, d, a, b,
      Option.map_some]
    rfl
  · intro rest
    exact ⟨_, _, rfl⟩

end Crevice.Tokens
