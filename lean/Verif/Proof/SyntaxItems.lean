import Verif.Proof.Syntax
import Verif.Proof.Record
/-
Reading the tokens of the derive macros (`Model/Tokens.lean`) with the grammar of `Spec/RustSyntax.lean`:
structs and implementations.
-/
namespace Crevice.Tokens
open RustSyntax
variable {α : Type}

theorem mapM_sim {X A B E : Type} {f : X → Except E A} {g : X → Except E B} {R : A → B → Prop}
    (xs : List X)
    (h : ∀ x ∈ xs, (∃ a b, f x = .ok a ∧ g x = .ok b ∧ R a b) ∨ ∃ e, f x = .error e ∧ g x = .error e) :
    (∃ as bs, xs.mapM f = .ok as ∧ xs.mapM g = .ok bs ∧ All2 R as bs) ∨
      ∃ e, xs.mapM f = .error e ∧ xs.mapM g = .error e := by
  induction xs with
  | nil => exact .inl ⟨[], [], rfl, rfl, .nil⟩
  | cons x r ih =>
    simp only [List.mapM_cons]
    rcases h x (by simp) with ⟨a, b, h1, h2, h3⟩ | ⟨e, h1, h2⟩
    · rcases ih fun y hy => h y (by simp [hy]) with ⟨as, bs, k1, k2, k3⟩ | ⟨e, k1, k2⟩
      · exact .inl ⟨a :: as, b :: bs, by simp [h1, k1, bind, Except.bind, pure, Except.pure],
          by simp [h2, k2, bind, Except.bind, pure, Except.pure], .cons h3 k3⟩
      · exact .inr ⟨e, by simp [h1, k1, bind, Except.bind], by simp [h2, k2, bind, Except.bind]⟩
    · exact .inr ⟨e, by simp [h1, bind, Except.bind], by simp [h2, bind, Except.bind]⟩

/-! ### Generic parameters -/

theorem names_tokens (g : String) (gs : List String) (rest : List (Tok α)) :
    names (((g :: gs).map Tok.ident).intersperse (.punct .comma) ++ .punct .gt :: rest) =
      some (g :: gs, rest) := by
  induction gs generalizing g with
  | nil => rfl
  | cons h r ih =>
    have := ih h
    simp only [List.map_cons, List.intersperse_cons_cons, List.cons_append] at this ⊢
    rw [names, this]
    rfl

/-- Tokens that do not go on with `<`. -/
def NotLt : List (Tok α) → Prop
  | .punct .lt :: _ => False
  | _ => True

theorem generics_tokens (gs : List String) {rest : List (Tok α)} (h : NotLt rest) :
    generics (genericsTokens gs ++ rest) = some (gs, rest) := by
  cases gs with
  | nil =>
    simp only [genericsTokens, List.nil_append]
    unfold generics
    split
    · exact h.elim
    · rfl
  | cons g gs =>
    have := names_tokens g gs rest
    simp only [genericsTokens, List.cons_append, List.append_assoc, List.nil_append]
    exact this

/-- Tokens that do not go on with `<` or a path. -/
def NotPath : List (Tok α) → Prop
  | .punct .lt :: _ => False
  | .punct .colon2 :: _ => False
  | _ => True

theorem NotPath.notLt {ts : List (Tok α)} (h : NotPath ts) : NotLt ts := by
  unfold NotPath at h
  unfold NotLt
  split <;> simp_all

theorem segments_generics (gs : List String) {rest : List (Tok α)} (h : NotPath rest) :
    segments (genericsTokens gs ++ rest) = ([], genericsTokens gs ++ rest) := by
  cases gs with
  | nil =>
    simp only [genericsTokens, List.nil_append]
    unfold segments
    split
    · exact h.elim
    · rfl
  | cons g gs => rfl

theorem ty_named (s : String) (gs : List String) {rest : List (Tok α)} (h : NotPath rest) :
    Ev fun n => (parsers n).ty (.ident s :: (genericsTokens gs ++ rest)) =
      some (.path ⟨false, [s]⟩ gs, rest) :=
  .const 1 fun n => by
    have : (parsers (n+1)).ty (.ident s :: (genericsTokens gs ++ rest)) =
      (path (.ident s :: (genericsTokens gs ++ rest))).bind fun (q, r) =>
        (generics r).map fun (gs, r) => (.path q gs, r) := rfl
    rw [this]
    simp only [path, segments_generics gs h, Option.bind_some, generics_tokens gs h.notLt,
      Option.map_some]

/-! ### The struct -/

/-- Types of generated fields. -/
def fieldTy (l : Layout) : GenTy α → TyExpr α
  | .layoutOf x => verTy l x
  | .padBytes f => .array (.path ⟨false, ["u8"]⟩ []) (callExpr f)

/-- Fields of the generated struct: private. -/
def fieldAst (l : Layout) (f : String × GenTy α) : Field α := ⟨.inherited, f.1, fieldTy l f.2⟩

theorem ev_field {v : Vis} {s : String} {ts ts' rest : List (Tok α)} {t : TyExpr α} {fs}
    (ht : Ev fun n => (parsers n).ty ts = some (t, .punct .comma :: ts'))
    (hf : Ev fun n => (parsers n).fields ts' = some (fs, rest)) :
    Ev fun n => (parsers n).fields (visTokens v ++ .ident s :: .punct .colon :: ts) =
      some (⟨v, s, t⟩ :: fs, rest) :=
  (ht.and hf).succ fun n hn => by
    cases v <;>
    · show ((parsers n).ty ts).bind _ = _
      rw [hn.1]
      show ((parsers n).fields ts').map _ = _
      rw [hn.2]
      rfl

theorem ty_pad (l : Layout) (f : String) (rest : List (Tok α)) :
    Ev fun n => (parsers n).ty ([.punct .lbracket, .ident "u8", .punct .semi,
      .ident f, .punct .lparen, .punct .rparen, .punct .rbracket, .punct .comma] ++ rest) =
      some (fieldTy l (.padBytes f), .punct .comma :: rest) :=
  .const 5 fun _ => rfl

theorem structField_pair (l : Layout) (padFns : List String) (i : Nat) (field : String × α) :
    (∃ ts fs, generatedStructField l padFns i field = .ok ts ∧
      structFieldPair padFns i field = .ok fs ∧
      ∀ rest gs r, (Ev fun n => (parsers n).fields rest = some (gs, r)) →
        Ev fun n => (parsers n).fields (ts ++ rest) = some (fs.map (fieldAst l) ++ gs, r)) ∨
    ∃ err, generatedStructField l padFns i field = .error err ∧
      structFieldPair padFns i field = .error err := by
  unfold generatedStructField structFieldPair
  cases index padFns i with
  | error e => exact .inr ⟨e, rfl, rfl⟩
  | ok padFn =>
    refine .inl ⟨_, _, rfl, rfl, ?_⟩
    intro rest gs r h
    have h1 := ev_field (v := .inherited) (s := padFieldName i) (ty_pad l padFn rest) h
    have h2 := ev_field (v := .inherited) (s := field.1) (ty_version l field.2 (.punct .comma :: _)) h1
    simpa [visTokens, fieldAst, fieldTy] using h2

theorem ev_flatten {S : Type} {tss : List (List (Tok α))} {gss : List (List S)}
    {p : Nat → Parser α (List S)}
    (h : All2 (fun ts fs => ∀ rest gs r, (Ev fun n => p n rest = some (gs, r)) →
        Ev fun n => p n (ts ++ rest) = some (fs ++ gs, r)) tss gss)
    {rest gs r} (hr : Ev fun n => p n rest = some (gs, r)) :
    Ev fun n => p n (tss.flatten ++ rest) = some (gss.flatten ++ gs, r) := by
  induction h with
  | nil => exact hr
  | cons h _ ih =>
    simp only [List.flatten_cons, List.append_assoc]
    exact h _ _ _ ih

/-- The generated struct. -/
def structAst (l : Layout) (vis : Vis) (g : Generated α) : Item α :=
  .struct
    [[.ident "derive", .punct .lparen, .ident "Debug", .punct .comma,
      .ident "Clone", .punct .comma, .ident "Copy", .punct .rparen],
     [.ident "repr", .punct .lparen, .ident "C", .punct .rparen],
     [.ident "doc", .punct .lparen, .ident "hidden", .punct .rparen],
     [.ident "allow", .punct .lparen, .ident "warnings", .punct .rparen]]
    vis g.structName g.structParams (g.fields.map (fieldAst l))

theorem ev_items {ts rest : List (Tok α)} {i : Item α} {is}
    (hne : ∃ t r, ts ++ rest = t :: r)
    (hi : Ev fun n => item (parsers n) (ts ++ rest) = some (i, rest))
    (hr : Ev fun n => (parsers n).items rest = some (is, [])) :
    Ev fun n => (parsers n).items (ts ++ rest) = some (i :: is, []) :=
  (hi.and hr).succ fun n hn => by
    obtain ⟨t, r, ht⟩ := hne
    rw [ht] at hn ⊢
    show (item (parsers n) (t :: r)).bind _ = _
    rw [hn.1]
    show ((parsers n).items rest).map _ = _
    rw [hn.2]
    rfl

theorem struct_item (v : Vis) (name : String) (gs : List String) {body : List (Tok α)}
    {fs : List (Field α)}
    (hb : ∀ rest, Ev fun n => (parsers n).fields (body ++ .punct .rbrace :: rest) = some (fs, rest))
    (rest : List (Tok α)) :
    Ev fun n => item (parsers n) (structDefinition v name gs body ++ rest) =
      some (.struct
        [[.ident "derive", .punct .lparen, .ident "Debug", .punct .comma,
          .ident "Clone", .punct .comma, .ident "Copy", .punct .rparen],
         [.ident "repr", .punct .lparen, .ident "C", .punct .rparen],
         [.ident "doc", .punct .lparen, .ident "hidden", .punct .rparen],
         [.ident "allow", .punct .lparen, .ident "warnings", .punct .rparen]] v name gs fs, rest) := by
  have ha : Ev fun n => (parsers n).attrs (structDefinition v name gs body ++ rest) =
      some ([[.ident "derive", .punct .lparen, .ident "Debug", .punct .comma,
          .ident "Clone", .punct .comma, .ident "Copy", .punct .rparen],
         [.ident "repr", .punct .lparen, .ident "C", .punct .rparen],
         [.ident "doc", .punct .lparen, .ident "hidden", .punct .rparen],
         [.ident "allow", .punct .lparen, .ident "warnings", .punct .rparen]],
         visTokens v ++ .kw .kStruct :: .ident name :: (genericsTokens gs ++ .punct .lbrace ::
           (body ++ .punct .rbrace :: rest))) := by
    simp only [structDefinition, List.append_assoc, List.cons_append, List.nil_append]
    exact .const 5 fun n => by cases v <;> rfl
  refine (ha.and (hb rest)).mono fun n hn => ?_
  unfold item
  rw [hn.1]
  have hv : vis (visTokens v ++ .kw .kStruct :: .ident name :: (genericsTokens gs ++ .punct .lbrace ::
           (body ++ .punct .rbrace :: rest))) = some (v, .kw .kStruct :: .ident name ::
           (genericsTokens gs ++ .punct .lbrace :: (body ++ .punct .rbrace :: rest))) := by
    cases v <;> rfl
  simp only [Option.bind_some, hv]
  rw [generics_tokens gs (by trivial)]
  simp only [Option.bind_some, hn.2, Option.map_some]


/-! ### Implementations -/

theorem ty_of (s : String) (gs : List String) (ts : List (Tok α)) :
    Ev fun n => (parsers n).ty (.ident s :: (genericsTokens gs ++ .punct .lbrace :: ts)) =
      some (.path ⟨false, [s]⟩ gs, .punct .lbrace :: ts) :=
  ty_named s gs (by trivial)

theorem implementation_trait (u : Bool) {pt : List (Tok α)} {q : Path}
    (hp : ∀ r, path (pt ++ .kw .kFor :: r) = some (q, .kw .kFor :: r))
    (hlt : ∀ r, NotLt (pt ++ r)) (s : String) (gs : List String) {ts rest : List (Tok α)} {as}
    (ha : Ev fun n => (parsers n).assocs ts = some (as, rest)) :
    Ev fun n => implementation (parsers n) u (genericsTokens gs ++ (pt ++ .kw .kFor :: .ident s ::
        (genericsTokens gs ++ .punct .lbrace :: ts))) =
      some (.impl u gs (some q) (.path ⟨false, [s]⟩ gs) as, rest) :=
  ((ty_of s gs ts).and ha).mono fun n hn => by
    unfold implementation
    rw [generics_tokens gs (hlt _)]
    simp only [Option.bind_some, traitFor, hp, hn.1, hn.2, Option.map_some]

theorem implementation_inherent (u : Bool) (s : String) (gs : List String) {ts rest : List (Tok α)} {as}
    (ha : Ev fun n => (parsers n).assocs ts = some (as, rest)) :
    Ev fun n => implementation (parsers n) u (genericsTokens gs ++ .ident s ::
        (genericsTokens gs ++ .punct .lbrace :: ts)) =
      some (.impl u gs none (.path ⟨false, [s]⟩ gs) as, rest) :=
  ((ty_of s gs ts).and ha).mono fun n hn => by
    unfold implementation
    rw [generics_tokens gs (by trivial)]
    have : traitFor (.ident s :: (genericsTokens gs ++ .punct .lbrace :: ts)) =
        (none, .ident s :: (genericsTokens gs ++ .punct .lbrace :: ts)) := by
      unfold traitFor
      rw [path, segments_generics gs (by trivial)]
      cases gs <;> rfl
    simp only [Option.bind_some, this, hn.1, hn.2, Option.map_some]

theorem item_impl {ts rest : List (Tok α)} {i : Item α}
    (h : Ev fun n => implementation (parsers n) false ts = some (i, rest)) :
    Ev fun n => item (parsers n) (.kw .kImpl :: ts) = some (i, rest) :=
  (h.and (.const 1 fun _ => rfl : Ev fun n => (parsers n).attrs (.kw .kImpl :: ts) =
    some ([], .kw .kImpl :: ts))).mono fun n hn => by
    unfold item
    rw [hn.2]
    exact hn.1

theorem item_unsafe_impl {ts rest : List (Tok α)} {i : Item α}
    (h : Ev fun n => implementation (parsers n) true ts = some (i, rest)) :
    Ev fun n => item (parsers n) (.kw .kUnsafe :: .kw .kImpl :: ts) = some (i, rest) :=
  (h.and (.const 1 fun _ => rfl : Ev fun n => (parsers n).attrs (.kw .kUnsafe :: .kw .kImpl :: ts) =
    some ([], .kw .kUnsafe :: .kw .kImpl :: ts))).mono fun n hn => by
    unfold item
    rw [hn.2]
    exact hn.1

theorem ev_assoc_const {s : String} {ts ts' ts'' rest : List (Tok α)} {t e is}
    (ht : Ev fun n => (parsers n).ty ts = some (t, .punct .eq :: ts'))
    (he : Ev fun n => (parsers n).expr ts' = some (e, .punct .semi :: ts''))
    (hi : Ev fun n => (parsers n).assocs ts'' = some (is, rest)) :
    Ev fun n => (parsers n).assocs (.kw .kConst :: .ident s :: .punct .colon :: ts) =
      some (.const s t e :: is, rest) :=
  ((ht.and (he.and hi)).and (.const 1 fun _ => rfl : Ev fun n =>
    (parsers n).attrs (.kw .kConst :: .ident s :: .punct .colon :: ts) =
      some ([], .kw .kConst :: .ident s :: .punct .colon :: ts))).succ fun n hn => by
    obtain ⟨⟨a, b, c⟩, d⟩ := hn
    show ((parsers n).attrs _).bind _ = _
    rw [d]
    show ((parsers n).ty ts).bind _ = _
    rw [a]
    show ((parsers n).expr ts').bind _ = _
    rw [b]
    show ((parsers n).assocs ts'').map _ = _
    rw [c]
    rfl

theorem ev_assoc_type {s : String} {ts ts' rest : List (Tok α)} {t is}
    (ht : Ev fun n => (parsers n).ty ts = some (t, .punct .semi :: ts'))
    (hi : Ev fun n => (parsers n).assocs ts' = some (is, rest)) :
    Ev fun n => (parsers n).assocs (.kw .kType :: .ident s :: .punct .eq :: ts) =
      some (.type s t :: is, rest) :=
  ((ht.and hi).and (.const 1 fun _ => rfl : Ev fun n =>
    (parsers n).attrs (.kw .kType :: .ident s :: .punct .eq :: ts) =
      some ([], .kw .kType :: .ident s :: .punct .eq :: ts))).succ fun n hn => by
    obtain ⟨⟨a, c⟩, d⟩ := hn
    show ((parsers n).attrs _).bind _ = _
    rw [d]
    show ((parsers n).ty ts).bind _ = _
    rw [a]
    show ((parsers n).assocs ts').map _ = _
    rw [c]
    rfl

theorem ev_function (as v c) (s : String) {ts ts1 ts2 ts3 rest : List (Tok α)} {ps t ls e}
    (hp : Ev fun n => params (parsers n) ts = some (ps, .punct .arrow :: ts1))
    (ht : Ev fun n => (parsers n).ty ts1 = some (t, .punct .lbrace :: ts2))
    (hl : Ev fun n => (parsers n).lets ts2 = some (ls, ts3))
    (he : Ev fun n => (parsers n).expr ts3 = some (e, .punct .rbrace :: rest)) :
    Ev fun n => function (parsers n) as v c (.ident s :: .punct .lparen :: ts) =
      some (⟨as, v, c, s, ps, t, ls, e⟩, rest) :=
  (hp.and (ht.and (hl.and he))).mono fun n hn => by
    obtain ⟨h1, h2, h3, h4⟩ := hn
    simp only [function, h1, h2, h3, h4, Option.bind_some]

theorem ev_assoc_fn {ts ts' ts'' rest : List (Tok α)} {as v f is}
    (hne : ∀ r, ts ≠ .punct .rbrace :: r)
    (ha : Ev fun n => (parsers n).attrs ts = some (as, visTokens v ++ .kw .kFn :: ts'))
    (hf : Ev fun n => function (parsers n) as v false ts' = some (f, ts''))
    (hi : Ev fun n => (parsers n).assocs ts'' = some (is, rest)) :
    Ev fun n => (parsers n).assocs ts = some (.fn f :: is, rest) :=
  (ha.and (hf.and hi)).succ fun n hn => by
    obtain ⟨h1, h2, h3⟩ := hn
    show assocsStep (parsers n) ts = _
    unfold assocsStep
    split
    · exact absurd rfl (hne _)
    · have hv : vis (visTokens v ++ .kw .kFn :: ts') = some (v, .kw .kFn :: ts') := by
        cases v <;> rfl
      simp only [h1, Option.bind_some, hv, h2, h3, Option.map_some]

theorem ev_init {s : String} {ts ts' rest : List (Tok α)} {e i}
    (he : Ev fun n => (parsers n).expr ts = some (e, .punct .comma :: ts'))
    (hi : Ev fun n => (parsers n).inits ts' = some (i, rest)) :
    Ev fun n => (parsers n).inits (.ident s :: .punct .colon :: ts) =
      some (((s, e) :: i.1, i.2), rest) :=
  (he.and hi).succ fun n hn => by
    show ((parsers n).expr ts).bind _ = _
    rw [hn.1]
    show ((parsers n).inits ts').map _ = _
    rw [hn.2]
    rfl

/-- `self.f.as_stdN()`. -/
def asExpr (l : Layout) (f : String) : Expr α :=
  .method (.field (.path ⟨false, ["self"]⟩) f) (Expand.asStdMethod l) []

/-- `AsStdN::from_stdN(input.f)`. -/
def fromExpr (l : Layout) (f : String) : Expr α :=
  .call (.path ⟨true, (Expand.asStdTrait l).segments ++ [Expand.fromStdMethod l]⟩)
    [.field (.path ⟨false, ["input"]⟩) f]

theorem inits_as (l : Layout) (fields : List (String × α)) {ts rest : List (Tok α)} {b}
    (h : Ev fun n => (parsers n).inits ts = some (([], b), rest)) :
    Ev fun n => (parsers n).inits ((fields.map (generatedStructFieldInit l)).flatten ++ ts) =
      some ((fields.map fun f => (f.1, asExpr l f.1), b), rest) := by
  induction fields with
  | nil => exact h
  | cons f r ih =>
    have := ev_init (s := f.1) (ts := [.kw .kSelf, .punct .dot, .ident f.1, .punct .dot,
      .ident (asTraitMethod l), .punct .lparen, .punct .rparen, .punct .comma] ++
      ((r.map (generatedStructFieldInit l)).flatten ++ ts)) (e := asExpr l f.1)
      (.const 6 fun n => by cases l <;> rfl) ih
    simpa [generatedStructFieldInit] using this

theorem inits_from (l : Layout) (fields : List (String × α)) {ts rest : List (Tok α)} {b}
    (h : Ev fun n => (parsers n).inits ts = some (([], b), rest)) :
    Ev fun n => (parsers n).inits ((fields.map (inputStructFieldInit l)).flatten ++ ts) =
      some ((fields.map fun f => (f.1, fromExpr l f.1), b), rest) := by
  induction fields with
  | nil => exact h
  | cons f r ih =>
    have := ev_init (s := f.1) (ts := asTraitPath l ++
    [.punct .colon2, .ident (fromTraitMethod l), .punct .lparen, .ident "input", .punct .dot,
      .ident f.1, .punct .rparen, .punct .comma] ++
      ((r.map (inputStructFieldInit l)).flatten ++ ts)) (e := fromExpr l f.1)
      (.const 7 fun n => by cases l <;> rfl) ih
    simpa [inputStructFieldInit] using this

/-! ### The implementations -/

/-- The inherent `impl` with `as_bytes`. -/
def asBytesAst (l : Layout) (name : String) (gs : List String) : Item α :=
  .impl false gs none (.path ⟨false, [name]⟩ gs)
    [.fn { attrs := [[.ident "allow", .punct .lparen, .ident "warnings", .punct .rparen]]
           vis := .everywhere
           const := false
           name := "as_bytes"
           params := [.refSelf]
           ret := .ref none (.slice (.path ⟨false, ["u8"]⟩ []))
           lets := []
           value := .call (.assoc (.path ⟨false, [name]⟩ gs) (Expand.stdTrait l) "as_bytes")
             [.path ⟨false, ["self"]⟩] }]

theorem asBytes_item (l : Layout) (name : String) (gs : List String) (rest : List (Tok α)) :
    Ev fun n => item (parsers n) (asBytesImpl l name gs ++ rest) = some (asBytesAst l name gs, rest) := by
  have hq : Ev fun n => qualified (parsers n) (.ident name :: (genericsTokens gs ++ .kw .kAs :: (traitPath l ++
      [.punct .gt, .punct .colon2, .ident "as_bytes", .punct .lparen, .kw .kSelf, .punct .rparen,
    .punct .rbrace, .punct .rbrace] ++ rest))) =
      some ((.path ⟨false, [name]⟩ gs, Expand.stdTrait l, "as_bytes"),
        [.punct .lparen, .kw .kSelf, .punct .rparen, .punct .rbrace, .punct .rbrace] ++ rest) :=
    (ty_named name gs (rest := .kw .kAs :: (traitPath l ++
      [.punct .gt, .punct .colon2, .ident "as_bytes", .punct .lparen, .kw .kSelf, .punct .rparen,
    .punct .rbrace, .punct .rbrace] ++ rest)) (by trivial)).mono fun n hn => by
      unfold qualified
      rw [hn]
      cases l <;> rfl
  have he : Ev fun n => (parsers n).expr (.punct .lt :: .ident name :: (genericsTokens gs ++ .kw .kAs :: (traitPath l ++
      [.punct .gt, .punct .colon2, .ident "as_bytes", .punct .lparen, .kw .kSelf, .punct .rparen,
    .punct .rbrace, .punct .rbrace] ++ rest))) =
      some (.call (.assoc (.path ⟨false, [name]⟩ gs) (Expand.stdTrait l) "as_bytes")
             [.path ⟨false, ["self"]⟩], [.punct .rbrace, .punct .rbrace] ++ rest) := by
    refine ev_expr (e' := .call (.assoc (.path ⟨false, [name]⟩ gs) (Expand.stdTrait l) "as_bytes")
      [.path ⟨false, ["self"]⟩]) (r' := [.punct .rbrace, .punct .rbrace] ++ rest)
      (hq.mono fun n hn => ?_) (ev_call (es := [.path ⟨false, ["self"]⟩])
      (ts := [.kw .kSelf, .punct .rparen, .punct .rbrace, .punct .rbrace] ++ rest)
      (r := [.punct .rbrace, .punct .rbrace] ++ rest) (.const 5 fun _ => rfl) (.const 1 fun _ => rfl)) (.const 1 fun _ => rfl)
    show (qualified _ _).map _ = _
    rw [hn]
    rfl
  have hf := ev_function [[.ident "allow", .punct .lparen, .ident "warnings", .punct .rparen]] .everywhere
    false "as_bytes" (ts := [.punct .amp, .kw .kSelf, .punct .rparen,
      .punct .arrow, .punct .amp, .punct .lbracket, .ident "u8", .punct .rbracket, .punct .lbrace] ++
      (.punct .lt :: .ident name :: (genericsTokens gs ++ .kw .kAs :: (traitPath l ++
      [.punct .gt, .punct .colon2, .ident "as_bytes", .punct .lparen, .kw .kSelf, .punct .rparen,
    .punct .rbrace, .punct .rbrace] ++ rest))))
    (ps := [.refSelf]) (t := .ref none (.slice (.path ⟨false, ["u8"]⟩ []))) (.const 0 fun _ => rfl)
    (.const 3 fun _ => rfl) (.const 1 fun _ => rfl) he
  have hi := item_impl (implementation_inherent false name gs (ev_assoc_fn
    (ts := [.punct .hash, .punct .lbracket, .ident "allow", .punct .lparen, .ident "warnings", .punct .rparen,
    .punct .rbracket, .kw .kPub, .kw .kFn, .ident "as_bytes", .punct .lparen,
      .punct .amp, .kw .kSelf, .punct .rparen,
      .punct .arrow, .punct .amp, .punct .lbracket, .ident "u8", .punct .rbracket, .punct .lbrace] ++
      (.punct .lt :: .ident name :: (genericsTokens gs ++ .kw .kAs :: (traitPath l ++
      [.punct .gt, .punct .colon2, .ident "as_bytes", .punct .lparen, .kw .kSelf, .punct .rparen,
    .punct .rbrace, .punct .rbrace] ++ rest))))
    (fun r => by simp) (.const 2 fun _ => rfl) hf (.const 1 fun _ => rfl)))
  simpa [asBytesImpl, asBytesAst] using hi

theorem unsafe_item {pt : List (Tok α)} {q : Path}
    (hp : ∀ r, path (pt ++ .kw .kFor :: r) = some (q, .kw .kFor :: r))
    (hlt : ∀ r, NotLt (pt ++ r)) (s : String) (gs : List String) {body : List (Tok α)} {as}
    (ha : ∀ rest, Ev fun n => (parsers n).assocs (body ++ .punct .rbrace :: rest) = some (as, rest))
    (rest : List (Tok α)) :
    Ev fun n => item (parsers n) (unsafeImpl pt s gs body ++ rest) =
      some (.impl true gs (some q) (.path ⟨false, [s]⟩ gs) as, rest) := by
  have := item_unsafe_impl (implementation_trait true hp hlt s gs (ha rest))
  simpa [unsafeImpl] using this

/-- `as_stdN`. -/
def asFnAst (l : Layout) (fields : List (String × α)) : Fn α :=
  { attrs := []
    vis := .inherited
    const := false
    name := Expand.asStdMethod l
    params := [.refSelf]
    ret := .path ⟨false, ["Self", "Output"]⟩ []
    lets := []
    value := .struct ⟨false, ["Self", "Output"]⟩ (fields.map fun f => (f.1, asExpr l f.1))
      (some (.call (.path ⟨true, (Expand.bytemuckTrait "Zeroable").segments ++ ["zeroed"]⟩) [])) }

/-- `from_stdN`. -/
def fromFnAst (l : Layout) (fields : List (String × α)) : Fn α :=
  { attrs := []
    vis := .inherited
    const := false
    name := Expand.fromStdMethod l
    params := [.typed "input" (.path ⟨false, ["Self", "Output"]⟩ [])]
    ret := .path ⟨false, ["Self"]⟩ []
    lets := []
    value := .struct ⟨false, ["Self"]⟩ (fields.map fun f => (f.1, fromExpr l f.1)) none }

/-- `impl AsStdN for T`. -/
def asTraitAst (l : Layout) (inputName generatedName : String) (gs : List String)
    (fields : List (String × α)) : Item α :=
  .impl false gs (some (Expand.asStdTrait l)) (.path ⟨false, [inputName]⟩ gs)
    [.type "Output" (.path ⟨false, [generatedName]⟩ []), .fn (asFnAst l fields), .fn (fromFnAst l fields)]

theorem expr_self {ts r : List (Tok α)} {i}
    (h : Ev fun n => (parsers n).inits ts = some (i, .punct .rbrace :: r)) :
    Ev fun n => (parsers n).expr (.kw .kSelfTy :: .punct .lbrace :: ts) =
      some (.struct ⟨false, ["Self"]⟩ i.1 i.2, .punct .rbrace :: r) :=
  ev_expr (e := .struct ⟨false, ["Self"]⟩ i.1 i.2) (r := .punct .rbrace :: r) (h.mono fun n hn => by
    show ((parsers n).inits _).map _ = _
    rw [hn]
    rfl) (e' := .struct ⟨false, ["Self"]⟩ i.1 i.2) (r' := .punct .rbrace :: r)
    (.const 1 fun _ => rfl) (.const 1 fun _ => rfl)

theorem expr_output {ts r : List (Tok α)} {i}
    (h : Ev fun n => (parsers n).inits ts = some (i, .punct .rbrace :: r)) :
    Ev fun n => (parsers n).expr (.kw .kSelfTy :: .punct .colon2 :: .ident "Output" :: .punct .lbrace :: ts) =
      some (.struct ⟨false, ["Self", "Output"]⟩ i.1 i.2, .punct .rbrace :: r) :=
  ev_expr (e := .struct ⟨false, ["Self", "Output"]⟩ i.1 i.2) (r := .punct .rbrace :: r) (h.mono fun n hn => by
    show ((parsers n).inits _).map _ = _
    rw [hn]
    rfl) (e' := .struct ⟨false, ["Self", "Output"]⟩ i.1 i.2) (r' := .punct .rbrace :: r)
    (.const 1 fun _ => rfl) (.const 1 fun _ => rfl)

theorem lets_self (ts : List (Tok α)) :
    Ev fun n => (parsers n).lets (.kw .kSelfTy :: ts) = some ([], .kw .kSelfTy :: ts) :=
  .const 1 fun _ => rfl

theorem ty_output (ts : List (Tok α)) :
    Ev fun n => (parsers n).ty (.kw .kSelfTy :: .punct .colon2 :: .ident "Output" :: .punct .lbrace :: ts) =
      some (.path ⟨false, ["Self", "Output"]⟩ [], .punct .lbrace :: ts) :=
  .const 1 fun _ => rfl

theorem params_self (ts : List (Tok α)) :
    Ev fun n => params (parsers n) (.punct .amp :: .kw .kSelf :: .punct .rparen :: ts) =
      some ([.refSelf], ts) :=
  .const 0 fun _ => rfl

theorem asTrait_item (l : Layout) (inputName generatedName : String) (gs : List String)
    (fields : List (String × α)) (rest : List (Tok α)) :
    Ev fun n => item (parsers n) (asTraitImpl l inputName generatedName gs fields ++ rest) =
      some (asTraitAst l inputName generatedName gs fields, rest) := by
  -- the second method
  have hi2 := inits_from l fields (ts := .punct .rbrace :: .punct .rbrace :: .punct .rbrace :: rest)
    (rest := .punct .rbrace :: .punct .rbrace :: rest) (b := none) (.const 1 fun _ => rfl)
  have he2 : Ev fun n => (parsers n).expr (.kw .kSelfTy :: .punct .lbrace ::
      ((fields.map (inputStructFieldInit l)).flatten ++ .punct .rbrace :: .punct .rbrace :: .punct .rbrace :: rest)) =
      some (.struct ⟨false, ["Self"]⟩ (fields.map fun f => (f.1, fromExpr l f.1)) none,
        .punct .rbrace :: .punct .rbrace :: rest) := expr_self hi2
  have hf2 := ev_function [] .inherited false (Expand.fromStdMethod l) (ts := [.ident "input", .punct .colon,
    .kw .kSelfTy, .punct .colon2, .ident "Output", .punct .rparen, .punct .arrow, .kw .kSelfTy,
    .punct .lbrace] ++ (.kw .kSelfTy :: .punct .lbrace ::
      ((fields.map (inputStructFieldInit l)).flatten ++ .punct .rbrace :: .punct .rbrace :: .punct .rbrace :: rest)))
    (ps := [.typed "input" (.path ⟨false, ["Self", "Output"]⟩ [])]) (t := .path ⟨false, ["Self"]⟩ [])
    (.const 1 fun _ => rfl) (.const 1 fun _ => rfl) (.const 1 fun _ => rfl) he2
  have ha2 := ev_assoc_fn (v := .inherited) (ts := .kw .kFn :: .ident (Expand.fromStdMethod l) :: .punct .lparen ::
    ([.ident "input", .punct .colon,
    .kw .kSelfTy, .punct .colon2, .ident "Output", .punct .rparen, .punct .arrow, .kw .kSelfTy,
    .punct .lbrace] ++ (.kw .kSelfTy :: .punct .lbrace ::
      ((fields.map (inputStructFieldInit l)).flatten ++ .punct .rbrace :: .punct .rbrace :: .punct .rbrace :: rest))))
    (fun r => by simp) (.const 1 fun _ => rfl) hf2 (.const 1 fun _ => rfl)
  -- the first
  have hi1 := inits_as l fields (ts := .punct .dot2 :: (bytemuckPath "Zeroable" ++
    [.punct .colon2, .ident "zeroed", .punct .lparen, .punct .rparen, .punct .rbrace, .punct .rbrace] ++
    (.kw .kFn :: .ident (Expand.fromStdMethod l) :: .punct .lparen ::
    ([.ident "input", .punct .colon,
    .kw .kSelfTy, .punct .colon2, .ident "Output", .punct .rparen, .punct .arrow, .kw .kSelfTy,
    .punct .lbrace] ++ (.kw .kSelfTy :: .punct .lbrace ::
      ((fields.map (inputStructFieldInit l)).flatten ++ .punct .rbrace :: .punct .rbrace :: .punct .rbrace :: rest))))))
    (b := some (.call (.path ⟨true, (Expand.bytemuckTrait "Zeroable").segments ++ ["zeroed"]⟩) []))
    (.const 6 fun _ => rfl)
  have he1 := expr_output hi1
  have hf1 := ev_function [] .inherited false (Expand.asStdMethod l) (params_self _) (ty_output _)
    (lets_self _) he1
  have ha1 := ev_assoc_fn (v := .inherited) (ts := .kw .kFn :: .ident (Expand.asStdMethod l) :: .punct .lparen :: _)
    (fun r => by simp) (.const 1 fun _ => rfl) hf1 ha2
  have ha0 := ev_assoc_type (s := "Output") (ts := .ident generatedName :: .punct .semi :: _)
    (t := .path ⟨false, [generatedName]⟩ []) (.const 1 fun _ => rfl) ha1
  have := item_impl (implementation_trait false (pt := asTraitPath l) (q := Expand.asStdTrait l)
    (fun r => by cases l <;> rfl) (fun r => by cases l <;> trivial) inputName gs ha0)
  have e1 : asTraitMethod l = Expand.asStdMethod l := by cases l <;> rfl
  have e2 : fromTraitMethod l = Expand.fromStdMethod l := by cases l <;> rfl
  simpa [asTraitImpl, asTraitAst, asFnAst, fromFnAst, e1, e2] using this

end Crevice.Tokens
