import Verif.Proof.SyntaxItems
/-
The tokens of the derive macro, read as a whole.
-/
namespace Crevice.Tokens
open RustSyntax
variable {α : Type}

/-- A padding function. -/
def padFnItem (l : Layout) (f : String × CExpr α) : Item α :=
  match f.2 with
  | .alignOffset off al => .fn (padFnAst l f.1 off al)
  | e => .fn (padFnAst l f.1 e e)

/-- Everything that is generated. -/
def ast (l : Layout) (vis : Vis) (inputName : String) (gs : List String) (fields : List (String × α))
    (g : Generated α) : List (Item α) :=
  g.padFns.map (padFnItem l) ++
    [structAst l vis g, asBytesAst l g.structName gs,
     .impl true gs (some (Expand.bytemuckTrait "Zeroable")) (.path ⟨false, [g.structName]⟩ gs) [],
     .impl true gs (some (Expand.bytemuckTrait "Pod")) (.path ⟨false, [g.structName]⟩ gs) [],
     .impl true gs (some (Expand.stdTrait l)) (.path ⟨false, [g.structName]⟩ gs)
       [.const "ALIGNMENT" (.path ⟨false, ["usize"]⟩ []) (rust l g.alignment)],
     asTraitAst l inputName g.structName gs fields]

/-- A text that is one item whatever follows. -/
def IsItem (ts : List (Tok α)) (i : Item α) : Prop :=
  (∀ rest, Ev fun n => item (parsers n) (ts ++ rest) = some (i, rest)) ∧ ∀ rest, ∃ t r, ts ++ rest = t :: r

theorem items_flatten {tss : List (List (Tok α))} {is : List (Item α)} (h : All2 IsItem tss is)
    {rest is'} (hr : Ev fun n => (parsers n).items rest = some (is', [])) :
    Ev fun n => (parsers n).items (tss.flatten ++ rest) = some (is ++ is', []) := by
  induction h with
  | nil => exact hr
  | cons h _ ih =>
    simp only [List.flatten_cons, List.append_assoc]
    exact ev_items (h.2 _) (h.1 _) ih

theorem reads_flatten {tss : List (List (Tok α))} {is : List (Item α)} (h : All2 IsItem tss is) :
    Reads tss.flatten is := by
  have := items_flatten h (rest := []) (is' := []) (.const 1 fun _ => rfl)
  have h2 : Ev fun n => (parsers n).items tss.flatten = some (is, []) := by simpa using this
  exact h2

/-- The padding functions, in both models. -/
theorem padFns_sim (l : Layout) (fields : List (String × α)) (padFns : List String) :
    (∃ tss fs, (padFns.zipIdx.mapM fun (padFn, i) => padFnImpl l fields padFns i padFn) = .ok tss ∧
      (padFns.zipIdx.mapM fun (padFn, i) => Crevice.padFnImpl l fields padFns i padFn) = .ok fs ∧
      All2 IsItem tss (fs.map (padFnItem l))) ∨
    ∃ e, (padFns.zipIdx.mapM fun (padFn, i) => padFnImpl l fields padFns i padFn) = .error e ∧
      (padFns.zipIdx.mapM fun (padFn, i) => Crevice.padFnImpl l fields padFns i padFn) = .error e := by
  rcases mapM_sim (R := fun ts f => IsItem ts (padFnItem l f)) padFns.zipIdx
    (f := fun (padFn, i) => padFnImpl l fields padFns i padFn)
    (g := fun (padFn, i) => Crevice.padFnImpl l fields padFns i padFn) (fun x _ => by
      rcases padFn_item l fields padFns x.2 x.1 with ⟨ts, off, al, h1, h2, h3, h4⟩ | h
      · exact .inl ⟨ts, _, h1, h2, h3, h4⟩
      · exact .inr h) with
    ⟨tss, fs, h1, h2, h3⟩ | h
  · refine .inl ⟨tss, fs, h1, h2, ?_⟩
    clear h1 h2
    induction h3 with
    | nil => exact .nil
    | cons h _ ih => exact .cons h ih
  · exact .inr h

/-- The fields of the struct, in both models. -/
theorem structFields_sim (l : Layout) (fields : List (String × α)) (padFns : List String) :
    (∃ tss fs, (fields.zipIdx.mapM fun (field, i) => generatedStructField l padFns i field) = .ok tss ∧
      (fields.zipIdx.mapM fun (field, i) => structFieldPair padFns i field) = .ok fs ∧
      ∀ rest, Ev fun n => (parsers n).fields (tss.flatten ++ .punct .rbrace :: rest) =
        some (fs.flatten.map (fieldAst l), rest)) ∨
    ∃ e, (fields.zipIdx.mapM fun (field, i) => generatedStructField l padFns i field) = .error e ∧
      (fields.zipIdx.mapM fun (field, i) => structFieldPair padFns i field) = .error e := by
  rcases mapM_sim (R := fun (ts : List (Tok α)) (fs : List (String × GenTy α)) =>
      ∀ rest gs r, (Ev fun n => (parsers n).fields rest = some (gs, r)) →
        Ev fun n => (parsers n).fields (ts ++ rest) = some (fs.map (fieldAst l) ++ gs, r)) fields.zipIdx
    (f := fun (field, i) => generatedStructField l padFns i field)
    (g := fun (field, i) => structFieldPair padFns i field)
    (fun x _ => structField_pair l padFns x.2 x.1) with ⟨tss, fs, h1, h2, h3⟩ | h
  · refine .inl ⟨tss, fs, h1, h2, fun rest => ?_⟩
    have h4 : All2 (fun (ts : List (Tok α)) (fs : List (Field α)) =>
      ∀ rest gs r, (Ev fun n => (parsers n).fields rest = some (gs, r)) →
        Ev fun n => (parsers n).fields (ts ++ rest) = some (fs ++ gs, r)) tss
        (fs.map fun f => f.map (fieldAst l)) := by
      clear h1 h2
      induction h3 with
      | nil => exact .nil
      | cons h _ ih => exact .cons h ih
    have h5 := ev_flatten (p := fun n => (parsers n).fields) h4 (rest := .punct .rbrace :: rest) (gs := [])
      (r := rest) (.const 1 fun _ => rfl)
    simpa [List.map_flatten] using h5
  · exact .inr h

theorem All2.append {A B : Type} {R : A → B → Prop} {as as' : List A} {bs bs' : List B} (h : All2 R as bs)
    (k : All2 R as' bs') : All2 R (as ++ as') (bs ++ bs') := by
  induction h with
  | nil => exact k
  | cons h _ ih => exact .cons h ih

/-- What the macro emits, in both models. -/
theorem emit_sim (l : Layout) (vis : Vis) (input : DeriveInput α) :
    (∃ ts fields g pads str, emitTokens l vis input = .ok ts ∧ input.data = .structNamed fields ∧
      emitLayout l input = .ok g ∧
      padFnImpls l input = .ok pads ∧ structItem l vis input = .ok str ∧
      Reads ts (ast l vis input.ident input.generics fields g) ∧
      Reads (str ++ pads) (structAst l vis g :: g.padFns.map (padFnItem l))) ∨
    ∃ e, emitTokens l vis input = .error e ∧ emitLayout l input = .error e := by
  obtain ⟨name, gs, data⟩ := input
  cases data with
  | structUnnamed _ => exact .inr ⟨.tupleStruct, rfl, rfl⟩
  | structUnit => exact .inr ⟨.unitStruct, rfl, rfl⟩
  | enum => exact .inr ⟨.notStruct, rfl, rfl⟩
  | union => exact .inr ⟨.notStruct, rfl, rfl⟩
  | structNamed fields =>
    rcases padFns_sim l fields (padFnNames l name fields.length) with ⟨tss, fs, h1, h2, h3⟩ | ⟨e, h1, h2⟩
    case inr =>
      exact .inr ⟨e, by simp [emitTokens, padFnImpls, namedFields, bind, Except.bind, h1],
        by simp [emitLayout, bind, Except.bind, h2]⟩
    rcases structFields_sim l fields (padFnNames l name fields.length) with ⟨sss, ss, k1, k2, k3⟩ | ⟨e, k1, k2⟩
    case inr =>
      exact .inr ⟨e, by simp [emitTokens, padFnImpls, structItem, namedFields, bind, Except.bind, h1, k1, pure,
          Except.pure],
        by simp [emitLayout, bind, Except.bind, h2, k2]⟩
    have s0 : IsItem (structDefinition vis (generatedName l name) gs sss.flatten)
        (structAst l vis
          { structName := generatedName l name
            structParams := gs
            outputArgs := []
            padFns := fs
            fields := ss.flatten
            alignment := Crevice.structAlignment l fields
            asInit := fields.map fun f => { dst := f.1, src := f.1, ty := f.2 }
            fromInit := fields.map fun f => { dst := f.1, src := f.1, ty := f.2 } }) :=
      ⟨struct_item vis (generatedName l name) gs k3, fun rest => ⟨_, _, rfl⟩⟩
    have s1 : IsItem (asBytesImpl (α := α) l (generatedName l name) gs) (asBytesAst l (generatedName l name) gs) :=
      ⟨asBytes_item l _ gs, fun rest => ⟨_, _, rfl⟩⟩
    have s2 (s : String) : IsItem (α := α) (unsafeImpl (bytemuckPath s) (generatedName l name) gs [])
        (.impl true gs (some (Expand.bytemuckTrait s)) (.path ⟨false, [generatedName l name]⟩ gs) []) :=
      ⟨unsafe_item (pt := bytemuckPath s) (fun r => rfl) (fun r => trivial) _ gs (fun rest => .const 1 fun _ => rfl),
        fun rest => ⟨_, _, rfl⟩⟩
    have s3 : IsItem (unsafeImpl (traitPath l) (generatedName l name) gs
        ([.kw .kConst, .ident "ALIGNMENT", .punct .colon, .ident "usize", .punct .eq] ++
          structAlignment l fields ++ [.punct .semi]))
        (.impl true gs (some (Expand.stdTrait l)) (.path ⟨false, [generatedName l name]⟩ gs)
          [.const "ALIGNMENT" (.path ⟨false, ["usize"]⟩ []) (rust l (Crevice.structAlignment l fields))]) := by
      refine ⟨unsafe_item (fun r => by cases l <;> rfl) (fun r => by cases l <;> trivial) _ gs (fun rest => ?_),
        fun rest => ⟨_, _, rfl⟩⟩
      have := ev_assoc_const (s := "ALIGNMENT") (ts := .ident "usize" :: .punct .eq ::
        (structAlignment l fields ++ .punct .semi :: .punct .rbrace :: rest))
        (t := .path ⟨false, ["usize"]⟩ [])
        (.const 1 fun _ => rfl) (expr_structAlignment l fields _) (is := []) (rest := rest) (.const 1 fun _ => rfl)
      simpa using this
    have s4 : IsItem (asTraitImpl l name (generatedName l name) gs fields)
        (asTraitAst l name (generatedName l name) gs fields) :=
      ⟨asTrait_item l _ _ gs fields, fun rest => ⟨_, _, rfl⟩⟩
    have r1 := reads_flatten (All2.append h3 (.cons s0 (.cons s1 (.cons (s2 "Zeroable") (.cons (s2 "Pod")
      (.cons s3 (.cons s4 .nil)))))))
    have r2 := reads_flatten (.cons s0 h3)
    exact .inl ⟨_, fields, _, tss.flatten, structDefinition vis (generatedName l name) gs sss.flatten,
      by simp [emitTokens, padFnImpls, structItem, namedFields, bind, Except.bind, h1, k1, pure, Except.pure]; rfl, rfl,
      by simp only [emitLayout, bind, Except.bind, h2, k2, pure, Except.pure],
      by simp [padFnImpls, namedFields, bind, Except.bind, h1, pure, Except.pure],
      by simp [structItem, namedFields, bind, Except.bind, k1, pure, Except.pure],
      by simpa [ast] using r1, r2⟩

end Crevice.Tokens
