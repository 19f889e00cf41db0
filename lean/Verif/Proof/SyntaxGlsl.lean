import Verif.Proof.SyntaxEmit
import Verif.Proof.Decode
/-
The tokens of `#[derive(GlslStruct)]`, read, and their meaning.
-/
namespace Crevice.Tokens
open RustSyntax Expand
variable {α : Type}

/-- `GlslField { ty: <T as Glsl>::NAME, name: ".." }`. -/
def glslFieldAst (f : String × α) : Expr α :=
  .struct (glslItem "GlslField")
    [("ty", .assoc (.spliced f.2) (glslItem "Glsl") "NAME"), ("name", .str f.1)] none

theorem expr_glslField (f : String × α) (rest : List (Tok α)) :
    Ev fun n => (parsers n).expr (glslFieldTokens f ++ .punct .comma :: rest) =
      some (glslFieldAst f, .punct .comma :: rest) :=
  .const 6 fun _ => rfl

theorem exprs_glslFields (fields : List (String × α)) (rest : List (Tok α)) :
    Ev fun n => (parsers n).exprs .rbracket
      ((fields.map fun field => glslFieldTokens field ++ [.punct .comma]).flatten ++
        .punct .rbracket :: rest) = some (fields.map glslFieldAst, rest) := by
  induction fields with
  | nil => exact .const 1 fun n => rfl
  | cons f r ih =>
    refine ((expr_glslField f
      ((r.map fun field => glslFieldTokens field ++ [.punct .comma]).flatten ++
        .punct .rbracket :: rest)).and ih).succ fun n hn => ?_
    have : (parsers (n+1)).exprs .rbracket
      (((f :: r).map fun field => glslFieldTokens field ++ [.punct .comma]).flatten ++
        .punct .rbracket :: rest) = ((parsers n).expr (glslFieldTokens f ++ .punct .comma ::
        ((r.map fun field => glslFieldTokens field ++ [.punct .comma]).flatten ++
        .punct .rbracket :: rest))).bind fun (e, r) =>
        match r with
        | .punct .comma :: r => ((parsers n).exprs .rbracket r).map fun (es, r) => (e :: es, r)
        | .punct q :: r => if q = .rbracket then some ([e], r) else none
        | _ => none := by
      simp only [List.map_cons, List.flatten_cons, List.append_assoc, List.cons_append, List.nil_append]
      rfl
    rw [this, hn.1]
    simp [hn.2]

theorem expr_glslFields (fields : List (String × α)) (rest : List (Tok α)) :
    Ev fun n => (parsers n).expr (.punct .amp :: .punct .lbracket ::
      ((fields.map fun field => glslFieldTokens field ++ [.punct .comma]).flatten ++
        .punct .rbracket :: .punct .semi :: rest)) =
      some (.ref (.array (fields.map glslFieldAst)), .punct .semi :: rest) := by
  have h1 := ev_array (exprs_glslFields fields (.punct .semi :: rest))
  have h2 : Ev fun n => (parsers n).operand (.punct .lbracket ::
      ((fields.map fun field => glslFieldTokens field ++ [.punct .comma]).flatten ++
        .punct .rbracket :: .punct .semi :: rest)) =
      some (.array (fields.map glslFieldAst), .punct .semi :: rest) :=
    (h1.and (.const 1 fun _ => rfl : Ev fun n => (parsers n).suffix (.array (fields.map glslFieldAst))
      (.punct .semi :: rest) = some (.array (fields.map glslFieldAst), .punct .semi :: rest))).succ fun n hn => by
      show (primary (parsers n) _).bind _ = _
      rw [hn.1]
      exact hn.2
  refine ev_expr (e := .ref (.array (fields.map glslFieldAst))) (r := .punct .semi :: rest)
    (e' := .ref (.array (fields.map glslFieldAst))) (r' := .punct .semi :: rest) (h2.mono fun n hn => ?_)
    (.const 1 fun _ => rfl) (.const 1 fun _ => rfl)
  show ((parsers n).operand _).map _ = _
  rw [hn]
  rfl

/-- Everything that is generated. -/
def glslAst (name : String) (gs : List String) (fields : List (String × α)) : List (Item α) :=
  [.impl true gs (some (glslItem "Glsl")) (.path ⟨false, [name]⟩ gs)
     [.const "NAME" (.ref (some "static") (.path ⟨false, ["str"]⟩ [])) (.str name)],
   .impl true gs (some (glslItem "GlslStruct")) (.path ⟨false, [name]⟩ gs)
     [.const "FIELDS" (.ref (some "static") (.slice (.path (glslItem "GlslField") [])))
       (.ref (.array (fields.map glslFieldAst)))]]

theorem glsl_reads (input : DeriveInput α) {ts : List (Tok α)} (h : emitGlslTokens input = .ok ts) :
    ∃ fields, input.data = .structNamed fields ∧ Reads ts (glslAst input.ident input.generics fields) := by
  obtain ⟨name, gs, data⟩ := input
  cases data with
  | structNamed fields =>
    refine ⟨fields, rfl, ?_⟩
    have s1 : IsItem (α := α) (unsafeImpl (glslPath "Glsl") name gs
      ([.kw .kConst, .ident "NAME", .punct .colon, .punct .amp, .lifetime "static", .ident "str",
        .punct .eq, .str name, .punct .semi]))
      (.impl true gs (some (glslItem "Glsl")) (.path ⟨false, [name]⟩ gs)
       [.const "NAME" (.ref (some "static") (.path ⟨false, ["str"]⟩ [])) (.str name)]) := by
      refine ⟨unsafe_item (pt := glslPath "Glsl") (fun r => rfl) (fun r => trivial) _ gs fun rest => ?_,
        fun rest => ⟨_, _, rfl⟩⟩
      exact ev_assoc_const (s := "NAME") (ts := .punct .amp :: .lifetime "static" :: .ident "str" ::
        .punct .eq :: .str name :: .punct .semi :: .punct .rbrace :: rest) (.const 2 fun _ => rfl)
        (.const 3 fun _ => rfl) (.const 1 fun _ => rfl)
    have s2 : IsItem (unsafeImpl (glslPath "GlslStruct") name gs
      ([.kw .kConst, .ident "FIELDS", .punct .colon, .punct .amp, .lifetime "static", .punct .lbracket] ++
        glslPath "GlslField" ++ [.punct .rbracket, .punct .eq, .punct .amp, .punct .lbracket] ++
        (fields.map fun field => glslFieldTokens field ++ [.punct .comma]).flatten ++
        [.punct .rbracket, .punct .semi]))
      (.impl true gs (some (glslItem "GlslStruct")) (.path ⟨false, [name]⟩ gs)
       [.const "FIELDS" (.ref (some "static") (.slice (.path (glslItem "GlslField") [])))
         (.ref (.array (fields.map glslFieldAst)))]) := by
      refine ⟨unsafe_item (pt := glslPath "GlslStruct") (fun r => rfl) (fun r => trivial) _ gs fun rest => ?_,
        fun rest => ⟨_, _, rfl⟩⟩
      have := ev_assoc_const (s := "FIELDS") (ts := .punct .amp :: .lifetime "static" :: .punct .lbracket ::
        (glslPath "GlslField" ++ .punct .rbracket :: .punct .eq :: (.punct .amp :: .punct .lbracket ::
          ((fields.map fun field => glslFieldTokens field ++ [.punct .comma]).flatten ++
        .punct .rbracket :: .punct .semi :: .punct .rbrace :: rest))))
        (t := .ref (some "static") (.slice (.path (glslItem "GlslField") []))) (.const 3 fun _ => rfl)
        (expr_glslFields fields _) (is := []) (rest := rest) (.const 1 fun _ => rfl)
      simpa using this
    have r := reads_flatten (.cons s1 (.cons s2 .nil))
    simp only [emitGlslTokens, namedFields, bind, Except.bind, pure, Except.pure] at h
    injection h with h
    rw [← h]
    rw [List.flatten_cons, List.flatten_cons, List.flatten_nil, List.append_nil] at r
    exact r
  | structUnnamed _ => cases h
  | structUnit => cases h
  | enum => cases h
  | union => cases h

theorem glsl_compile (name : String) (gs : List String) (fields : List (String × Ty)) :
    compileGlsl name gs.length (glslAst name gs fields) = glslStruct name fields := by
  have i1 : findImpl (glslAst name gs fields) true (glslItem "Glsl") name gs.length =
      some [.const "NAME" (.ref (some "static") (.path ⟨false, ["str"]⟩ [])) (.str name)] := by
    simp [findImpl, glslAst, isName]
  have i2 : findImpl (glslAst name gs fields) true (glslItem "GlslStruct") name gs.length =
      some [.const "FIELDS" (.ref (some "static") (.slice (.path (glslItem "GlslField") [])))
         (.ref (.array (fields.map glslFieldAst)))] := by
    simp [findImpl, glslAst, isName, glslItem]
  have h : (fields.map glslFieldAst).mapM evalGlslField =
      (fields.map fun f => (f.2, f.1)).mapM fun (f : Ty × String) => f.1.glslName.map fun ty => GlslField.mk ty f.2 := by
    rw [mapM_map, mapM_map]
    refine mapM_congr fun f _ => ?_
    have h1 : evalStr (.assoc (.spliced f.2) (glslItem "Glsl") "NAME") = f.2.glslName := by
      rw [evalStr, if_pos ⟨rfl, rfl⟩]
    have h2 : ([("ty", .assoc (.spliced f.2) (glslItem "Glsl") "NAME"), ("name", .str f.1)] :
        List (String × Expr Ty)).lookup "ty" = some (.assoc (.spliced f.2) (glslItem "Glsl") "NAME") := rfl
    have h3 : ([("ty", .assoc (.spliced f.2) (glslItem "Glsl") "NAME"), ("name", .str f.1)] :
        List (String × Expr Ty)).lookup "name" = some (.str f.1) := rfl
    simp only [glslFieldAst, evalGlslField, h2, h3, Option.bind_some, h1, List.length_cons, List.length_nil,
      and_self, if_true, evalStr, Option.map_some]
    cases f.2.glslName <;> rfl
  simp only [compileGlsl, i1, i2, Option.bind_some]
  simp only [assocConst, List.findSome?_cons, isStr, isPath, isGlslFields]
  simp only [List.isEmpty, decide_true, Bool.and_self, and_self, if_true, Option.bind_some, evalStr,
    evalGlslFields, h, glslStruct, emitGlsl, bind, Except.bind, pure, Except.pure]

end Crevice.Tokens
