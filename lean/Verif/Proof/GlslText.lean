import Verif.Spec.GlslText
import Verif.Model.Glsl
import Verif.Proof.Layout
/-
Lexing and parsing the text of `glsl_definition`.
-/
namespace Glsl

theorem lexFrom_word {w : List Char} (h : ∀ c ∈ w, isWordChar c = true) (acc r : List Char) :
    lexFrom acc (w ++ r) = lexFrom (w.reverse ++ acc) r := by
  induction w generalizing acc with
  | nil => rfl
  | cons c w ih =>
    rw [List.cons_append, lexFrom, if_pos (h c (by simp)), ih fun d hd => h d (by simp [hd])]
    simp

theorem wellSpelled_chars {s : String} (h : wellSpelled s = true) :
    ∃ c r, s.toList = c :: r ∧ ('0' ≤ c && c ≤ '9') = false ∧ ∀ d ∈ s.toList, isWordChar d = true := by
  unfold wellSpelled at h
  cases hs : s.toList with
  | nil => simp [hs] at h
  | cons c r =>
    rw [hs] at h
    simp only [Bool.and_eq_true, Bool.not_eq_true', List.all_eq_true] at h
    refine ⟨c, r, rfl, h.1.2, ?_⟩
    intro d hd
    rcases List.mem_cons.1 hd with rfl | hd
    · exact h.1.1
    · exact h.2 d hd

theorem endWord_reverse {s : String} (h : wellSpelled s = true) :
    endWord s.toList.reverse = some [.word s] := by
  obtain ⟨c, r, hs, hd, -⟩ := wellSpelled_chars h
  have hne : s.toList.reverse ≠ [] := by rw [hs]; simp
  cases hr : s.toList.reverse with
  | nil => exact absurd hr hne
  | cons a b =>
    have h2 : (a :: b).reverse = c :: r := by rw [← hr, List.reverse_reverse, hs]
    simp only [endWord, h2]
    rw [if_neg (by rw [hd]; simp), ← hs, String.ofList_toList]

/-- A word, then something that is not a word character. -/
theorem lex_word {s : String} (h : wellSpelled s = true) {c : Char} (hc : isWordChar c = false)
    (r : List Char) :
    lexFrom [] (s.toList ++ c :: r) = (lexFrom [] (c :: r)).map fun ts => .word s :: ts := by
  obtain ⟨_, _, _, _, hw⟩ := wellSpelled_chars h
  rw [lexFrom_word hw, List.append_nil]
  have h0 : endWord [] = some [] := rfl
  simp only [lexFrom, hc, Bool.false_eq_true, if_false, endWord_reverse h, Option.bind_some, h0]
  split
  · simp [Option.map_map, Function.comp_def]
  · split
    · simp [Option.map_map, Function.comp_def]
    · split
      · simp [Option.map_map, Function.comp_def]
      · split
        · simp [Option.map_map, Function.comp_def]
        · rfl

theorem lex_space {c : Char} (hc : isSpace c = true) (hw : isWordChar c = false) (r : List Char) :
    lexFrom [] (c :: r) = lexFrom [] r := by
  simp [lexFrom, hw, hc, endWord]

theorem isSpace_not_word {c : Char} (hc : isSpace c = true) : isWordChar c = false := by
  unfold isSpace at hc
  simp only [Bool.or_eq_true, beq_iff_eq] at hc
  rcases hc with ((((rfl | rfl) | rfl) | rfl) | rfl) | rfl <;> decide

theorem lex_spaces {w : List Char} (h : ∀ c ∈ w, isSpace c = true) (r : List Char) :
    lexFrom [] (w ++ r) = lexFrom [] r := by
  induction w with
  | nil => rfl
  | cons c w ih =>
    have hc := h c (by simp)
    rw [List.cons_append, lex_space hc (isSpace_not_word hc), ih fun d hd => h d (by simp [hd])]

theorem lex_lbrace (r : List Char) :
    lexFrom [] ('{' :: r) = (lexFrom [] r).map fun ts => .lbrace :: ts := by
  have h1 : isWordChar '{' = false := by decide
  have h2 : isSpace '{' = false := by decide
  simp [lexFrom, h1, h2, endWord]

theorem lex_rbrace (r : List Char) :
    lexFrom [] ('}' :: r) = (lexFrom [] r).map fun ts => .rbrace :: ts := by
  have h1 : isWordChar '}' = false := by decide
  have h2 : isSpace '}' = false := by decide
  simp [lexFrom, h1, h2, endWord]

theorem lex_semicolon (r : List Char) :
    lexFrom [] (';' :: r) = (lexFrom [] r).map fun ts => .semicolon :: ts := by
  have h1 : isWordChar ';' = false := by decide
  have h2 : isSpace ';' = false := by decide
  simp [lexFrom, h1, h2, endWord]

/-- Tokens of a member declaration. -/
def Member.tokens (m : Member) : List Token := [.word m.ty, .word m.name, .semicolon]

/-- Tokens of a structure definition. -/
def StructDecl.tokens (d : StructDecl) : List Token :=
  .word "struct" :: .word d.name :: .lbrace :: d.members.flatMap Member.tokens ++
    [.rbrace, .semicolon]

/-- A structure definition the grammar accepts. -/
structure StructDecl.Ok (d : StructDecl) : Prop where
  name : isIdentifier d.name = true
  members : ∀ m ∈ d.members, isTypeName m.ty = true ∧ isIdentifier m.name = true
  nonempty : d.members ≠ []

theorem parseMembers_tokens {ms : List Member}
    (h : ∀ m ∈ ms, isTypeName m.ty = true ∧ isIdentifier m.name = true) (r : List Token) :
    parseMembers (ms.flatMap Member.tokens ++ .rbrace :: r) = some (ms, r) := by
  induction ms with
  | nil => rfl
  | cons m ms ih =>
    have hm := h m (by simp)
    have ih' := ih fun x hx => h x (by simp [hx])
    simp only [List.flatMap_cons, Member.tokens, List.cons_append, List.nil_append, parseMembers]
    rw [if_pos (by rw [hm.1, hm.2]; rfl)]
    rw [ih']
    rfl

theorem parseStruct_tokens {d : StructDecl} (h : d.Ok) (r : List Token) :
    parseStruct (d.tokens ++ r) = some (d, r) := by
  obtain ⟨n, ms⟩ := d
  cases ms with
  | nil => exact absurd rfl h.nonempty
  | cons m ms =>
    have hm := parseMembers_tokens h.members (.semicolon :: r)
    simp only [StructDecl.tokens, List.append_assoc, List.cons_append, List.nil_append, parseStruct]
    rw [if_pos (by rw [h.name]; rfl), hm]

theorem parseStructs_tokens {ds : List StructDecl} (h : ∀ d ∈ ds, d.Ok) {fuel : Nat}
    (hf : ds.length ≤ fuel) : parseStructs fuel (ds.flatMap StructDecl.tokens) = some ds := by
  induction ds generalizing fuel with
  | nil => cases fuel <;> rfl
  | cons d ds ih =>
    cases fuel with
    | zero => simp at hf
    | succ fuel =>
      rw [List.flatMap_cons]
      have hne : ∃ a b, d.tokens ++ ds.flatMap StructDecl.tokens = a :: b := ⟨_, _, rfl⟩
      obtain ⟨a, b, hab⟩ := hne
      have hp := parseStruct_tokens (h d (by simp)) (ds.flatMap StructDecl.tokens)
      rw [hab] at hp ⊢
      simp only [parseStructs, hp]
      rw [ih (fun x hx => h x (by simp [hx])) (by simpa using hf)]
      rfl

theorem length_le_tokens (ds : List StructDecl) :
    ds.length ≤ (ds.flatMap StructDecl.tokens).length := by
  induction ds with
  | nil => simp
  | cons d ds ih =>
    rw [List.flatMap_cons, List.length_append, List.length_cons]
    have : 1 ≤ d.tokens.length := by simp [StructDecl.tokens]
    omega

theorem isIdentifier_spelled {s : String} (h : isIdentifier s = true) : wellSpelled s = true := by
  simp only [isIdentifier, Bool.and_eq_true] at h
  exact h.1.1

theorem lookup_mem {α β} [BEq α] [LawfulBEq α] {l : List (α × β)} {a : α} {b : β}
    (h : l.lookup a = some b) : (a, b) ∈ l := by
  induction l with
  | nil => simp at h
  | cons x r ih =>
    obtain ⟨x, y⟩ := x
    rw [List.lookup_cons] at h
    by_cases hx : a = x
    · subst hx
      simp only [beq_self_eq_true, Option.some.injEq] at h
      simp [h]
    · have hx' : (a == x) = false := by simpa using hx
      simp only [hx'] at h
      exact List.mem_cons_of_mem _ (ih h)

theorem isTypeName_spelled {s : String} (h : isTypeName s = true) : wellSpelled s = true := by
  simp only [isTypeName, Bool.or_eq_true, Option.isSome_iff_exists] at h
  rcases h with ⟨t, h⟩ | h
  · have hall : (builtinTypes.all fun x => wellSpelled x.1) = true := by decide
    exact List.all_eq_true.1 hall _ (lookup_mem h)
  · exact isIdentifier_spelled h

end Glsl

namespace Crevice

/-- The declaration a definition text stands for. -/
def declOf (name : String) (fields : List GlslField) : Glsl.StructDecl :=
  ⟨name, fields.map fun f => ⟨f.ty, f.name⟩⟩

/-- Characters of a member line. -/
def memberChars (f : GlslField) : List Char :=
  '\t' :: (f.ty.toList ++ ' ' :: (f.name.toList ++ [';', '\n']))

theorem foldl_push (fields : List GlslField) (out : String) :
    (fields.foldl (init := out) fun output field =>
      output ++ "\t" ++ field.ty ++ " " ++ field.name ++ ";\n").toList =
    out.toList ++ fields.flatMap memberChars := by
  induction fields generalizing out with
  | nil => simp
  | cons f r ih =>
    rw [List.foldl_cons, ih]
    simp [memberChars, String.toList_append]

theorem glslDefinition_toList (name : String) (fields : List GlslField) :
    (glslDefinition name fields).toList =
      "struct".toList ++ ' ' :: (name.toList ++ ' ' :: '{' :: '\n' ::
        (fields.flatMap memberChars ++ ['}', ';'])) := by
  simp only [glslDefinition]
  rw [String.toList_append, foldl_push]
  simp [String.toList_append]

open Glsl in
theorem lex_members {fields : List GlslField}
    (h : ∀ f ∈ fields, isTypeName f.ty = true ∧ isIdentifier f.name = true) (r : List Char) :
    lexFrom [] (fields.flatMap memberChars ++ r) =
      (lexFrom [] r).map fun ts => (declOf "" fields).members.flatMap Member.tokens ++ ts := by
  induction fields with
  | nil => simp [declOf]
  | cons f fs ih =>
    have hf := h f (by simp)
    have ih' := ih fun x hx => h x (by simp [hx])
    rw [List.flatMap_cons, memberChars]
    simp only [List.cons_append, List.append_assoc, List.nil_append]
    rw [lex_space (by decide) (by decide), lex_word (isTypeName_spelled hf.1) (by decide),
      lex_space (by decide) (by decide), lex_word (isIdentifier_spelled hf.2) (by decide),
      lex_semicolon, lex_space (by decide) (by decide), ih']
    simp [declOf, Member.tokens, Option.map_map, Function.comp_def]

open Glsl in
theorem lex_definition {name : String} {fields : List GlslField} (h : (declOf name fields).Ok)
    (r : List Char) :
    lexFrom [] ((glslDefinition name fields).toList ++ r) =
      (lexFrom [] r).map fun ts => (declOf name fields).tokens ++ ts := by
  have hm : ∀ f ∈ fields, isTypeName f.ty = true ∧ isIdentifier f.name = true := fun f hf =>
    h.members ⟨f.ty, f.name⟩ (List.mem_map_of_mem (f := fun f : GlslField => Member.mk f.ty f.name) hf)
  rw [glslDefinition_toList]
  simp only [List.cons_append, List.append_assoc, List.nil_append]
  rw [lex_word (by decide) (by decide), lex_space (by decide) (by decide),
    lex_word (isIdentifier_spelled (show isIdentifier name = true from h.name)) (by decide),
    lex_space (by decide) (by decide),
    lex_lbrace, lex_space (by decide) (by decide), lex_members hm, lex_rbrace, lex_semicolon]
  simp [declOf, StructDecl.tokens, Option.map_map, Function.comp_def]

open Glsl in
theorem lex_definitions {ds : List (String × List GlslField)} (h : ∀ d ∈ ds, (declOf d.1 d.2).Ok)
    {sep : String} (hs : ∀ c ∈ sep.toList, isSpace c = true) :
    lex (Glsl.shaderText sep (ds.map fun d => glslDefinition d.1 d.2)) =
      some ((ds.map fun d => declOf d.1 d.2).flatMap StructDecl.tokens) := by
  unfold lex
  induction ds with
  | nil => rfl
  | cons d ds ih =>
    have ih' := ih fun x hx => h x (by simp [hx])
    simp only [Glsl.shaderText, List.map_cons, List.foldr_cons, String.toList_append, List.append_assoc] at ih' ⊢
    rw [lex_definition (h d (by simp)), lex_spaces hs, ih']
    simp

open Glsl in
theorem parse_definitions {ds : List (String × List GlslField)} (h : ∀ d ∈ ds, (declOf d.1 d.2).Ok)
    {sep : String} (hs : ∀ c ∈ sep.toList, isSpace c = true) :
    parse (Glsl.shaderText sep (ds.map fun d => glslDefinition d.1 d.2)) =
      some (ds.map fun d => declOf d.1 d.2) := by
  unfold parse
  rw [lex_definitions h hs, Option.bind_some]
  refine parseStructs_tokens ?_ (length_le_tokens _)
  intro d hd
  obtain ⟨x, hx, rfl⟩ := List.mem_map.1 hd
  exact h x hx

/-! ### GLSL names of types -/

/-- Every `easy_impl!` row has the GLSL name of the type it stands for, in both modules. -/
theorem rows_glsl : (easyRows.all fun r =>
    match r.ty.glsl, Layout.std140.primitive r.stdName, Layout.std430.primitive r.stdName with
    | some g, some p, some q => (Glsl.builtinTypes.lookup p.glsl).isSome && p.glsl == q.glsl &&
        (match g, Glsl.builtinTypes.lookup p.glsl with
          | .vec s n, some (.vec s' n') => s == s' && n == n'
          | .mat s c r, some (.mat s' c' r') => s == s' && c == c' && r == r'
          | _, _ => false)
    | _, _, _ => false) = true := by decide +kernel

theorem row_glsl {r : EasyRow} (h : r ∈ easyRows) (l : Layout) :
    ∃ p g, l.primitive r.stdName = some p ∧ r.ty.glsl = some g ∧ Glsl.builtin p.glsl = some g ∧
      (Layout.std140.primitive r.stdName).map Primitive.glsl = some p.glsl := by
  have := List.all_eq_true.1 rows_glsl r h
  unfold Glsl.builtin
  split at this
  · rename_i g p q hg hp hq
    simp only [Bool.and_eq_true, beq_iff_eq] at this
    obtain ⟨⟨_, h2⟩, h3⟩ := this
    have hb : Glsl.builtinTypes.lookup p.glsl = some g := by
      split at h3
      · rename_i he
        simp only [Bool.and_eq_true, beq_iff_eq] at h3
        rw [he, h3.1, h3.2]
      · rename_i he
        simp only [Bool.and_eq_true, beq_iff_eq] at h3
        rw [he, h3.1.1, h3.1.2, h3.2]
      · exact absurd h3 (by simp)
    cases l
    · exact ⟨p, g, hp, hg, hb, by rw [hp]; rfl⟩
    · exact ⟨q, g, hq, hg, h2 ▸ hb, by rw [hp, ← h2]; rfl⟩
  · exact absurd this (by simp)

theorem mathGlslName_builtin {m : MathTy} {n : String} (h : mathGlslName m = some n) :
    ∃ g, Glsl.builtin n = some g ∧ m.glsl = some g := by
  simp only [mathGlslName, Option.bind_eq_some_iff, Option.map_eq_some_iff] at h
  obtain ⟨r, hr, p, hp, rfl⟩ := h
  obtain ⟨hm, rfl⟩ := easyRow_mem hr
  obtain ⟨p', g, hp', hg, hb, -⟩ := row_glsl hm .std140
  rw [hp] at hp'
  injection hp' with hp'
  subst hp'
  exact ⟨g, hb, hg⟩

theorem outputGlslName_builtin {l : Layout} {m : MathTy} {n : String}
    (h : outputGlslName l m = some n) : ∃ g, Glsl.builtin n = some g ∧ m.glsl = some g := by
  simp only [outputGlslName, Option.bind_eq_some_iff, Option.map_eq_some_iff] at h
  obtain ⟨r, hr, p, hp, rfl⟩ := h
  obtain ⟨hm, rfl⟩ := easyRow_mem hr
  obtain ⟨p', g, hp', hg, hb, -⟩ := row_glsl hm l
  rw [hp] at hp'
  injection hp' with hp'
  subst hp'
  exact ⟨g, hb, hg⟩

theorem scalarGlslName_builtin {s : Scalar} {n : String} (h : scalarGlslName s = some n) :
    ∃ g, Glsl.builtin n = some g ∧ (Ty.scalar s).glsl = some g := by
  cases s <;> simp only [scalarGlslName, Option.some.injEq, reduceCtorEq] at h <;> subst h <;>
    exact ⟨_, rfl, rfl⟩

theorem outputName_builtin {l : Layout} (t : Ty) {n : String} (h : t.outputName l = some n) :
    ∃ g, Glsl.builtin n = some g ∧ t.glsl = some g := by
  induction t using Ty.ind with
  | hs s => exact scalarGlslName_builtin (by simpa [Ty.outputName] using h)
  | hb => simp [Ty.outputName] at h
  | hm m => exact outputGlslName_builtin (by simpa [Ty.outputName] using h)
  | hf m =>
    simp only [Ty.outputName, Option.bind_eq_some_iff] at h
    obtain ⟨row, hr, h⟩ := h
    obtain ⟨g, hb, hg⟩ := outputGlslName_builtin h
    exact ⟨g, hb, by simp [Ty.glsl, foreignMath_row hr, hg]⟩
  | hst n fs ih => simp [Ty.outputName] at h
  | hd t ih => simp [Ty.outputName] at h
  | hu m t ih =>
    obtain ⟨g, hb, hg⟩ := ih (by simpa [Ty.outputName] using h)
    exact ⟨g, hb, by simpa [Ty.glsl] using hg⟩
  | ho l' t ih =>
    simp only [Ty.outputName] at h
    split at h
    · obtain ⟨g, hb, hg⟩ := ih h
      exact ⟨g, hb, by simpa [Ty.glsl] using hg⟩
    · simp at h

/-- The GLSL name of anything but a user struct is the name of the built-in type it stands for. -/
theorem glslName_builtin {t : Ty} {n : String} (h : t.glslName = some n)
    (hns : ∀ m fs, t ≠ .struct m fs) : ∃ g, Glsl.builtin n = some g ∧ t.glsl = some g := by
  cases t with
  | scalar s => exact scalarGlslName_builtin (by simpa [Ty.glslName] using h)
  | bool => simp [Ty.glslName] at h
  | math m => exact mathGlslName_builtin (by simpa [Ty.glslName] using h)
  | «foreign» m =>
    simp only [Ty.glslName, Option.bind_eq_some_iff] at h
    obtain ⟨row, hr, h⟩ := h
    obtain ⟨g, hb, hg⟩ := mathGlslName_builtin h
    exact ⟨g, hb, by simp [Ty.glsl, foreignMath_row hr, hg]⟩
  | struct m fs => exact absurd rfl (hns m fs)
  | dynamic t => simp [Ty.glslName] at h
  | output l t =>
    obtain ⟨g, hb, hg⟩ := outputName_builtin t (by simpa [Ty.glslName] using h)
    exact ⟨g, hb, by simpa [Ty.glsl] using hg⟩
  | user m t =>
    obtain ⟨g, hb, hg⟩ := outputName_builtin t (by simpa [Ty.glslName] using h)
    exact ⟨g, hb, by simpa [Ty.glsl] using hg⟩

theorem glslName_struct {m n : String} {fs : List (String × Ty)}
    (h : (Ty.struct m fs).glslName = some n) : n = m := by
  simp only [Ty.glslName, emitGlsl, Bind.bind, Except.bind, pure, Except.pure,
    Option.map_eq_some_iff] at h
  obtain ⟨_, _, h⟩ := h
  exact h.symm

/-- `NAME` and `FIELDS` of a user struct. -/
theorem glslStruct_eq {name : String} {fs : List (String × Ty)} {x : String × List GlslField}
    (h : glslStruct name fs = some x) :
    x.1 = name ∧ All2 (fun f (d : GlslField) => d.name = f.1 ∧ f.2.glslName = some d.ty) fs x.2 := by
  simp only [glslStruct, emitGlsl, Bind.bind, Except.bind, pure, Except.pure,
    Option.map_eq_some_iff] at h
  obtain ⟨fields, hf, rfl⟩ := h
  refine ⟨rfl, ?_⟩
  rw [mapM_map] at hf
  induction fs generalizing fields with
  | nil =>
    simp at hf
    subst hf
    exact .nil
  | cons f r ih =>
    rw [mapM_option_cons] at hf
    simp only [Option.bind_eq_some_iff, Option.map_eq_some_iff] at hf
    obtain ⟨d, ⟨ty, hty, rfl⟩, ds, hds, rfl⟩ := hf
    exact .cons ⟨rfl, hty⟩ (ih _ hds)

/-! ### Resolving the definitions -/

theorem builtin_of_identifier {s : String} (h : Glsl.isIdentifier s = true) :
    Glsl.builtin s = none := by
  simp only [Glsl.isIdentifier, Glsl.isKeyword, Bool.and_eq_true, Bool.not_eq_true',
    Bool.or_eq_false_iff] at h
  simpa using h.1.2.1

/-- What the surrounding program must satisfy for one struct `d` whose definition comes after those
of the structs `pre`. -/
structure StructReady (pre : List (String × List (String × Ty))) (d : String × List (String × Ty)) :
    Prop where
  name : Glsl.isIdentifier d.1 = true
  nonempty : d.2 ≠ []
  nodup : (d.2.map Prod.fst).Nodup
  fields : ∀ f ∈ d.2, Glsl.isIdentifier f.1 = true
  nested : ∀ f ∈ d.2, ∀ n gs, f.2 = .struct n gs → (n, gs) ∈ pre

/-- The definitions so far mean the structs `pre`. -/
structure EnvOk (pre : List (String × List (String × Ty))) (env : List (String × Glsl.Ty)) :
    Prop where
  found : ∀ d ∈ pre, ∃ g, env.lookup d.1 = some g ∧ (Ty.struct d.1 d.2).glsl = some g
  ident : ∀ d ∈ pre, Glsl.isIdentifier d.1 = true
  only : ∀ n, n ∉ pre.map Prod.fst → env.lookup n = none

theorem resolveMembers_ok {pre : List (String × List (String × Ty))} {env : List (String × Glsl.Ty)}
    (he : EnvOk pre env) {fs : List (String × Ty)} {fields : List GlslField}
    (hn : ∀ f ∈ fs, ∀ n gs, f.2 = .struct n gs → (n, gs) ∈ pre)
    (h : All2 (fun f (d : GlslField) => d.name = f.1 ∧ f.2.glslName = some d.ty) fs fields) :
    ∃ ms, Glsl.resolveMembers env (declOf "" fields).members = some ms ∧
      glslMembers fs = some ms := by
  induction h with
  | nil => exact ⟨[], rfl, rfl⟩
  | @cons f d fs ds hr _ ih =>
    obtain ⟨ms, h1, h2⟩ := ih fun f hf => hn f (by simp [hf])
    have key : ∃ g, Glsl.resolveName env d.ty = some g ∧ f.2.glsl = some g := by
      by_cases hs : ∃ m gs, f.2 = .struct m gs
      · obtain ⟨m, gs, hm⟩ := hs
        have hmem := hn f (by simp) m gs hm
        have hty : d.ty = m := glslName_struct (hm ▸ hr.2)
        obtain ⟨g, hg1, hg2⟩ := he.found _ hmem
        refine ⟨g, ?_, by rw [hm]; exact hg2⟩
        rw [Glsl.resolveName, hty, builtin_of_identifier (he.ident _ hmem)]
        exact hg1
      · obtain ⟨g, hb, hg⟩ := glslName_builtin hr.2 fun m gs hm => hs ⟨m, gs, hm⟩
        exact ⟨g, by rw [Glsl.resolveName, hb], hg⟩
    obtain ⟨g, hg1, hg2⟩ := key
    refine ⟨(f.1, g) :: ms, ?_, ?_⟩
    · simp only [declOf, List.map_cons, Glsl.resolveMembers, hg1, Option.bind_some] at h1 ⊢
      rw [h1, hr.1]
      rfl
    · obtain ⟨n, t⟩ := f
      simp only at hg2
      simp [glslMembers, hg2, h2]

theorem declOf_members (n : String) (fields : List GlslField) :
    (declOf n fields).members = (declOf "" fields).members := rfl

theorem all2_names {fs : List (String × Ty)} {fields : List GlslField}
    (h : All2 (fun f (d : GlslField) => d.name = f.1 ∧ f.2.glslName = some d.ty) fs fields) :
    (declOf "" fields).members.map Glsl.Member.name = fs.map Prod.fst := by
  induction h with
  | nil => rfl
  | cons hr _ ih =>
    simp only [declOf, List.map_cons] at ih ⊢
    rw [ih, hr.1]

theorem resolveDecls_ok {ds : List (String × List (String × Ty))} :
    ∀ {pre : List (String × List (String × Ty))} {env : List (String × Glsl.Ty)}
      {fss : List (String × List GlslField)},
    EnvOk pre env →
    (∀ a d b, ds = a ++ d :: b → StructReady (pre ++ a) d) →
    ((pre ++ ds).map Prod.fst).Nodup →
    All2 (fun d x => x.1 = d.1 ∧
      All2 (fun f (y : GlslField) => y.name = f.1 ∧ f.2.glslName = some y.ty) d.2 x.2) ds fss →
    ∃ env', Glsl.resolveDecls env (fss.map fun x => declOf x.1 x.2) = some env' ∧
      EnvOk (pre ++ ds) env' := by
  induction ds with
  | nil =>
    intro pre env fss he _ _ h
    cases h
    exact ⟨env, rfl, by simpa using he⟩
  | cons d ds ih =>
    intro pre env fss he hr hnd h
    cases h with
    | @cons _ x _ xs hx hxs =>
      have hd := hr [] d ds rfl
      rw [List.append_nil] at hd
      obtain ⟨ms, h1, h2⟩ := resolveMembers_ok he hd.nested hx.2
      have hnot : d.1 ∉ pre.map Prod.fst := by
        intro hm
        rw [List.map_append, List.nodup_append] at hnd
        exact hnd.2.2 d.1 hm d.1 (by simp) rfl
      have hnodup : ((declOf x.1 x.2).members.map Glsl.Member.name).Nodup := by
        rw [declOf_members, all2_names hx.2]
        exact hd.nodup
      have hne : ∃ g, (Ty.struct d.1 d.2).glsl = some g ∧ g = .struct d.1 ms := by
        refine ⟨_, ?_, rfl⟩
        have : d.2.isEmpty = false := by
          cases hd2 : d.2 with
          | nil => exact absurd hd2 hd.nonempty
          | cons => rfl
        simp [Ty.glsl, this, h2]
      have henv' : EnvOk (pre ++ [d]) ((d.1, .struct d.1 ms) :: env) := by
        refine ⟨?_, ?_, ?_⟩
        · intro e hem
          rw [List.mem_append, List.mem_singleton] at hem
          rcases hem with hem | rfl
          · have hne' : (e.1 == d.1) = false := by
              rw [beq_eq_false_iff_ne]
              intro heq
              exact hnot (heq ▸ List.mem_map_of_mem hem)
            rw [List.lookup_cons, hne']
            exact he.found e hem
          · obtain ⟨g, hg, rfl⟩ := hne
            exact ⟨_, by rw [List.lookup_cons, beq_self_eq_true], hg⟩
        · intro e hem
          rw [List.mem_append, List.mem_singleton] at hem
          rcases hem with hem | rfl
          · exact he.ident e hem
          · exact hd.name
        · intro n hn
          rw [List.map_append, List.mem_append, not_or] at hn
          have hne' : (n == d.1) = false := by
            rw [beq_eq_false_iff_ne]
            intro heq
            exact hn.2 (by simp [heq])
          rw [List.lookup_cons, hne']
          exact he.only n hn.1
      obtain ⟨env', h3, h4⟩ := ih (pre := pre ++ [d]) henv'
        (fun a e b heq => by
          have := hr (d :: a) e b (by rw [heq]; rfl)
          simpa using this)
        (by simpa using hnd) hxs
      refine ⟨env', ?_, by simpa using h4⟩
      rw [List.map_cons, Glsl.resolveDecls, if_pos]
      · rw [declOf_members, h1]
        simp only [Option.bind_some]
        have : (declOf x.1 x.2).name = d.1 := hx.1
        rw [this]
        exact h3
      · have : (declOf x.1 x.2).name = d.1 := hx.1
        rw [this, he.only _ hnot]
        simp [hnodup]

theorem declOf_ok {pre : List (String × List (String × Ty))} {d : String × List (String × Ty)}
    (hid : ∀ e ∈ pre, Glsl.isIdentifier e.1 = true)
    (h : StructReady pre d) {x : String × List GlslField} (hx : x.1 = d.1)
    (h2 : All2 (fun f (y : GlslField) => y.name = f.1 ∧ f.2.glslName = some y.ty) d.2 x.2) :
    (declOf x.1 x.2).Ok := by
  refine ⟨by rw [show (declOf x.1 x.2).name = d.1 from hx]; exact h.name, ?_, ?_⟩
  · rw [declOf_members]
    have hf := h.fields
    have hn := h.nested
    revert hf hn
    generalize d.2 = fs at h2
    generalize x.2 = ys at h2
    intro hf hn
    induction h2 with
    | nil => simp [declOf]
    | @cons f y fs ys hr _ ih =>
      intro m hm
      simp only [declOf, List.map_cons, List.mem_cons] at hm
      rcases hm with rfl | hm
      · refine ⟨?_, by rw [hr.1]; exact hf f (by simp)⟩
        by_cases hs : ∃ m gs, f.2 = .struct m gs
        · obtain ⟨m, gs, hm⟩ := hs
          have hty : y.ty = m := glslName_struct (hm ▸ hr.2)
          simp [Glsl.isTypeName, hty, hid _ (hn f (by simp) m gs hm)]
        · obtain ⟨g, hb, hg⟩ := glslName_builtin hr.2 fun m gs hm => hs ⟨m, gs, hm⟩
          simp [Glsl.isTypeName, hb]
      · exact ih (fun f hf' => hf f (by simp [hf'])) (fun f hf' => hn f (by simp [hf'])) m hm
  · intro hc
    have := all2_names h2
    rw [← declOf_members x.1, hc] at this
    exact h.nonempty (List.map_eq_nil_iff.1 this.symm)

end Crevice
