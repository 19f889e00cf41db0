import Verif.Proof.GlslText
/-
The converse of `Proof/GlslText.lean`: text that lexes and parses is made of identifiers. And the
text determines its pieces, whatever the spelling of the names.
-/
namespace Glsl

theorem lexFrom_name {w : List Char} (hw : ∀ c ∈ w, isNameChar c = true) {c : Char}
    (hc : isWordChar c = false) (acc r : List Char) {ts : List Token}
    (h : lexFrom acc (w ++ c :: r) = some ts) :
    (∀ d ∈ w, isWordChar d = true) ∧
      ∃ us vs, endWord (w.reverse ++ acc) = some us ∧ lexFrom [] (c :: r) = some vs ∧ ts = us ++ vs := by
  induction w generalizing acc with
  | nil =>
    refine ⟨by simp, ?_⟩
    simp only [List.nil_append, List.reverse_nil] at h ⊢
    simp only [lexFrom, hc, Bool.false_eq_true, if_false, Option.bind_eq_some_iff] at h
    obtain ⟨us, hus, h⟩ := h
    refine ⟨us, ?_⟩
    have h0 : endWord [] = some [] := rfl
    simp only [lexFrom, hc, Bool.false_eq_true, if_false, h0, Option.bind_some, List.nil_append]
    by_cases h1 : isSpace c = true
    · simp only [h1, if_true, Option.map_eq_some_iff] at h ⊢
      obtain ⟨vs, hv, rfl⟩ := h
      exact ⟨vs, hus, ⟨vs, hv, rfl⟩, rfl⟩
    · simp only [h1, Bool.false_eq_true, if_false] at h ⊢
      by_cases h2 : (c == '{') = true
      · simp only [h2, if_true, Option.map_eq_some_iff] at h ⊢
        obtain ⟨vs, hv, rfl⟩ := h
        exact ⟨_, hus, ⟨vs, hv, rfl⟩, rfl⟩
      · simp only [h2, Bool.false_eq_true, if_false] at h ⊢
        by_cases h3 : (c == '}') = true
        · simp only [h3, if_true, Option.map_eq_some_iff] at h ⊢
          obtain ⟨vs, hv, rfl⟩ := h
          exact ⟨_, hus, ⟨vs, hv, rfl⟩, rfl⟩
        · simp only [h3, Bool.false_eq_true, if_false] at h ⊢
          by_cases h4 : (c == ';') = true
          · simp only [h4, if_true, Option.map_eq_some_iff] at h ⊢
            obtain ⟨vs, hv, rfl⟩ := h
            exact ⟨_, hus, ⟨vs, hv, rfl⟩, rfl⟩
          · simp [h4] at h
  | cons d w ih =>
    rw [List.cons_append, lexFrom] at h
    by_cases hd : isWordChar d = true
    · rw [if_pos hd] at h
      obtain ⟨h1, us, vs, h2, h3, h4⟩ := ih (fun x hx => hw x (by simp [hx])) _ h
      refine ⟨by simpa using ⟨hd, h1⟩, us, vs, ?_, h3, h4⟩
      simpa using h2
    · exfalso
      have hn := hw d (by simp)
      simp only [isNameChar, Bool.not_eq_true', Bool.or_eq_false_iff] at hn
      obtain ⟨⟨⟨n1, n2⟩, n3⟩, n4⟩ := hn
      simp [hd, n1, n2, n3, n4] at h

/-- A name that is lexed is a word. -/
theorem lex_name {s : String} (hs : isName s = true) {c : Char} (hc : isWordChar c = false)
    (r : List Char) {ts : List Token} (h : lexFrom [] (s.toList ++ c :: r) = some ts) :
    wellSpelled s = true ∧ ∃ vs, lexFrom [] (c :: r) = some vs ∧ ts = .word s :: vs := by
  simp only [isName, Bool.and_eq_true, List.all_eq_true] at hs
  obtain ⟨h1, us, vs, h2, h3, rfl⟩ := lexFrom_name hs.2 hc [] r h
  have hne : s.toList ≠ [] := by simpa using hs.1
  have hw : wellSpelled s = true := by
    unfold wellSpelled
    cases hl : s.toList with
    | nil => exact absurd hl hne
    | cons d w =>
      rw [hl] at h1 h2
      have hd : ¬ (('0' ≤ d && d ≤ '9') = true) := by
        intro hd
        rw [List.append_nil] at h2
        unfold endWord at h2
        split at h2
        · rename_i e; simp at e
        · rename_i e
          split at h2
          · rename_i e'
            simp only [List.reverse_reverse, List.cons.injEq] at e'
            obtain ⟨rfl, rfl⟩ := e'
            rw [if_pos hd] at h2
            cases h2
          · rename_i e'
            simp at e'
      have e1 := h1 d (by simp)
      simp only [e1, Bool.true_and, Bool.and_eq_true, List.all_eq_true]
      exact ⟨by rw [Bool.not_eq_true'] ; simpa only [Bool.not_eq_true] using hd, fun x hx => h1 x (by simp [hx])⟩
  refine ⟨hw, vs, h3, ?_⟩
  rw [List.append_nil, endWord_reverse hw] at h2
  injection h2 with h2
  rw [← h2]; rfl

theorem builtin_isName {s : String} (h : (builtin s).isSome = true) : isName s = true := by
  obtain ⟨t, h⟩ := Option.isSome_iff_exists.1 h
  have hall : (builtinTypes.all fun x => isName x.1) = true := by decide
  exact List.all_eq_true.1 hall _ (lookup_mem h)

theorem isWord_isName {c : Char} (h : isWordChar c = true) : isNameChar c = true := by
  have hs : isSpace c = false := by
    by_cases hs : isSpace c = true
    · rw [isSpace_not_word hs] at h; cases h
    · simpa using hs
  simp only [isNameChar, hs, Bool.false_or, Bool.not_eq_true', Bool.or_eq_false_iff]
  refine ⟨⟨?_, ?_⟩, ?_⟩ <;>
  · rw [beq_eq_false_iff_ne]
    rintro rfl
    revert h
    decide

/-- Every GLSL identifier is a name. -/
theorem wellSpelled_isName {s : String} (h : wellSpelled s = true) : isName s = true := by
  obtain ⟨c, r, hs, -, hw⟩ := wellSpelled_chars h
  simp only [isName, Bool.and_eq_true, List.all_eq_true]
  exact ⟨by rw [hs]; rfl, fun d hd => isWord_isName (hw d hd)⟩

theorem parseMembers_ok {ms ms' : List Member} {r r' : List Token}
    (h : parseMembers (ms.flatMap Member.tokens ++ .rbrace :: r) = some (ms', r')) :
    ms' = ms ∧ ∀ m ∈ ms, isTypeName m.ty = true ∧ isIdentifier m.name = true := by
  induction ms generalizing ms' with
  | nil =>
    simp only [List.flatMap_nil, List.nil_append, parseMembers, Option.some.injEq,
      Prod.mk.injEq] at h
    exact ⟨h.1.symm, by simp⟩
  | cons m ms ih =>
    simp only [List.flatMap_cons, Member.tokens, List.cons_append, List.nil_append,
      parseMembers] at h
    by_cases hm : (isTypeName m.ty && isIdentifier m.name) = true
    · rw [if_pos hm] at h
      simp only [Option.map_eq_some_iff, Prod.mk.injEq] at h
      obtain ⟨x, hx, rfl, rfl⟩ := h
      obtain ⟨h1, h2⟩ := ih (ms' := x.1) hx
      rw [Bool.and_eq_true] at hm
      exact ⟨by rw [h1], by simpa using ⟨hm, h2⟩⟩
    · rw [if_neg hm] at h
      cases h

theorem parse_tokens_ok {d : StructDecl} {fuel : Nat} {ds : List StructDecl}
    (h : parseStructs fuel d.tokens = some ds) : d.Ok := by
  obtain ⟨n, ms⟩ := d
  cases fuel with
  | zero => simp [StructDecl.tokens, parseStructs] at h
  | succ fuel =>
    simp only [StructDecl.tokens, List.cons_append, parseStructs, parseStruct] at h
    split at h
    · rename_i d' r hp
      split at hp
      · rename_i hn
        split at hp
        · rename_i m ms' r' hm
          obtain ⟨e1, e2⟩ := parseMembers_ok hm
          refine ⟨by simpa using hn, e2, ?_⟩
          rintro (rfl : ms = [])
          cases e1
        · cases hp
      · cases hp
    · cases h

end Glsl

namespace Crevice
open Glsl

theorem lex_members_conv {fields : List GlslField}
    (hn : ∀ f ∈ fields, isName f.ty = true ∧ isName f.name = true) (r : List Char)
    {ts : List Token} (h : lexFrom [] (fields.flatMap memberChars ++ r) = some ts) :
    ∃ us, lexFrom [] r = some us ∧
      ts = (declOf "" fields).members.flatMap Member.tokens ++ us := by
  induction fields generalizing ts with
  | nil => exact ⟨ts, by simpa using h, by simp [declOf]⟩
  | cons f fs ih =>
    have hf := hn f (by simp)
    rw [List.flatMap_cons, memberChars] at h
    simp only [List.cons_append, List.append_assoc, List.nil_append] at h
    rw [lex_space (by decide) (by decide)] at h
    obtain ⟨-, vs, h1, rfl⟩ := lex_name hf.1 (by decide) _ h
    rw [lex_space (by decide) (by decide)] at h1
    obtain ⟨-, vs', h2, rfl⟩ := lex_name hf.2 (by decide) _ h1
    rw [lex_semicolon, lex_space (by decide) (by decide), Option.map_eq_some_iff] at h2
    obtain ⟨vs'', h3, rfl⟩ := h2
    obtain ⟨us, h4, rfl⟩ := ih (fun x hx => hn x (by simp [hx])) h3
    exact ⟨us, h4, by simp [declOf, Member.tokens]⟩

theorem parse_definition_conv {name : String} {fields : List GlslField} (hname : isName name = true)
    (hn : ∀ f ∈ fields, isName f.ty = true ∧ isName f.name = true) {ds : List StructDecl}
    (h : parse (glslDefinition name fields) = some ds) : (declOf name fields).Ok := by
  simp only [parse, Option.bind_eq_some_iff] at h
  obtain ⟨ts, hl, hp⟩ := h
  rw [lex, glslDefinition_toList, lex_word (by decide) (by decide),
    lex_space (by decide) (by decide), Option.map_eq_some_iff] at hl
  obtain ⟨us, hu, rfl⟩ := hl
  obtain ⟨-, vs, h1, rfl⟩ := lex_name hname (by decide) _ hu
  rw [lex_space (by decide) (by decide), lex_lbrace, lex_space (by decide) (by decide),
    Option.map_eq_some_iff] at h1
  obtain ⟨vs', h2, rfl⟩ := h1
  obtain ⟨ws, h3, rfl⟩ := lex_members_conv hn _ h2
  rw [lex_rbrace, lex_semicolon] at h3
  have h0 : lexFrom [] [] = some [] := rfl
  rw [h0] at h3
  injection h3 with h3
  subst h3
  have he : Token.word "struct" :: Token.word name :: Token.lbrace ::
      ((declOf "" fields).members.flatMap Member.tokens ++ [.rbrace, .semicolon]) =
      (declOf name fields).tokens := by
    simp [StructDecl.tokens, declOf]
  change parseStructs _ (Token.word "struct" :: Token.word name :: Token.lbrace ::
      ((declOf "" fields).members.flatMap Member.tokens ++ [.rbrace, .semicolon])) = _ at hp
  rw [he] at hp
  exact parse_tokens_ok hp

/-! ### The text determines its pieces -/

theorem split_unique {w w' : List Char} {c : Char} {r r' : List Char} (h : c ∉ w) (h' : c ∉ w')
    (he : w ++ c :: r = w' ++ c :: r') : w = w' ∧ r = r' := by
  induction w generalizing w' with
  | nil =>
    cases w' with
    | nil => simpa using he
    | cons d w' =>
      simp only [List.nil_append, List.cons_append, List.cons.injEq] at he
      exact absurd (by simp [he.1]) h'
  | cons d w ih =>
    cases w' with
    | nil =>
      simp only [List.nil_append, List.cons_append, List.cons.injEq] at he
      exact absurd (by simp [he.1]) h
    | cons d' w' =>
      simp only [List.cons_append, List.cons.injEq] at he
      obtain ⟨rfl, he⟩ := he
      obtain ⟨rfl, rfl⟩ := ih (fun hm => h (by simp [hm])) (fun hm => h' (by simp [hm])) he
      exact ⟨rfl, rfl⟩

theorem isName_space {s : String} (h : isName s = true) : ' ' ∉ s.toList ∧ ';' ∉ s.toList := by
  simp only [isName, Bool.and_eq_true, List.all_eq_true] at h
  constructor
  · intro hm
    have := h.2 _ hm
    revert this
    decide
  · intro hm
    have := h.2 _ hm
    revert this
    decide

theorem memberChars_inj {fields fields' : List GlslField}
    (hn : ∀ f ∈ fields, isName f.ty = true ∧ isName f.name = true)
    (hn' : ∀ f ∈ fields', isName f.ty = true ∧ isName f.name = true)
    (h : fields.flatMap memberChars ++ ['}', ';'] = fields'.flatMap memberChars ++ ['}', ';']) :
    fields = fields' := by
  induction fields generalizing fields' with
  | nil =>
    cases fields' with
    | nil => rfl
    | cons f' r' =>
      simp only [List.flatMap_nil, List.nil_append, List.flatMap_cons, memberChars,
        List.cons_append, List.cons.injEq] at h
      exact absurd h.1 (by decide)
  | cons f r ih =>
    cases fields' with
    | nil =>
      simp only [List.flatMap_nil, List.nil_append, List.flatMap_cons, memberChars,
        List.cons_append, List.cons.injEq] at h
      exact absurd h.1 (by decide)
    | cons f' r' =>
      simp only [List.flatMap_cons, memberChars, List.cons_append, List.cons.injEq,
        List.append_assoc, List.nil_append, true_and] at h
      have hf := hn f (by simp)
      have hf' := hn' f' (by simp)
      obtain ⟨e1, h⟩ := split_unique (isName_space hf.1).1 (isName_space hf'.1).1 h
      obtain ⟨e2, h⟩ := split_unique (isName_space hf.2).2 (isName_space hf'.2).2 h
      simp only [List.cons.injEq, true_and] at h
      have := ih (fun x hx => hn x (by simp [hx])) (fun x hx => hn' x (by simp [hx])) h
      rw [this]
      obtain ⟨a, b⟩ := f
      obtain ⟨a', b'⟩ := f'
      rw [String.toList_inj] at e1 e2
      simp only at e1 e2
      rw [e1, e2]

theorem glslDefinition_inj {name name' : String} {fields fields' : List GlslField}
    (hname : isName name = true) (hname' : isName name' = true)
    (hn : ∀ f ∈ fields, isName f.ty = true ∧ isName f.name = true)
    (hn' : ∀ f ∈ fields', isName f.ty = true ∧ isName f.name = true)
    (h : glslDefinition name fields = glslDefinition name' fields') :
    name = name' ∧ fields = fields' := by
  have h := congrArg String.toList h
  rw [glslDefinition_toList, glslDefinition_toList] at h
  have h := List.append_cancel_left h
  simp only [List.cons.injEq, true_and] at h
  obtain ⟨e1, h⟩ := split_unique (isName_space hname).1 (isName_space hname').1 h
  simp only [List.cons.injEq, true_and] at h
  exact ⟨String.toList_inj.1 e1, memberChars_inj hn hn' h⟩

end Crevice
