import Verif.Model.Debug
import Verif.Proof.GlslConverse
import Verif.Proof.Names
/-
The text of `debug_metrics` determines the numbers and names in it.
-/
namespace Crevice

theorem digits_comma (n : Nat) : ',' ∉ (toString n).toList := by
  intro h
  have := repr_digits n _ h
  revert this
  decide

/-- A number followed by a comma can be read back. -/
theorem number_comma {n m : Nat} {r r' : List Char}
    (h : (toString n).toList ++ ',' :: r = (toString m).toList ++ ',' :: r') : n = m ∧ r = r' := by
  obtain ⟨h1, h2⟩ := split_unique (digits_comma n) (digits_comma m) h
  exact ⟨toString_nat_inj (String.toList_inj.1 h1), h2⟩

/-- Characters of a field of the list. -/
def prettyChars (f : DebugField) : List Char :=
  "    Field {\n        name: \"".toList ++ (f.name.toList ++ '"' :: (",\n        offset: ".toList ++
    ((toString f.offset).toList ++ ',' :: ("\n        size: ".toList ++
      ((toString f.size).toList ++ ',' :: "\n    },\n".toList)))))

theorem pretty_aux (a b c d q k n : String) (o z : Nat) (hq : q.toList = ['"'])
    (hk : k.toList = [',']) :
    (a ++ n ++ (q ++ b) ++ toString o ++ (k ++ c) ++ toString z ++ (k ++ d)).toList =
      a.toList ++ (n.toList ++ '"' :: (b.toList ++ ((toString o).toList ++ ',' :: (c.toList ++
        ((toString z).toList ++ ',' :: d.toList))))) := by
  simp only [String.toList_append, hq, hk, List.append_assoc, List.cons_append, List.nil_append]

theorem pretty_toList (f : DebugField) : f.pretty.toList = prettyChars f := by
  have e1 : "\",\n        offset: " = "\"" ++ ",\n        offset: " := by decide +kernel
  have e2 : ",\n        size: " = "," ++ "\n        size: " := by decide +kernel
  have e3 : ",\n    },\n" = "," ++ "\n    },\n" := by decide +kernel
  have := pretty_aux "    Field {\n        name: \"" ",\n        offset: " "\n        size: "
    "\n    },\n" "\"" "," f.name f.offset f.size rfl rfl
  rw [← e1, ← e2, ← e3] at this
  exact this

theorem join_toList (fs : List DebugField) :
    (String.join (fs.map DebugField.pretty)).toList = fs.flatMap prettyChars := by
  have key : ∀ (acc : String) (fs : List DebugField),
      ((fs.map DebugField.pretty).foldl (fun r s => r ++ s) acc).toList =
        acc.toList ++ fs.flatMap prettyChars := by
    intro acc fs
    induction fs generalizing acc with
    | nil => simp
    | cons f fs ih =>
      rw [List.map_cons, List.foldl_cons, ih, List.flatMap_cons, String.toList_append, pretty_toList,
        List.append_assoc]
  have := key "" fs
  simpa [String.join] using this

theorem text_toList (d : DebugMetrics) :
    d.text.toList = "Size ".toList ++ ((toString d.size).toList ++ ',' :: (" Align ".toList ++
      ((toString d.align).toList ++ ',' :: (" fields: [".toList ++
        (if d.fields = [] then "]".toList else
          '\n' :: (d.fields.flatMap prettyChars ++ [']'])))))) := by
  have e1 : ", Align " = "," ++ " Align " := by decide +kernel
  have e2 : ", fields: " = "," ++ " fields: " := by decide +kernel
  have e3 : " fields: [" = " fields: " ++ "[" := by decide +kernel
  have e4 : "[]" = "[" ++ "]" := by decide +kernel
  have e5 : "[\n" = "[" ++ "\n" := by decide +kernel
  have c2 : ",".toList = [','] := rfl
  have c3 : "\n".toList = ['\n'] := rfl
  have c4 : "]".toList = [']'] := rfl
  unfold DebugMetrics.text
  rw [e1, e2, e3, e4, e5]
  split <;>
    simp only [String.toList_append, join_toList, c2, c3, c4, List.append_assoc, List.cons_append,
      List.nil_append]

theorem prettyChars_head (f : DebugField) : ∃ r, prettyChars f = ' ' :: r := by
  have e : "    Field {\n        name: \"" = " " ++ "   Field {\n        name: \"" := by decide +kernel
  have c : " ".toList = [' '] := rfl
  unfold prettyChars
  rw [e, String.toList_append, c]
  exact ⟨_, rfl⟩

theorem cancel_aux {a b c d n n' r r' : List Char} {o o' z z' : Nat} (h : '"' ∉ n) (h' : '"' ∉ n')
    (he : (a ++ (n ++ '"' :: (b ++ ((toString o).toList ++ ',' :: (c ++
        ((toString z).toList ++ ',' :: d)))))) ++ r =
      (a ++ (n' ++ '"' :: (b ++ ((toString o').toList ++ ',' :: (c ++
        ((toString z').toList ++ ',' :: d)))))) ++ r') :
    n = n' ∧ o = o' ∧ z = z' ∧ r = r' := by
  simp only [List.append_assoc, List.cons_append] at he
  have he := List.append_cancel_left he
  obtain ⟨e1, he⟩ := split_unique h h' he
  obtain ⟨e2, he⟩ := number_comma (List.append_cancel_left he)
  obtain ⟨e3, he⟩ := number_comma (List.append_cancel_left he)
  exact ⟨e1, e2, e3, List.append_cancel_left he⟩

theorem prettyChars_inj {fs fs' : List DebugField} (h : ∀ f ∈ fs, '"' ∉ f.name.toList)
    (h' : ∀ f ∈ fs', '"' ∉ f.name.toList)
    (he : fs.flatMap prettyChars ++ [']'] = fs'.flatMap prettyChars ++ [']']) : fs = fs' := by
  induction fs generalizing fs' with
  | nil =>
    cases fs' with
    | nil => rfl
    | cons f' r' =>
      obtain ⟨q, hq⟩ := prettyChars_head f'
      rw [List.flatMap_cons, hq] at he
      simp only [List.flatMap_nil, List.nil_append, List.cons_append, List.cons.injEq] at he
      exact absurd he.1 (by decide)
  | cons f r ih =>
    cases fs' with
    | nil =>
      obtain ⟨q, hq⟩ := prettyChars_head f
      rw [List.flatMap_cons, hq] at he
      simp only [List.flatMap_nil, List.nil_append, List.cons_append, List.cons.injEq] at he
      exact absurd he.1 (by decide)
    | cons f' r' =>
      rw [List.flatMap_cons, List.flatMap_cons, List.append_assoc, List.append_assoc] at he
      obtain ⟨e1, e2, e3, he⟩ := cancel_aux (h f (by simp)) (h' f' (by simp)) he
      have := ih (fun x hx => h x (by simp [hx])) (fun x hx => h' x (by simp [hx])) he
      rw [this]
      obtain ⟨a, b, c⟩ := f
      obtain ⟨a', b', c'⟩ := f'
      simp only at e1 e2 e3
      rw [String.toList_inj] at e1
      rw [e1, e2, e3]

theorem text_inj {d d' : DebugMetrics} (h : ∀ f ∈ d.fields, '"' ∉ f.name.toList)
    (h' : ∀ f ∈ d'.fields, '"' ∉ f.name.toList) (he : d.text = d'.text) : d = d' := by
  have he := congrArg String.toList he
  rw [text_toList, text_toList] at he
  obtain ⟨e1, he⟩ := number_comma (List.append_cancel_left he)
  obtain ⟨e2, he⟩ := number_comma (List.append_cancel_left he)
  have he := List.append_cancel_left he
  have e3 : d.fields = d'.fields := by
    split at he <;> split at he
    · rename_i a b; rw [a, b]
    · simp at he
    · simp at he
    · simp only [List.cons.injEq, true_and] at he
      exact prettyChars_inj h h' he
  obtain ⟨a, b, c⟩ := d
  obtain ⟨a', b', c'⟩ := d'
  simp only at e1 e2 e3
  rw [e1, e2, e3]

end Crevice
