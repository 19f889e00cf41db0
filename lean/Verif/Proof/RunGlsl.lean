import Verif.Proof.Run
import Verif.Source.Parsed
import Verif.Model.TextGlsl
import Verif.Model.Glsl
/-
`glsl_definition` of `src/glsl.rs`, executed.
-/
namespace RustCode
open Crevice

section
variable {S : Setting} (table : List (String × String)) (x : String) (fields : List (String × String))

def glslLib : Program :=
  { items := Parsed.glsl ++ table.map (fun t => glslImpl t.1 t.2) ++ [glslStructImpl x fields]
    convTraits := [], stdTraits := [], convertName := "", restoreName := "" }

theorem glslProgram_eq : glslProgram table x fields = glslLib table x fields := by
  rw [glslProgram, glslLib, Parsed.parse_glsl]; rfl

theorem glsl_items : (glslLib table x fields).items =
    Parsed.glsl.take 4 ++ (glslNames table).map (fun t => glslImpl t.1 t.2) ++ [glslStructImpl x fields] := by
  rfl

omit table x fields in
theorem covers_named (sat : RtTy S → String → Bool) (a t : String) :
    covers sat ⟨[], [], []⟩ (.path [a] []) (.named t []) = if t = a then some [] else none := by
  simp [covers]

/-- No implementation is for the other types. -/
theorem any_other (n : Nat) (tr : String) : implements (S := S) (glslLib table x fields) n .other tr = false := by
  cases n with
  | zero => rfl
  | succ n =>
    rw [implements, Bool.false_or, glsl_items, List.any_append, List.any_append]
    change (false || List.any _ _ || List.any _ _) = false
    rw [Bool.false_or, List.any_map, List.any_eq_false.2, Bool.false_or]
    · simp [glslStructImpl, covers]
    · intro e _
      simp [glslImpl, covers]
    · intro t h; cases h
    · intro t h; cases h

theorem implsOf_other : implsOf (S := S) (glslLib table x fields) .other = [] := by
  unfold implsOf
  rw [glsl_items, List.filterMap_append, List.filterMap_append]
  change [] ++ List.filterMap _ _ ++ List.filterMap _ _ = _
  rw [List.nil_append, List.filterMap_map, List.filterMap_eq_nil_iff.2, List.nil_append]
  · rfl
  · intro e _
    rfl

/-- Methods of the libraries are not those of the program. -/
theorem find_other (name : String) : findMethod (S := S) (glslLib table x fields) .other name = none := by
  unfold findMethod
  simp only [implsOf_other, List.filter_nil, List.findSome?_nil, any_other]
  rw [List.findSome?_eq_none_iff]
  intro i _
  cases i <;> simp

/-- The implementations of a type. -/
theorem implsOf_glsl (t : String) : implsOf (S := S) (glslLib table x fields) (.named t []) =
    ((glslNames table).filter fun e => e.1 = t).map (fun e => (.path ["Glsl"] [], [], [.const "NAME" (.ref false (.path ["str"] [])) (some (.str e.2))])) ++
      if x = t then [(.path ["GlslStruct"] [], [], [.const "FIELDS" (.ref false (.slice (.path ["GlslField"] [])))
      (some (.ref false (.array (fields.map fun f => glslFieldExpr f.1 f.2))))])] else [] := by
  unfold implsOf
  rw [glsl_items, List.filterMap_append, List.filterMap_append]
  change [] ++ List.filterMap _ _ ++ List.filterMap _ _ = _
  rw [List.nil_append]
  congr 1
  · induction glslNames table with
    | nil => rfl
    | cons e r ih =>
      rw [List.map_cons, List.filterMap_cons, ih, List.filter_cons]
      simp only [glslImpl, covers_named]
      by_cases h : e.1 = t
      · simp [h]
      · have h' : ¬ t = e.1 := fun e => h e.symm
        simp [h, h']
  · simp only [List.filterMap_cons, glslStructImpl, covers_named, List.filterMap_nil]
    by_cases h : x = t
    · simp [h]
    · have h' : ¬ t = x := fun e => h e.symm
      simp [h, h']

/-- The first entry of a table. -/
theorem lookup_filter (t n : String) (l : List (String × String)) (h : l.lookup t = some n) :
    ∃ r, (l.filter fun e => e.1 = t) = (t, n) :: r := by
  induction l with
  | nil => cases h
  | cons e l ih =>
    obtain ⟨a, b⟩ := e
    by_cases hat : a = t
    · subst hat
      simp [List.lookup] at h
      subst h
      exact ⟨l.filter fun e => e.1 = a, by simp⟩
    · have : (t == a) = false := by simpa using fun e => hat e.symm
      rw [List.lookup, this] at h
      obtain ⟨r, hr⟩ := ih h
      exact ⟨r, by simp [hat, hr]⟩

/-- `T::NAME`. -/
theorem const_name (t n : String) (h : (glslNames table).lookup t = some n) (cx : Ctx S) (m : Nat)
    (hp : cx.prog = glslLib table x fields) (hrun : cx.run = runFn (glslLib table x fields) (m + 1)) (s : State S) :
    constOf cx (.named t []) "NAME" s = (.val (.str n), s) := by
  obtain ⟨env, world⟩ := s
  obtain ⟨r, hr⟩ := lookup_filter t n _ h
  have hfind : ((implsOf (glslLib table x fields) (.named t [] : RtTy S)).findSome? fun i =>
      (assocConst i.2.2 "NAME").map fun e => (e, i.2.1)) = some (.str n, []) := by
    rw [implsOf_glsl, hr]; rfl
  simp only [constOf, hp, hfind]
  unfold callFn
  simp [hrun, runFn, rust]

/-- Entries with another constant do not matter. -/
theorem const_fields_find (l : List (String × String)) (r : List (Ty × Tys S × List Assoc)) :
    ((l.map (fun e => ((.path ["Glsl"] [], [], [.const "NAME" (.ref false (.path ["str"] [])) (some (.str e.2))]) :
        Ty × Tys S × List Assoc)) ++ r).findSome? fun i => (assocConst i.2.2 "FIELDS").map fun e => (e, i.2.1)) =
      r.findSome? fun i => (assocConst i.2.2 "FIELDS").map fun e => (e, i.2.1) := by
  induction l with
  | nil => rfl
  | cons e l ih =>
    rw [List.map_cons, List.cons_append, List.findSome?_cons]
    exact ih

/-- A field as a value. -/
def glslFieldVal (n f : String) : Val S := .struct "GlslField" [("ty", .str n), ("name", .str f)]

theorem eval_fields (cx : Ctx S) (m : Nat) (hp : cx.prog = glslLib table x fields)
    (hrun : cx.run = runFn (glslLib table x fields) (m + 1)) (htys : cx.tys = [("Self", .named x [])])
    (s : State S) : ∀ (fs : List (String × String)) (ns : List String), (∀ f ∈ fs, f.2 ≠ "Self") →
      fs.mapM (fun f => (glslNames table).lookup f.2) = some ns →
      evalList cx (fs.map fun f => glslFieldExpr f.1 f.2) s =
        (.val ((ns.zip (fs.map (·.1))).map fun p => glslFieldVal p.1 p.2), s) := by
  intro fs
  induction fs with
  | nil => intro ns _ h; cases h; rfl
  | cons f fs ih =>
    intro ns hS h
    obtain ⟨f, t⟩ := f
    rw [List.mapM_cons] at h
    cases hn : (glslNames table).lookup t with
    | none => rw [hn] at h; cases h
    | some n =>
      rw [hn] at h
      cases hns : fs.mapM (fun f => (glslNames table).lookup f.2) with
      | none => rw [hns] at h; cases h
      | some ns' =>
        rw [hns] at h
        cases h
        have ih := ih ns' (fun f hf => hS f (List.mem_cons_of_mem _ hf)) hns
        have hne : (t == "Self") = false := by simpa using hS (f, t) List.mem_cons_self
        have ht : ∀ d, evalTy (glslLib table x fields) cx.tys (d + 1) (.path [t] []) = .named t [] := by
          intro d
          rw [htys, evalTy]
          simp [List.lookup, hne]
        have hpath : ∀ s : State S, pathVal cx (.proj (.path [t] []) (.path ["Glsl"] []) ["NAME"]) s =
            (.val (.str n), s) := by
          intro s
          rw [pathVal, hp, ht]
          exact const_name table x fields t n hn cx m hp hrun s
        have hsn : structName cx.tys (.path ["GlslField"] []) = some "GlslField" := by rw [htys]; rfl
        have hsv : structVal (glslLib table x fields).items "GlslField" ["ty", "name"] [(.str n : Val S), .str f] =
            M.pure (glslFieldVal n f) := by rfl
        simp only [List.map_cons, evalList, bind_apply, glslFieldExpr, eval, hpath, pure_apply, hsn, ofOption_some, hp,
          hsv]
        simp only [glslFieldExpr] at ih
        rw [ih]
        rfl

/-- `X::FIELDS`. -/
theorem const_fields (ns : List String) (hS : ∀ f ∈ fields, f.2 ≠ "Self")
    (hns : fields.mapM (fun f => (glslNames table).lookup f.2) = some ns) (cx : Ctx S) (m : Nat)
    (hp : cx.prog = glslLib table x fields) (hrun : cx.run = runFn (glslLib table x fields) (m + 2)) (s : State S) :
    constOf cx (.named x []) "FIELDS" s =
      (.val (.seq ((ns.zip (fields.map (·.1))).map fun p => glslFieldVal p.1 p.2)), s) := by
  obtain ⟨env, world⟩ := s
  have hfind : ((implsOf (glslLib table x fields) (.named x [] : RtTy S)).findSome? fun i =>
      (assocConst i.2.2 "FIELDS").map fun e => (e, i.2.1)) =
        some (.ref false (.array (fields.map fun f => glslFieldExpr f.1 f.2)), []) := by
    rw [implsOf_glsl, const_fields_find, if_pos rfl]; rfl
  simp only [constOf, hp, hfind]
  unfold callFn
  obtain ⟨cx', hp', htys', -, hrun', heq⟩ := runFn_body (S := S) (p := glslLib table x fields) (n := m + 1)
    (f := ⟨"FIELDS", ⟨[], [], []⟩, .static, [], .unit,
      some (.ref false (.array (fields.map fun f => glslFieldExpr f.1 f.2)))⟩)
    (tys := [("Self", .named x [])])
    (s := { env := [], world := world }) rfl
  have he := eval_fields table x fields cx' m hp' hrun' htys' { env := [], world := world } fields ns hS hns
  rw [hrun]
  simp [rust]
  rw [heq]
  simp [rust, he]

/-- The text for a field. -/
def fieldText (out : String) (p : String × String) : String :=
  out ++ "\t" ++ p.1 ++ " " ++ p.2 ++ ";\n"

/-- The body of the loop. -/
def fieldBody : Expr :=
  .block [.expr (.method (.var "output") "push" [.chr '\t']),
    .expr (.method (.var "output") "push_str" [.field (.var "field") "ty"]),
    .expr (.method (.var "output") "push" [.chr ' ']),
    .expr (.method (.var "output") "push_str" [.field (.var "field") "name"]),
    .expr (.method (.var "output") "push_str" [.str ";\n"])] .unit

theorem method_push (cx : Ctx S) (hp : cx.prog = glslLib table x fields) (out : String) (c : Char) (a : Expr)
    (env : Env S) (world : S.World) :
    callMethod cx (.var "output") (.str out) "push" [a] [.chr c] { env := ("output", .str out) :: env, world := world } =
      (.val .unit, { env := ("output", .str (out.push c)) :: env, world := world }) := by
  simp only [callMethod, hp, typeOf, find_other]
  simp [builtin, rust]

theorem method_pushStr (cx : Ctx S) (hp : cx.prog = glslLib table x fields) (out t : String) (a : Expr)
    (env : Env S) (world : S.World) :
    callMethod cx (.var "output") (.str out) "push_str" [a] [.str t] { env := ("output", .str out) :: env, world := world } =
      (.val .unit, { env := ("output", .str (out ++ t)) :: env, world := world }) := by
  simp only [callMethod, hp, typeOf, find_other]
  simp [builtin, rust]

theorem method_push_field (cx : Ctx S) (hp : cx.prog = glslLib table x fields) (out : String) (c : Char) (a : Expr) (f : Val S)
    (env : Env S) (world : S.World) :
    callMethod cx (.var "output") (.str out) "push" [a] [.chr c]
      { env := ("field", f) :: ("output", .str out) :: env, world := world } =
      (.val .unit, { env := ("field", f) :: ("output", .str (out.push c)) :: env, world := world }) := by
  simp only [callMethod, hp, typeOf, find_other]
  simp [builtin, rust]

theorem method_pushStr_field (cx : Ctx S) (hp : cx.prog = glslLib table x fields) (out t : String) (a : Expr) (f : Val S)
    (env : Env S) (world : S.World) :
    callMethod cx (.var "output") (.str out) "push_str" [a] [.str t]
      { env := ("field", f) :: ("output", .str out) :: env, world := world } =
      (.val .unit, { env := ("field", f) :: ("output", .str (out ++ t)) :: env, world := world }) := by
  simp only [callMethod, hp, typeOf, find_other]
  simp [builtin, rust]

/-- The loop over the fields. -/
theorem fields_loop (cx : Ctx S) (hp : cx.prog = glslLib table x fields) (env : Env S) (world : S.World)
    (ps : List (String × String)) : ∀ out : String,
    forList (fun v => ifMatches (.var "field") v (eval cx fieldBody) M.stuck) (ps.map fun p => glslFieldVal p.1 p.2)
      { env := ("output", .str out) :: env, world := world } =
      (.val .unit, { env := ("output", .str (ps.foldl fieldText out)) :: env, world := world }) := by
  induction ps with
  | nil => intro out; rfl
  | cons p ps ih =>
    intro out
    have hstep : ifMatches (.var "field") (glslFieldVal p.1 p.2) (eval cx fieldBody) M.stuck
        { env := ("output", .str out) :: env, world := world } =
        (.val .unit, { env := ("output", .str (fieldText out p)) :: env, world := world }) := by
      simp [rust, fieldBody, glslFieldVal, method_push_field table x fields cx hp,
        method_pushStr_field table x fields cx hp, fieldText, String.push_eq_append]
    simp only [List.map_cons, forList, bind_apply, hstep, List.foldl_cons]
    exact ih _

theorem implements_struct (n : Nat) : implements (S := S) (glslLib table x fields) (n + 1) (.named x []) "GlslStruct" = true := by
  rw [implements, Bool.false_or, glsl_items, List.any_append]
  · simp [glslStructImpl, covers, Ty.last]
  · intro t h; cases h
  · intro t h; cases h

/-- The method is found. -/
theorem find_definition : findMethod (S := S) (glslLib table x fields) (.named x []) "glsl_definition" =
    some (Parsed.glsl3_glsl_definition, []) := by
  have hpick : ∀ q : Ty × Tys S × List Assoc → Bool,
      ((implsOf (S := S) (glslLib table x fields) (.named x [])).filter q).findSome?
        (fun i => (assocFn i.2.2 "glsl_definition").map fun f => (f, i.2.1)) = none := by
    intro q
    rw [List.findSome?_eq_none_iff]
    intro i hi
    have hi := (List.mem_filter.1 hi).1
    rw [implsOf_glsl, if_pos rfl, List.mem_append] at hi
    rcases hi with hi | hi
    · obtain ⟨e, -, rfl⟩ := List.mem_map.1 hi
      rfl
    · rw [List.mem_singleton] at hi
      subst hi
      rfl
  have himpl : implements (S := S) (glslLib table x fields) (glslLib table x fields).depth (.named x []) "GlslStruct" =
      true := by
    have : (glslLib table x fields).depth = ((glslLib table x fields).depth - 1) + 1 := by
      have : 0 < (glslLib table x fields).depth := by
        unfold Program.depth; rw [glsl_items]; simp; omega
      omega
    rw [this]
    exact implements_struct table x fields _
  unfold findMethod
  simp only [hpick]
  rw [glsl_items, List.append_assoc, List.findSome?_append]
  have : ∀ b : Bool, (if b = true then (assocFn [.const "NAME" (.ref false (.path ["str"] [])) none] "glsl_definition").map
      (fun f => (f, ([] : Tys S))) else none) = none := by intro b; cases b <;> rfl
  have hassoc : assocFn [.const "FIELDS" (.ref false (.slice (.path ["GlslField"] []))) none,
      .fn Parsed.glsl3_glsl_definition] "glsl_definition" = some Parsed.glsl3_glsl_definition := rfl
  simp [Parsed.glsl, List.take, List.findSome?_cons, himpl, this, hassoc]

/-- `X::glsl_definition()`. -/
theorem call_definition (n : Nat) (name : String) (hname : (glslNames table).lookup x = some name) (ns : List String)
    (hS : ∀ f ∈ fields, f.2 ≠ "Self")
    (hns : fields.mapM (fun f => (glslNames table).lookup f.2) = some ns)
    (env : Env S) (world : S.World) :
    exec (glslProgram table x fields) [] (n + 3) (.call (.path (.path [x, "glsl_definition"] [])) []) env world =
      (.val (.str (glslDefinition name ((ns.zip (fields.map (·.1))).map fun p => ⟨p.1, p.2⟩))),
        { env := env, world := world }) := by
  rw [glslProgram_eq, exec]
  generalize hcx : (Ctx.mk (glslLib table x fields) [] (n + 3) (runFn (glslLib table x fields) (n + 3)) : Ctx S) = cx
  have hp : cx.prog = glslLib table x fields := by rw [← hcx]
  have hrun : cx.run = runFn (glslLib table x fields) (n + 3) := by rw [← hcx]
  have htys : cx.tys = [] := by rw [← hcx]
  have hcall : call cx (.path (.path [x, "glsl_definition"] [])) [] [] =
      callFn cx Parsed.glsl3_glsl_definition [("Self", .named x [])] none [] [] := by
    have : call cx (.path (.path [x, "glsl_definition"] [])) [] [] =
        callAssoc cx (evalTy cx.prog cx.tys (cx.prog.depth + 1) (.path [x] [])) "glsl_definition" [] [] := by
      unfold call
      split <;> first | rfl | simp_all
    have ht : evalTy (S := S) (glslLib table x fields) [] ((glslLib table x fields).depth + 1) (.path [x] []) =
        .named x [] := by rfl
    rw [this, hp, htys, ht, callAssoc, hp, find_definition]
  obtain ⟨cx', hp', htys', -, hrun', heq⟩ := runFn_body (S := S) (p := glslLib table x fields) (n := n + 2)
    (f := Parsed.glsl3_glsl_definition) (tys := [("Self", .named x [])])
    (s := { env := [], world := world }) rfl
  have hSelf : ∀ d, evalTy (glslLib table x fields) cx'.tys (d + 1) (.path ["Self"] []) = .named x [] := by
    intro d; rw [htys']; rfl
  have hN : ∀ s : State S, pathVal cx' (.path ["Self", "NAME"] []) s = (.val (.str name), s) := by
    intro s
    rw [pathVal, hp', hSelf]
    exact const_name table x fields x name hname cx' (n + 1) hp' hrun' s
  have hF := fun s : State S => const_fields table x fields ns hS hns cx' n hp' hrun' s
  have hFp : pathVal cx' (.path ["Self", "FIELDS"] []) = constOf cx' (.named x []) "FIELDS" := by
    rw [pathVal, hp', hSelf]
  have hnew : ∀ s : State S, call cx' (.path (.path ["String", "new"] [])) [] [] s = (.val (.str ""), s) := fun _ => rfl
  have hloop := fields_loop (S := S) table x fields cx' hp' [] world (ns.zip (fields.map (·.1)))
  have hdef : glslDefinition name ((ns.zip (fields.map (·.1))).map fun p => ⟨p.1, p.2⟩) =
      (ns.zip (fields.map (·.1))).foldl fieldText ("" ++ "struct " ++ name ++ " {\n") ++ "};" := by
    rw [glslDefinition, List.foldl_map]; rfl
  simp only [eval, evalList, bind_apply, pure_apply, hcall]
  unfold callFn
  rw [hrun, hdef]
  simp only [Parsed.glsl3_glsl_definition] at heq
  simp [rust, Parsed.glsl3_glsl_definition]
  rw [heq]
  have hEach : ∀ out, eval cx' (.each (.var "field") (.path (.path ["Self", "FIELDS"] [])) fieldBody)
      { env := [("output", .str out)], world := world } =
      (.val .unit, { env := [("output", .str ((ns.zip (fields.map (·.1))).foldl fieldText out))], world := world }) := by
    intro out
    rw [eval, bind_apply, eval, hFp, hF]
    exact hloop out
  obtain ⟨E, hE⟩ : ∃ E, Expr.each (.var "field") (.path (.path ["Self", "FIELDS"] [])) fieldBody = E := ⟨_, rfl⟩
  simp only [hE] at hEach
  simp only [fieldBody] at hE
  rw [hE]
  simp [rust, hnew, method_pushStr table x fields cx' hp', hN, hEach]

end

end RustCode
