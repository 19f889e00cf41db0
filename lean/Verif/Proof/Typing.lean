import Verif.Proof.TypingEnv
import Verif.Proof.SyntaxEmit
import Verif.Proof.Names
/-
Typing of the items that the derives emit: expressions.
-/
namespace Crevice.TypingProof
open RustSyntax RustTyping Tokens
variable {α : Type} {f : Features} {u : User α} {l : Layout} {P : List (Item α)}

theorem sig_usize (self : Option (Typ α)) (assoc consts) :
    sigTy (typingEnv f u) self assoc consts (.path ["usize"] []) = some .usize := by
  simp [sigTy, prims]

theorem bound_std {t : α} (h : Implements (typingEnv f u) P (.given t) (asTraitName l)) :
    Implements (typingEnv f u) P (outputTy l t) l.traitName :=
  .bound h (member_output f u l) (List.mem_cons_self ..)

theorem copy_std {T : Typ α} (h : Implements (typingEnv f u) P T l.traitName) :
    Implements (typingEnv f u) P T "Copy" :=
  .super h (traits_std f u l) (List.mem_cons_self ..)

theorem clone_std {T : Typ α} (h : Implements (typingEnv f u) P T l.traitName) :
    Implements (typingEnv f u) P T "Clone" :=
  .super (copy_std h) (traits_outside f u (x := "Copy") (d := ⟨false, [.path ["Clone"] []], []⟩) (by simp [outsideDecls])) (List.mem_cons_self ..)

theorem res_ver {t : α} {c : Ctx α} (h : Implements (typingEnv f u) P (.given t) (asTraitName l)) :
    Res (typingEnv f u) P c (verTy l t) (outputTy l t) :=
  .proj .spliced (at_as f u l) h (member_output f u l)

theorem ty_al {t : α} {c : Ctx α} (h : Implements (typingEnv f u) P (.given t) (asTraitName l)) :
    HasTy (typingEnv f u) P c (alExpr l t) .usize :=
  .const (res_ver h) (at_std f u l) (bound_std h) (member_alignment f u l) (sig_usize _ _ _)

theorem ty_size {t : α} {c : Ctx α} (h : Implements (typingEnv f u) P (.given t) (asTraitName l)) :
    HasTy (typingEnv f u) P c (sizeExpr l t) .usize :=
  .sizeOf (res_ver h)

/-- A function that can be called in constants. -/
def PadFn (P : List (Item α)) (x : String) : Prop :=
  ∃ d, fnOf P x = some d ∧ d.const = true ∧ d.params = [] ∧ d.ret = .path ⟨false, ["usize"]⟩ []

theorem ty_call {x : String} {c : Ctx α} (h : PadFn P x) (hu : structOf P "usize" = none) (hc : c.vars.lookup x = none) :
    HasTy (typingEnv f u) P c (callExpr x) .usize := by
  obtain ⟨d, h1, h2, h3, h4⟩ := h
  exact .ownFn hc h1 (fun _ => h2) h3 (by rw [h4]; exact .prim hu (by simp [prims]))

theorem tys_al {fields : List (String × α)} {c : Ctx α}
    (h : ∀ x ∈ fields, Implements (typingEnv f u) P (.given x.2) (asTraitName l)) :
    RustTyping.HasTys (typingEnv f u) P c (rusts l (fields.map fun x => .alignmentOf x.2)) (fields.map fun _ => .usize) := by
  induction fields with
  | nil => exact .nil
  | cons x r ih => exact .cons (ty_al (h x (by simp))) (ih fun y hy => h y (by simp [hy]))

theorem rusts_length (es : List (CExpr α)) : (rusts l es).length = es.length := by
  induction es with
  | nil => rfl
  | cons e r ih => simp [rusts, ih]

theorem ty_alignment {fields : List (String × α)} {c : Ctx α}
    (h : ∀ x ∈ fields, Implements (typingEnv f u) P (.given x.2) (asTraitName l)) :
    HasTy (typingEnv f u) P c (rust l (structAlignment l fields)) .usize := by
  have h1 : RustTyping.HasTys (typingEnv f u) P c (rusts l (CExpr.lit l.minStructAlignment :: fields.map fun x => .alignmentOf x.2))
      ((rusts l (CExpr.lit l.minStructAlignment :: fields.map fun x => .alignmentOf x.2)).map fun _ => .usize) := by
    have := RustTyping.HasTys.cons (RustTyping.HasTy.int (env := typingEnv f u) (prog := P) (c := c) (n := l.minStructAlignment)) (tys_al h)
    have e : ∀ es : List (Expr α), es.map (fun _ => (Typ.usize : Typ α)) = List.replicate es.length .usize := by
      intro es; simp [List.map_const']
    rw [e, rusts_length]
    rw [show fields.map (fun _ => (Typ.usize : Typ α)) = List.replicate fields.length .usize by simp [List.map_const']] at this
    simpa [List.replicate_succ, rusts, rust] using this
  simp only [structAlignment, rust]
  refine .foreignFn (fun _ => .int (rusts l (CExpr.lit l.minStructAlignment :: fields.map fun x => .alignmentOf x.2)).length "usize")
    (fn_max f u) (fun _ => rfl) (Ps := [.array .usize (.int (rusts l (CExpr.lit l.minStructAlignment ::
      fields.map fun x => .alignmentOf x.2)).length "usize")]) ?_ (sig_usize _ _ _) (.cons (.array h1) .nil)
  simp [sigTy, prims]

theorem ty_off {name : String} {fields : List (String × α)}
    (h : ∀ x ∈ fields, Implements (typingEnv f u) P (.given x.2) (asTraitName l)) (hu : structOf P "usize" = none)
    (hp : ∀ i < fields.length, PadFn P (padFnName l name i)) {c : Ctx α} (hc : c.vars = []) :
    ∀ k ≤ fields.length, HasTy (typingEnv f u) P c (rust l (offExpr fields (padFnNames l name fields.length) k)) .usize
  | 0, _ => .int
  | k + 1, hk => by
    have hk' : k < fields.length := by omega
    simp only [offExpr, padFnNames, List.getElem?_map, List.getElem?_range hk', Option.map_some,
      List.getElem?_eq_getElem hk', rust]
    exact .add (.add (ty_off h hu hp hc k (by omega)) (ty_size (h _ (List.getElem_mem hk'))))
      (ty_call (hp k hk') hu (by rw [hc]; rfl))

theorem fn_pad {name : String} {fields : List (String × α)}
    (h : ∀ x ∈ fields, Implements (typingEnv f u) P (.given x.2) (asTraitName l)) (hu : structOf P "usize" = none)
    (hp : ∀ i < fields.length, PadFn P (padFnName l name i)) {i : Nat} (hi : i < fields.length) {x : String} :
    ItemOk (typingEnv f u) P (padFnItem l (x, padBody l fields (padFnNames l name fields.length) i hi)) := by
  refine ⟨[], .usize, [], .nil, rfl, .prim hu (by simp [prims]), ?_⟩
  refine .bind (u := .usize) (.add (ty_off h hu hp rfl i (by omega)) (ty_size (h _ (List.getElem_mem hi)))) ?_
  refine .bind (u := .usize) ?_ (.value ?_)
  · cases e : fields[i + 1]? with
    | none => exact ty_alignment h
    | some y => exact ty_al (h y (List.mem_of_getElem? e))
  · exact .foreignFn (fun _ => .int 0 "usize") (fn_align f u) (fun _ => rfl) (Ps := [.usize, .usize])
      (by simp [sigTy, prims]) (sig_usize _ _ _) (.cons (.var rfl) (.cons (.var rfl) .nil))

end Crevice.TypingProof
