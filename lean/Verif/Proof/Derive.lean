import Verif.Proof.Record
import Std.Data.String.ToNat
/-
Closed form of what the derive generates: expansion succeeds, the padding functions evaluate, and
the generated struct is the fields interleaved with the paddings.
-/
namespace Crevice

theorem toString_nat_inj {a b : Nat} (h : toString a = toString b) : a = b := by
  rw [Nat.toString_eq_repr, Nat.toString_eq_repr] at h
  exact Nat.repr_inj.1 h

theorem padFnName_inj {l : Layout} {n : String} {i j : Nat} (h : padFnName l n i = padFnName l n j) :
    i = j := by
  have h' := congrArg String.toList h
  simp only [padFnName, String.toList_append, List.append_cancel_left_eq] at h'
  exact toString_nat_inj (String.toList_inj.1 h')

theorem padFieldName_inj {i j : Nat} (h : padFieldName i = padFieldName j) : i = j := by
  have h' := congrArg String.toList h
  simp only [padFieldName, String.toList_append, List.append_cancel_left_eq] at h'
  exact toString_nat_inj (String.toList_inj.1 h')

theorem nodup_map_of_injective {α β} {f : α → β} (hf : ∀ a b, f a = f b → a = b) {l : List α}
    (h : l.Nodup) : (l.map f).Nodup := by
  induction l with
  | nil => simp
  | cons a r ih =>
    rw [List.nodup_cons] at h
    rw [List.map_cons, List.nodup_cons]
    refine ⟨?_, ih h.2⟩
    intro hm
    obtain ⟨b, hb, he⟩ := List.mem_map.1 hm
    rw [hf b a he] at hb
    exact h.1 hb

/-! ### Closed form -/

/-- Alignment of the next field, or of the struct after the last one. -/
def nextAl (sal : Nat) : List (String × Impl) → Nat
  | [] => sal
  | (_, g) :: _ => g.alignment

/-- The fields of the generated struct from field number `i` at offset `off` on. -/
def genFields (tg : Target) (sal : Nat) (i off : Nat) : List (String × Impl) → List (String × RTy)
  | [] => []
  | (n, f) :: r =>
    (n, f.out) ::
    (padFieldName i, .array (.scalar .u8) (alignOffset (off + f.out.size tg) (nextAl sal r))) ::
    genFields tg sal (i + 1)
      (off + f.out.size tg + alignOffset (off + f.out.size tg) (nextAl sal r)) r

/-- ALIGNMENT of the generated struct. -/
def structAl (l : Layout) (fs : List (String × Impl)) : Nat :=
  maxArr (l.minStructAlignment :: fs.map fun f => f.2.alignment)

/-- Value of padding function `i` and offset of field `i`, by index. -/
def offs (tg : Target) (sal : Nat) (fs : List (String × Impl)) : Nat → Nat
  | 0 => 0
  | k + 1 =>
    match fs[k]? with
    | some f => offs tg sal fs k + f.2.out.size tg +
        alignOffset (offs tg sal fs k + f.2.out.size tg) (nextAl sal (fs.drop (k + 1)))
    | none => 0

def padAt (tg : Target) (sal : Nat) (fs : List (String × Impl)) (k : Nat) : Nat :=
  match fs[k]? with
  | some f => alignOffset (offs tg sal fs k + f.2.out.size tg) (nextAl sal (fs.drop (k + 1)))
  | none => 0

theorem offs_succ {tg : Target} {sal : Nat} {fs : List (String × Impl)} {k : Nat}
    (h : k < fs.length) :
    offs tg sal fs (k + 1) = offs tg sal fs k + fs[k].2.out.size tg + padAt tg sal fs k := by
  simp [offs, padAt, List.getElem?_eq_getElem h]

/-! ### Expansion -/

/-- `0 + size f0 + pad0() + .. + size f_{k-1} + pad_{k-1}()`. -/
def offExpr {α : Type} (fields : List (String × α)) (padFns : List String) : Nat → CExpr α
  | 0 => .lit 0
  | k + 1 =>
    match fields[k]?, padFns[k]? with
    | some f, some p => .add (.add (offExpr fields padFns k) (.sizeOf f.2)) (.call p)
    | _, _ => .lit 0

theorem foldlM_append_except {ε α β} (f : β → α → Except ε β) (b : β) (l m : List α) :
    (l ++ m).foldlM f b = (l.foldlM f b) >>= fun b => m.foldlM f b := List.foldlM_append

theorem offsetAfterField_eq {α : Type} {fields : List (String × α)} {padFns : List String} {target : Nat}
    (hf : target < fields.length) (hp : padFns.length = fields.length) :
    offsetAfterField fields padFns target =
      .ok (.add (offExpr fields padFns target) (.sizeOf fields[target].2)) := by
  have key : ∀ k, k ≤ target →
      ((List.range k).foldlM (init := CExpr.lit 0) fun output i => do
        let field ← index fields i
        let output := CExpr.add output (.sizeOf field.2)
        if i < target then
          let padFn ← index padFns i
          return .add output (.call padFn)
        else
          return output) = (Except.ok (offExpr fields padFns k) : Except DeriveError _) := by
    intro k
    induction k with
    | zero => intro _; rfl
    | succ k ih =>
      intro hk
      rw [List.range_succ, List.foldlM_append, ih (by omega)]
      have h1 : k < fields.length := by omega
      have h2 : k < padFns.length := by omega
      have h3 : k < target := by omega
      simp [index, List.getElem?_eq_getElem h1, List.getElem?_eq_getElem h2, h3, offExpr,
        Bind.bind, Except.bind, pure, Except.pure, List.foldlM]
  have h1 : target < padFns.length := by omega
  unfold offsetAfterField
  rw [List.range_succ, List.foldlM_append, key target (by omega)]
  simp [index, List.getElem?_eq_getElem hf,
    Bind.bind, Except.bind, pure, Except.pure, List.foldlM]

/-- Body of padding function `i`. -/
def padBody {α : Type} (l : Layout) (fields : List (String × α)) (padFns : List String) (i : Nat)
    (h : i < fields.length) : CExpr α :=
  .alignOffset (.add (offExpr fields padFns i) (.sizeOf fields[i].2))
    (match fields[i + 1]? with
      | some nextField => .alignmentOf nextField.2
      | none => structAlignment l fields)

theorem padFnImpl_eq {α : Type} {l : Layout} {fields : List (String × α)} {padFns : List String}
    {i : Nat} {p : String} (hf : i < fields.length) (hp : padFns.length = fields.length) :
    padFnImpl l fields padFns i p = .ok (p, padBody l fields padFns i hf) := by
  simp [padFnImpl, offsetAfterField_eq hf hp, padBody, Bind.bind, Except.bind, pure, Except.pure]
  cases fields[i + 1]? <;> rfl

theorem mapM_except_ok {ε α β} {f : α → Except ε β} {g : α → β} {l : List α}
    (h : ∀ a ∈ l, f a = .ok (g a)) : l.mapM f = .ok (l.map g) := by
  induction l with
  | nil => rfl
  | cons a r ih =>
    rw [List.mapM_cons, h a (by simp), ih fun b hb => h b (List.mem_cons_of_mem _ hb)]
    rfl

/-- What the macro generates for a struct with named fields. -/
theorem emitLayout_ok {α : Type} (l : Layout) (name : String) (fields : List (String × α))
    (gen : List String := []) :
    ∃ g, emitLayout l { ident := name, generics := gen, data := .structNamed fields } = .ok g ∧
      g.structName = generatedName l name ∧
      g.padFns = (List.range fields.length).map (fun i => (padFnName l name i,
        if h : i < fields.length then
          padBody l fields (padFnNames l name fields.length) i h
        else .lit 0)) ∧
      g.fields = (fields.zipIdx.map fun x => [(x.1.1, GenTy.layoutOf x.1.2),
        (padFieldName x.2, GenTy.padBytes (padFnName l name x.2))]).flatten ∧
      g.alignment = structAlignment l fields ∧
      g.asInit = (fields.map fun f => { dst := f.1, src := f.1, ty := f.2 }) ∧
      g.fromInit = (fields.map fun f => { dst := f.1, src := f.1, ty := f.2 }) ∧
      g.structParams = gen ∧ g.outputArgs = [] := by
  have hlen : (padFnNames l name fields.length).length = fields.length := by simp [padFnNames]
  have h1 : ((padFnNames l name fields.length).zipIdx.mapM fun (x : String × Nat) =>
      padFnImpl l fields (padFnNames l name fields.length) x.2 x.1) =
      .ok ((padFnNames l name fields.length).zipIdx.map fun (x : String × Nat) => (x.1,
        if h : x.2 < fields.length then
          padBody l fields (padFnNames l name fields.length) x.2 h
        else .lit 0)) := by
    apply mapM_except_ok
    intro x hx
    have hi : x.2 < fields.length := by
      have := List.mem_zipIdx hx
      omega
    rw [padFnImpl_eq hi hlen, dif_pos hi]
  have h2 : (fields.zipIdx.mapM fun (x : (String × α) × Nat) =>
      structFieldPair (padFnNames l name fields.length) x.2 x.1) =
      .ok (fields.zipIdx.map fun x => [(x.1.1, GenTy.layoutOf x.1.2),
        (padFieldName x.2, GenTy.padBytes (padFnName l name x.2))]) := by
    apply mapM_except_ok
    intro x hx
    have hi : x.2 < fields.length := by
      have := List.mem_zipIdx hx
      omega
    simp [structFieldPair, index, padFnNames, hi, Bind.bind, Except.bind, pure, Except.pure]
  refine ⟨{
    structName := generatedName l name
    structParams := gen
    outputArgs := []
    padFns := (padFnNames l name fields.length).zipIdx.map fun (x : String × Nat) => (x.1,
        if h : x.2 < fields.length then
          padBody l fields (padFnNames l name fields.length) x.2 h
        else .lit 0)
    fields := _
    alignment := _
    asInit := _
    fromInit := _ }, ?_, rfl, ?_, rfl, rfl, rfl, rfl, rfl, rfl⟩
  · simp only [emitLayout, Bind.bind, Except.bind, pure, Except.pure]
    rw [h1]
    simp only
    rw [h2]
    rfl
  · simp only [padFnNames]
    apply List.ext_getElem
    · simp
    · intro i hi hi'
      simp

/-! ### Evaluation -/

theorem evalArgs_alignments (tg : Target) (call : String → Option Nat) (fs : List (String × Impl)) :
    CExpr.evalArgs tg call (fs.map fun f => .alignmentOf f.2) =
      some (fs.map fun f => f.2.alignment) := by
  induction fs with
  | nil => rfl
  | cons f r ih => simp [CExpr.evalArgs, CExpr.evalWith, ih]

theorem eval_structAlignment (tg : Target) (call : String → Option Nat) (l : Layout)
    (fs : List (String × Impl)) :
    (structAlignment l fs).evalWith tg call = some (structAl l fs) := by
  simp [structAlignment, CExpr.evalWith, CExpr.evalArgs, evalArgs_alignments, structAl]

theorem eval_offExpr {tg : Target} {call : String → Option Nat} {l : Layout} {name : String}
    {fs : List (String × Impl)} {sal : Nat} {k : Nat} (hk : k ≤ fs.length)
    (hc : ∀ j, j < k → call (padFnName l name j) = some (padAt tg sal fs j)) :
    (offExpr fs (padFnNames l name fs.length) k).evalWith tg call = some (offs tg sal fs k) := by
  induction k with
  | zero => rfl
  | succ k ih =>
    have h1 : k < fs.length := by omega
    rw [offs_succ h1]
    have h2 := ih (by omega) fun j hj => hc j (by omega)
    simp [offExpr, padFnNames, h1, CExpr.evalWith,
      hc k (by omega)]
    simp only [padFnNames] at h2
    simp [h2]

theorem nextAl_drop {sal : Nat} {fs : List (String × Impl)} {k : Nat} :
    nextAl sal (fs.drop k) = match fs[k]? with
      | some g => g.2.alignment
      | none => sal := by
  cases h : fs[k]? with
  | none =>
    rw [List.getElem?_eq_none_iff] at h
    simp [List.drop_eq_nil_of_le h, nextAl]
  | some g =>
    obtain ⟨hk, rfl⟩ := List.getElem?_eq_some_iff.1 h
    rw [List.drop_eq_getElem_cons hk]
    simp [nextAl]

theorem lookup_padFns {α : Type} {l : Layout} {name : String} {n : Nat} {body : Nat → CExpr α} {i : Nat}
    (h : i < n) :
    ((List.range n).map fun i => (padFnName l name i, body i)).lookup (padFnName l name i) =
      some (body i) := by
  apply lookup_eq_some_of_mem
  · rw [List.map_map]
    exact nodup_map_of_injective (fun a b hab => padFnName_inj hab) List.nodup_range
  · exact List.mem_map.2 ⟨i, List.mem_range.2 h, rfl⟩

/-- The padding functions evaluate, with a call depth of at most one more than their index. -/
theorem evalFn_pad {tg : Target} {l : Layout} {name : String} {fs : List (String × Impl)}
    {fns : List (String × CExpr Impl)}
    (hl : ∀ i (h : i < fs.length), fns.lookup (padFnName l name i) =
      some (padBody l fs (padFnNames l name fs.length) i h))
    {i d : Nat} (hi : i < fs.length) (hd : i < d) :
    evalFn tg fns d (padFnName l name i) = some (padAt tg (structAl l fs) fs i) := by
  induction i using Nat.strongRecOn generalizing d with
  | _ i ih =>
    cases d with
    | zero => omega
    | succ d =>
      rw [evalFn, hl i hi]
      simp only [Option.bind_some, padBody, CExpr.evalWith]
      rw [eval_offExpr (sal := structAl l fs) (by omega) (fun j hj => ih j hj (by omega) (by omega))]
      simp only [Option.bind_some, Option.map_some, padAt, List.getElem?_eq_getElem hi,
        nextAl_drop]
      cases h : fs[i + 1]? with
      | none => simp [eval_structAlignment]
      | some g => simp [CExpr.evalWith]

theorem mapM_option_append {α β} (f : α → Option β) (l m : List α) :
    (l ++ m).mapM f = (l.mapM f).bind fun a => (m.mapM f).map fun b => a ++ b := by
  induction l with
  | nil => simp
  | cons a r ih =>
    rw [List.cons_append, mapM_option_cons, mapM_option_cons, ih]
    cases f a <;> simp
    cases List.mapM f r <;> simp
    cases List.mapM f m <;> simp

theorem rustFields_suffix {tg : Target} {l : Layout} {name : String} {g : Generated Impl}
    {fs : List (String × Impl)}
    (hcall : ∀ i, i < fs.length → g.call tg (padFnName l name i) =
      some (padAt tg (structAl l fs) fs i)) (k : Nat) (hk : k ≤ fs.length) :
    ((((fs.drop k).zipIdx k).map fun x => [(x.1.1, GenTy.layoutOf x.1.2),
        (padFieldName x.2, GenTy.padBytes (padFnName l name x.2))]).flatten.mapM fun f =>
      match f.2 with
      | .layoutOf i => some (f.1, i.out)
      | .padBytes padFn => (g.call tg padFn).map fun n => (f.1, RTy.array (.scalar .u8) n)) =
    some (genFields tg (structAl l fs) k (offs tg (structAl l fs) fs k) (fs.drop k)) := by
  have : ∀ m k, m + k = fs.length →
    ((((fs.drop k).zipIdx k).map fun x => [(x.1.1, GenTy.layoutOf x.1.2),
        (padFieldName x.2, GenTy.padBytes (padFnName l name x.2))]).flatten.mapM fun f =>
      match f.2 with
      | .layoutOf i => some (f.1, i.out)
      | .padBytes padFn => (g.call tg padFn).map fun n => (f.1, RTy.array (.scalar .u8) n)) =
    some (genFields tg (structAl l fs) k (offs tg (structAl l fs) fs k) (fs.drop k)) := by
    intro m
    induction m with
    | zero =>
      intro k hk
      rw [List.drop_eq_nil_of_le (by omega)]
      simp [genFields]
    | succ m ih =>
      intro k hk
      have hlt : k < fs.length := by omega
      have ih' := ih (k + 1) (by omega)
      have hc := hcall k hlt
      rw [List.drop_eq_getElem_cons hlt, List.zipIdx_cons, List.map_cons, List.flatten_cons,
        mapM_option_append, ih', offs_succ hlt]
      simp only [mapM_option_cons, mapM_option_nil, hc, Option.map_some, Option.bind_some,
        genFields]
      simp [padAt, List.getElem?_eq_getElem hlt]
  exact this (fs.length - k) k (by omega)

theorem convFields_eq_evalInits (conv : Impl → RVal → Option RVal) (fs : List (String × Impl))
    (v : RVal) :
    evalInits conv (fs.map fun f => { dst := f.1, src := f.1, ty := f.2 }) v =
      convFields conv fs v := by
  unfold evalInits convFields
  rw [mapM_map]

theorem debugOk_suffix (l : Layout) (name : String) (k : Nat) (fs : List (String × Impl)) :
    (((fs.zipIdx k).map fun x => [(x.1.1, GenTy.layoutOf x.1.2),
      (padFieldName x.2, GenTy.padBytes (padFnName l name x.2))]).flatten.all fun f =>
        match f.2 with
        | .layoutOf i => i.outDebug
        | .padBytes _ => true) = fs.all fun f => f.2.outDebug := by
  induction fs generalizing k with
  | nil => rfl
  | cons f r ih =>
    rw [List.zipIdx_cons, List.map_cons, List.flatten_cons, List.all_append, ih]
    simp

/-- What `#[derive(AsStdN)]` produces. -/
theorem deriveImpl_eq (tg : Target) (l : Layout) (name : String) (fs : List (String × Impl)) :
    deriveImpl tg l name fs =
      if ((genFields tg (structAl l fs) 0 0 fs).map fun f => unraw f.1).Nodup ∧
          (fs.all fun f => f.2.outDebug) = true then
        some (recordImpl (genFields tg (structAl l fs) 0 0 fs) (structAl l fs) fs)
      else none := by
  obtain ⟨g, hg, -, hpf, hfl, hal, has, hfr, hsp, hoa⟩ := emitLayout_ok l name fs
  have hlen : g.padFns.length = fs.length := by simp [hpf]
  have hcall : ∀ i, i < fs.length → g.call tg (padFnName l name i) =
      some (padAt tg (structAl l fs) fs i) := by
    intro i hi
    rw [Generated.call, hlen]
    refine evalFn_pad ?_ hi hi
    intro j hj
    rw [hpf, lookup_padFns hj, dif_pos hj]
  have hrf : g.rustFields tg = some (genFields tg (structAl l fs) 0 0 fs) := by
    rw [Generated.rustFields, hfl]
    exact rustFields_suffix hcall 0 (by omega)
  have hdb : g.debugOk = fs.all fun f => f.2.outDebug := by
    rw [Generated.debugOk, hfl]
    exact debugOk_suffix l name 0 fs
  simp only [deriveImpl, hg, Generated.toImpl, hrf, hal, eval_structAlignment, Option.bind_some,
    has, hfr, recordImpl, convFields_eq_evalInits, hdb, hsp, hoa, List.length_nil, and_true]

end Crevice
