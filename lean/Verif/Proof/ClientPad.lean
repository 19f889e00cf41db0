import Verif.Proof.ClientNames
/-
The padding functions.
-/
namespace Crevice.ClientProof
open RustCode RustTypes TypeNames ClientText Tables
open Tokens (Ev)

variable {k : Client} {tg : Target} {env : ForeignEnv} {l : Layout}

/-- The expression has the value, everywhere in the crate. -/
def HasConst (k : Client) (tg : Target) (env : ForeignEnv) (e : Expr) (v : Nat) : Prop :=
  Ev fun n => ∀ s, Home s → ∀ ls, (K k tg env n).const s ls e = some (.nat v)

theorem add_const {a b : Expr} {x y : Nat} (ha : HasConst k tg env a x) (hb : HasConst k tg env b y) :
    HasConst k tg env (.bin .add a b) (x + y) := by
  refine (ha.and hb).succ fun n h s hs ls => ?_
  rw [const_next]
  simp only [constRule]
  rw [h.1 s hs ls, h.2 s hs ls]
  rfl

theorem off_const {name : String} {rows : List (Row k tg env l)} {sal : Nat} : ∀ j, j ≤ rows.length →
    (∀ i, i < j → HasConst k tg env (.call (.var (padFnName l name i)) []) (padAt tg sal (rows.map Row.impl) i)) →
    HasConst k tg env (codeExpr (Tokens.rust l (offExpr (rows.map Row.src) (padFnNames l name rows.length) j)))
      (offs tg sal (rows.map Row.impl) j)
  | 0, _, _ => Ev.const 1 fun n s hs ls => by
    rw [const_next]
    rfl
  | j + 1, hj, hp => by
    have hlt : j < rows.length := by omega
    have h1 := off_const j (by omega) fun i hi => hp i (by omega)
    have h2 := hp j (by omega)
    have h3 : HasConst k tg env _ _ := size_const rows[j]
    have he : offExpr (rows.map Row.src) (padFnNames l name rows.length) (j + 1) =
        .add (.add (offExpr (rows.map Row.src) (padFnNames l name rows.length) j) (.sizeOf rows[j].t)) (.call (padFnName l name j)) := by
      rw [offExpr]
      simp [padFnNames, hlt, Row.src]
    rw [he, offs_succ (by simpa using hlt)]
    have h4 := add_const (add_const h1 h3) h2
    have hr : ((rows.map Row.impl)[j]'(by simpa using hlt)).2 = rows[j].i := by simp [Row.impl]
    rw [hr]
    exact h4

theorem next_const (rows : List (Row k tg env l)) (i : Nat) :
    HasConst k tg env (codeExpr (Tokens.rust l (match (rows.map Row.src)[i + 1]? with
      | some nextField => .alignmentOf nextField.2
      | none => structAlignment l (rows.map Row.src))))
      (nextAl (structAl l (rows.map Row.impl)) ((rows.map Row.impl).drop (i + 1))) := by
  rw [nextAl_drop]
  cases h : rows[i + 1]? with
  | none =>
    simp only [List.getElem?_map, h, Option.map_none]
    exact struct_const rows
  | some r =>
    simp only [List.getElem?_map, h, Option.map_some]
    exact al_const r

theorem pad_const (hk : k.Ok) {c : ClientStruct} (hd : (c, l) ∈ k.ds) {rows : List (Row k tg env l)}
    (hr : c.fields = rows.map Row.src) (i : Nat) (hi : i < rows.length) :
    HasConst k tg env (.call (.var (padFnName l c.name i)) [])
      (padAt tg (structAl l (rows.map Row.impl)) (rows.map Row.impl) i) := by
  induction i using Nat.strongRecOn with
  | _ i ih =>
  have hic : i < c.fields.length := by rw [hr]; simpa using hi
  have h1 : HasConst k tg env _ _ := add_const (off_const (name := c.name) (sal := structAl l (rows.map Row.impl)) i (by omega)
    fun j hj => ih j hj (by omega)) (size_const rows[i])
  have h2 := next_const rows i
  have hlook := pad_lookup hk hd hic
  have hcode : padCode l (padFnName l c.name i, padBody l c.fields (padFnNames l c.name c.fields.length) i hic) =
      codeFn (Tokens.padFnAst l (padFnName l c.name i)
        (.add (offExpr (rows.map Row.src) (padFnNames l c.name rows.length) i) (.sizeOf rows[i].t))
        (match (rows.map Row.src)[i + 1]? with
          | some nextField => .alignmentOf nextField.2
          | none => structAlignment l (rows.map Row.src))) := by
    have hlen : c.fields.length = rows.length := by rw [hr]; simp
    unfold padCode padBody
    dsimp only
    rw [hlen]
    simp only [hr, List.getElem_map]
    cases (List.map Row.src rows)[i + 1]? <;> rfl
  rw [hcode] at hlook
  have hpad : padAt tg (structAl l (rows.map Row.impl)) (rows.map Row.impl) i =
      alignOffset (offs tg (structAl l (rows.map Row.impl)) (rows.map Row.impl) i + rows[i].i.out.size tg)
        (nextAl (structAl l (rows.map Row.impl)) ((rows.map Row.impl).drop (i + 1))) := by
    unfold padAt
    simp [hi, Row.impl]
  rw [hpad]
  generalize hX : offs tg (structAl l (rows.map Row.impl)) (rows.map Row.impl) i + rows[i].i.out.size tg = X at h1 ⊢
  generalize hY : nextAl (structAl l (rows.map Row.impl)) ((rows.map Row.impl).drop (i + 1)) = Y at h2 ⊢
  have hbody : Ev fun n => ∀ ls, (K k tg env n).const topScope ls (.block
      [.bind false "starting_offset" .unit (codeExpr (Tokens.rust l
        (.add (offExpr (rows.map Row.src) (padFnNames l c.name rows.length) i) (.sizeOf rows[i].t)))),
       .bind false "alignment" .unit (codeExpr (Tokens.rust l (match (rows.map Row.src)[i + 1]? with
          | some nextField => .alignmentOf nextField.2
          | none => structAlignment l (rows.map Row.src))))]
      (.call (.path (.path ["crate", "internal", "align_offset"] [])) [.var "starting_offset", .var "alignment"])) =
      some (.nat (alignOffset X Y)) := by
    refine ((h1.and h2).and (Ev.const (P := fun n => 2 ≤ n) 2 fun n => by omega)).succ fun n h ls => ?_
    rw [const_next]
    simp only [constRule, constLets]
    rw [show codeExpr (Tokens.rust l (.add (offExpr (rows.map Row.src) (padFnNames l c.name rows.length) i) (.sizeOf rows[i].t))) =
      .bin .add (codeExpr (Tokens.rust l (offExpr (rows.map Row.src) (padFnNames l c.name rows.length) i)))
        (codeExpr (Tokens.rust l (.sizeOf rows[i].t))) from rfl]
    rw [h.1.1 topScope home_top, Option.bind_some, h.1.2 topScope home_top]
    obtain ⟨m, rfl⟩ : ∃ m, n = m + 2 := ⟨n - 2, by omega⟩
    simp only [Option.bind_some]
    rw [const_next]
    simp only [constRule]
    rw [if_neg (by decide), show resolveName (kx k).names topScope.module _ = _ from (resolve_internal k).2]
    rfl
  refine hbody.succ fun n h s hs ls => ?_
  rw [const_next]
  simp only [constRule]
  rw [hs.module, show resolveName (kx k).names "" [padFnName l c.name i] = _ from resolve_declared (pad_declared hd hic)]
  rw [Option.bind_some, hlook]
  exact h _

end Crevice.ClientProof
