import Verif.Proof.ClientFit
/-
The constants that the derives write: paddings and alignments.
-/
namespace Crevice.ClientProof
open RustCode RustTypes TypeNames ClientText Tables
open Tokens (Ev)

variable {k : Client} {tg : Target} {env : ForeignEnv} {l : Layout}

/-- A field whose type is implemented. -/
structure Row (k : Client) (tg : Target) (env : ForeignEnv) (l : Layout) where
  name : String
  t : RustCode.Ty
  c : CTy
  O : CTy
  i : Impl
  fits : ∃ N, ∀ n ≥ N, Fits k tg env l t c O i n

/-- The field as it is written. -/
def Row.src (r : Row k tg env l) : String × RustCode.Ty := (r.name, r.t)
/-- The field with its implementation. -/
def Row.impl (r : Row k tg env l) : String × Impl := (r.name, r.i)

theorem Row.ev (r : Row k tg env l) : Ev fun n => Fits k tg env l r.t r.c r.O r.i n := r.fits

/-- One after the other. -/
theorem ev_all {α : Type} {P : α → Nat → Prop} : ∀ xs : List α, (∀ x ∈ xs, Ev (P x)) → Ev fun n => ∀ x ∈ xs, P x n
  | [], _ => ⟨0, fun _ _ x hx => by cases hx⟩
  | x :: xs, h => ((h x List.mem_cons_self).and (ev_all xs fun y hy => h y (List.mem_cons_of_mem _ hy))).mono
      fun n hn y hy => by
        rcases List.mem_cons.1 hy with rfl | hy
        · exact hn.1
        · exact hn.2 y hy

theorem norm_next (k : Client) (tg : Target) (env : ForeignEnv) (n : Nat) (s : Scope) (t : RustCode.Ty) :
    (K k tg env (n + 1)).norm s t = normRule (kx k) (K k tg env n) s t := rfl

theorem const_next (k : Client) (tg : Target) (env : ForeignEnv) (n : Nat) (s : Scope) (ls : List (String × Const)) (e : Expr) :
    (K k tg env (n + 1)).const s ls e = constRule (kx k) (clientOutside tg env) (K k tg env n) s ls e := rfl

theorem out_norm (r : Row k tg env l) : Ev fun n => ∀ s, Home s → (K k tg env n).norm s (outTy l r.t) = some r.O := by
  refine r.ev.succ fun n h s hs => ?_
  rw [norm_next, outTy, normRule_proj]
  dsimp only
  rw [h.norm s hs, hs.module, show resolveName (kx k).names "" ["crate", mod l, asTrait l] = _ from resolve_as k l]
  exact h.fit.project

theorem size_code (l : Layout) (t : RustCode.Ty) : codeExpr (Tokens.rust l (.sizeOf t)) =
    .call (.path (.path ["core", "mem", "size_of"] [outTy l t])) [] := by
  cases l <;> rfl

theorem al_code (l : Layout) (t : RustCode.Ty) : codeExpr (Tokens.rust l (.alignmentOf t)) =
    .path (.proj (outTy l t) (inMod l (stdTrait l)) ["ALIGNMENT"]) := by
  cases l <;> rfl

theorem size_const (r : Row k tg env l) : Ev fun n => ∀ s, Home s → ∀ ls,
    (K k tg env n).const s ls (codeExpr (Tokens.rust l (.sizeOf r.t))) = some (.nat (r.i.out.size tg)) := by
  refine ((out_norm r).and r.ev).succ fun n h s hs ls => ?_
  rw [size_code, const_next]
  simp only [constRule, if_true]
  rw [h.1 s hs, Option.bind_some, h.2.fit.layout]
  rfl

theorem al_const (r : Row k tg env l) : Ev fun n => ∀ s, Home s → ∀ ls,
    (K k tg env n).const s ls (codeExpr (Tokens.rust l (.alignmentOf r.t))) = some (.nat r.i.alignment) := by
  refine ((out_norm r).and r.ev).succ fun n h s hs ls => ?_
  obtain ⟨f, hf, hal⟩ := h.2.fit.std
  rw [al_code, const_next]
  simp only [constRule]
  rw [h.1 s hs, hs.module, show resolveName (kx k).names "" ["crate", mod l, stdTrait l] = _ from resolve_std k l]
  simp only [Option.bind_some, hf]
  exact hal

theorem resolve_internal (k : Client) : resolveName (allNames k) "" ["crate", "internal", "max_arr"] = some ["internal", "max_arr"] ∧
    resolveName (allNames k) "" ["crate", "internal", "align_offset"] = some ["internal", "align_offset"] := by
  constructor
  · rw [resolve_long (by decide)]
    kernel_rfl
  · rw [resolve_long (by decide)]
    kernel_rfl

theorem struct_code (l : Layout) (fs : List (String × RustCode.Ty)) : codeExpr (Tokens.rust l (structAlignment l fs)) =
    .call (.path (.path ["crate", "internal", "max_arr"] [])) [.array (.num l.minStructAlignment "usize" ::
      fs.map fun f => codeExpr (Tokens.rust l (.alignmentOf f.2)))] := by
  have : codeExprs (Tokens.rusts l (fs.map fun f => CExpr.alignmentOf f.2)) =
      fs.map fun f => codeExpr (Tokens.rust l (.alignmentOf f.2)) := by
    induction fs with
    | nil => rfl
    | cons f fs ih => rw [List.map_cons, Tokens.rusts, codeExprs, ih, List.map_cons]
  unfold structAlignment
  rw [Tokens.rust, Tokens.rusts, Tokens.rust]
  simp only [codeExpr, codeExprs, this]
  rfl

theorem struct_const (rows : List (Row k tg env l)) : Ev fun n => ∀ s, Home s → ∀ ls,
    (K k tg env n).const s ls (codeExpr (Tokens.rust l (structAlignment l (rows.map Row.src)))) =
      some (.nat (structAl l (rows.map Row.impl))) := by
  have hes := ev_all (P := fun (r : Row k tg env l) n => ∀ s, Home s → ∀ ls,
    (K k tg env n).const s ls (codeExpr (Tokens.rust l (.alignmentOf r.t))) = some (.nat r.i.alignment)) rows
    fun r _ => al_const r
  have harr : Ev fun n => ∀ s, Home s → ∀ ls, (K k tg env n).const s ls (.array (.num l.minStructAlignment "usize" ::
      rows.map fun r => codeExpr (Tokens.rust l (.alignmentOf r.t)))) =
      some (.nats (l.minStructAlignment :: rows.map fun r => r.i.alignment)) := by
    refine (hes.and (Ev.const (P := fun n => 1 ≤ n) 1 fun n => by omega)).succ fun n h s hs ls => ?_
    obtain ⟨m, rfl⟩ : ∃ m, n = m + 1 := ⟨n - 1, by omega⟩
    have h1 : (rows.map fun r => codeExpr (Tokens.rust l (.alignmentOf r.t))).mapM
        (fun e => ((K k tg env (m + 1)).const s ls e).bind Const.toNat?) = some (rows.map fun r => r.i.alignment) := by
      rw [mapM_map]
      have := h.1
      clear h hes
      induction rows with
      | nil => rfl
      | cons r rows ih =>
        rw [List.mapM_cons, this r List.mem_cons_self s hs ls, ih fun x hx => this x (List.mem_cons_of_mem _ hx)]
        rfl
    have h2 : (K k tg env (m + 1)).const s ls (.num l.minStructAlignment "usize") = some (.nat l.minStructAlignment) := rfl
    rw [const_next]
    simp only [constRule]
    rw [List.mapM_cons, h2, h1]
    rfl
  refine harr.succ fun n h s hs ls => ?_
  rw [struct_code, const_next, List.map_map]
  simp only [constRule]
  rw [if_neg (by decide), hs.module, show resolveName (kx k).names "" _ = _ from (resolve_internal k).1]
  rw [Option.bind_some, List.mapM_cons, show (List.map ((fun f => codeExpr (Tokens.rust l (.alignmentOf f.2))) ∘ Row.src) rows) =
    rows.map fun r => codeExpr (Tokens.rust l (.alignmentOf r.t)) from rfl, h s hs ls]
  show some (Const.nat (maxArr _)) = _
  unfold structAl
  rw [List.map_map]
  rfl

end Crevice.ClientProof
