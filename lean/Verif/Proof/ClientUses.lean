import Verif.Proof.ClientDynamic
/-
The types that a crate uses.
-/
namespace Crevice.ClientProof
open RustCode RustTypes TypeNames ClientText Tables
open Tokens (Ev)

variable {k : Client} {tg : Target} {env : ForeignEnv}

mutual
/-- Every type that is used in the crate fits. -/
theorem uses_fits {l : Layout} (hk : k.Ok) {t : RustCode.Ty} {T : Crevice.Ty} (h : Uses k l t T) {i : Impl}
    (hi : resolve tg env l T = some i) : ∃ c O, Ev fun n => Fits k tg env l t c O i n := by
  cases h with
  | lib h =>
    obtain ⟨c, O, N, h⟩ := lib_fits hk h hi
    exact ⟨c, O, N, h⟩
  | dynamic hl h =>
    subst hl
    rw [resolve] at hi
    cases hr : resolve tg env .std140 _ with
    | none => rw [hr] at hi; cases hi
    | some j =>
      rw [hr] at hi
      injection hi with hi
      obtain ⟨c, O, hf⟩ := uses_fits hk h hr
      refine ⟨dynCTy c, dynOut O, ?_⟩
      rw [← hi]
      exact dynamic_fits hf
  | @output t T h =>
    have hi' : resolve tg env l (.output l T) = some i := hi
    rw [resolve, if_pos (.inl rfl)] at hi'
    cases hr : resolve tg env l T with
    | none => rw [hr] at hi'; cases hi'
    | some j =>
      rw [hr] at hi'
      injection hi' with hi'
      obtain ⟨c, O, hf⟩ := uses_fits hk h hr
      refine ⟨O, O, ?_⟩
      rw [← hi']
      exact output_fits hf
  | @struct c fs hc hd h =>
    obtain ⟨is, h1, h2, h3, rfl⟩ := resolve_rows hi
    obtain ⟨rows, h4, rfl⟩ := uses_rows hk h h1
    exact ⟨_, _, struct_fits hk hd h4 h2 fun r hr => h3 r.impl (List.mem_map.2 ⟨r, hr, rfl⟩)⟩
/-- Field by field. -/
theorem uses_rows {l : Layout} (hk : k.Ok) {fs : List (String × RustCode.Ty)} {Fs : List (String × Crevice.Ty)} (h : UsesFields k l fs Fs)
    {is : List (String × Impl)} (hi : resolveFields tg env l Fs = some is) :
    ∃ rows : List (Row k tg env l), fs = rows.map Row.src ∧ is = rows.map Row.impl := by
  cases h with
  | nil =>
    rw [resolveFields] at hi
    injection hi with hi
    exact ⟨[], rfl, hi.symm⟩
  | @cons name t T fs Fs h r =>
    rw [resolveFields] at hi
    cases h1 : resolve tg env l T with
    | none => rw [h1] at hi; cases hi
    | some i =>
      cases h2 : resolveFields tg env l Fs with
      | none => rw [h1, h2] at hi; cases hi
      | some js =>
        rw [h1, h2] at hi
        injection hi with hi
        obtain ⟨c, O, hf⟩ := uses_fits hk h h1
        obtain ⟨rows, e1, e2⟩ := uses_rows hk r h2
        refine ⟨⟨name, t, c, O, i, hf⟩ :: rows, ?_, ?_⟩
        · rw [List.map_cons, ← e1]
          rfl
        · rw [List.map_cons, ← e2, ← hi]
          rfl
end

end Crevice.ClientProof
