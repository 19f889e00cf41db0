import Verif.Proof.Run
import Verif.Source.Parsed
/-
The functions of `src/internal.rs`, executed.
-/
namespace RustCode
open Crevice

/-- `align_offset`. -/
theorem call_alignOffset {S : Setting} (cx : Ctx S) (p : Program) (n : Nat) (h : cx.run = runFn p (n + 1))
    (x y : Expr) (a b : BitVec S.bits) (s : State S) :
    callFn cx Parsed.internal1_align_offset [] none [x, y] [.word a, .word b] s =
      (wordRes (alignOffsetU (mode S) a b), s) := by
  obtain ⟨env, world⟩ := s
  unfold callFn
  rw [h]
  by_cases hb : b = 0#S.bits
  · subst hb
    simp [rust, runFn, Parsed.internal1_align_offset, alignOffsetU]
  · by_cases hr : a % b = 0#S.bits
    · simp [rust, runFn, Parsed.internal1_align_offset, alignOffsetU, urem, hb, hr]
    · cases hs : usub (mode S) b (a % b) <;>
        simp [rust, runFn, Parsed.internal1_align_offset, alignOffsetU, urem, hb, hr, hs]

/-- `max`. -/
theorem call_max {S : Setting} (cx : Ctx S) (p : Program) (n : Nat) (h : cx.run = runFn p (n + 1))
    (x y : Expr) (a b : BitVec S.bits) (s : State S) :
    callFn cx Parsed.internal2_max [] none [x, y] [.word a, .word b] s = (.val (.word (constMaxU a b)), s) := by
  obtain ⟨env, world⟩ := s
  unfold callFn
  rw [h]
  by_cases hb : b < a <;> simp [rust, runFn, Parsed.internal2_max, constMaxU, hb]

/-- The variables inside the loop of `max_arr`. -/
def maxArrEnv {S : Setting} (xs : List (BitVec S.bits)) (m i : BitVec S.bits) : Env S :=
  [("i", .word i), ("max", .word m), ("input", .seq (xs.map .word)), ("N", .word (BitVec.ofNat S.bits xs.length))]

/-- The loop of `max_arr`. -/
theorem maxArr_loop {S : Setting} (cx : Ctx S) (xs : List (BitVec S.bits)) (world : S.World) (k : Nat) :
    ∀ (m i : BitVec S.bits), (BitVec.ofNat S.bits xs.length).toNat - i.toNat = k →
    ∃ r j, (∀ n, k < n →
        whileLoop (eval cx (.bin .lt (.var "i") (.var "N")))
          (eval cx (.block [.expr (.cond (.bin .gt (.index (.var "input") (.var "i")) (.var "max"))
              (.block [.expr (.assign (.var "max") (.index (.var "input") (.var "i")))] .unit) .unit),
            .expr (.addAssign (.var "i") (.num 1 ""))] .unit)) n { env := maxArrEnv xs m i, world := world } =
          (.val .unit, { env := maxArrEnv xs r j, world := world })) ∧
      ∀ fuel, k < fuel → maxArrLoopU (mode S) xs fuel m i = some r := by
  induction k with
  | zero =>
    intro m i hk
    have hlt : ¬ i < BitVec.ofNat S.bits xs.length := by
      rw [BitVec.lt_def]; omega
    refine ⟨m, i, fun n hn => ?_, fun fuel hf => ?_⟩
    · obtain ⟨n, rfl⟩ : ∃ a, n = a + 1 := ⟨n - 1, by omega⟩
      simp [rust, whileLoop, maxArrEnv, hlt]
    · obtain ⟨n, rfl⟩ : ∃ a, fuel = a + 1 := ⟨fuel - 1, by omega⟩
      simp [maxArrLoopU, hlt]
  | succ k ih =>
    intro m i hk
    have hlt : i < BitVec.ofNat S.bits xs.length := by
      rw [BitVec.lt_def]; omega
    have hN : (BitVec.ofNat S.bits xs.length).toNat ≤ xs.length := by
      rw [BitVec.toNat_ofNat]; exact Nat.mod_le _ _
    have hi : i.toNat < xs.length := by omega
    have hpow := (BitVec.ofNat S.bits xs.length).isLt
    have h1 : (1#S.bits).toNat ≤ 1 := by
      rw [BitVec.toNat_ofNat]; exact Nat.mod_le _ _
    have hpos : 1 < 2 ^ S.bits := by
      rcases Nat.lt_or_ge 1 (2 ^ S.bits) with h | h
      · exact h
      · omega
    have h1' : (1#S.bits).toNat = 1 := by
      rw [BitVec.toNat_ofNat]; exact Nat.mod_eq_of_lt hpos
    have hadd : uadd (mode S) i 1#S.bits = some (i + 1#S.bits) := by
      unfold uadd
      cases mode S
      · simp only [h1']
        rw [if_pos (by omega)]
      · rfl
    have hnext : (i + 1#S.bits).toNat = i.toNat + 1 := by
      rw [BitVec.toNat_add, h1', Nat.mod_eq_of_lt (by omega)]
    have hget : xs[i.toNat]? = some xs[i.toNat] := List.getElem?_eq_getElem hi
    obtain ⟨r, j, hw, hm⟩ := ih (if xs[i.toNat] > m then xs[i.toNat] else m) (i + 1#S.bits) (by omega)
    refine ⟨r, j, fun n hn => ?_, fun fuel hf => ?_⟩
    · obtain ⟨n, rfl⟩ : ∃ a, n = a + 1 := ⟨n - 1, by omega⟩
      have hw := hw n (by omega)
      rw [whileLoop]
      by_cases hgt : xs[i.toNat] > m
      · rw [if_pos hgt] at hw
        rw [← hw]
        have hgt' : m < xs[i.toNat] := hgt
        simp [rust, maxArrEnv, hlt, indexVal, hget, hadd, hgt', hi]
      · rw [if_neg hgt] at hw
        rw [← hw]
        have hgt' : ¬ m < xs[i.toNat] := hgt
        simp [rust, maxArrEnv, hlt, indexVal, hget, hadd, hgt', hi]
    · obtain ⟨n, rfl⟩ : ∃ a, fuel = a + 1 := ⟨fuel - 1, by omega⟩
      have := hm n (by omega)
      simp [maxArrLoopU, hlt, hget, hadd, hi, this]

/-- `max_arr`. -/
theorem call_maxArr {S : Setting} (cx : Ctx S) (p : Program) (n : Nat) (h : cx.run = runFn p (n + 1))
    (x : Expr) (xs : List (BitVec S.bits)) (hn : xs.length < n) (s : State S) :
    callFn cx Parsed.internal3_max_arr [] none [x] [.seq (xs.map .word)] s =
      (wordRes (maxArrU (mode S) xs), s) := by
  obtain ⟨env, world⟩ := s
  have hN : (BitVec.ofNat S.bits xs.length).toNat ≤ xs.length := by
    rw [BitVec.toNat_ofNat]; exact Nat.mod_le _ _
  obtain ⟨r, j, hw, hm⟩ := maxArr_loop (S := S) ⟨p, [], n, runFn p n⟩ xs world _ 0#S.bits 0#S.bits rfl
  have hw := hw n (by omega)
  have hm : maxArrU (mode S) xs = some r := hm (xs.length + 1) (by omega)
  unfold callFn
  rw [h, hm]
  simp only [maxArrEnv] at hw
  simp [rust, runFn, Parsed.internal3_max_arr, constArg, typeArg] 
  simp [rust] at hw
  simp [hw, rust]

end RustCode
