import Verif.Model.Eq
import Verif.Spec.Ieee
import Verif.Props.C15_C38
/-
C49: `==` on `Bool` and on the std140 vector types, and `{:?}` on `Bool`.
-/
namespace Crevice

/-- When two components of a vector are equal: floats as IEEE 754 numbers, everything else (integers
and the words of `Bool`s) as words. -/
def ComponentEqual : RVal → RVal → Prop
  | .scalar .f32 a, .scalar .f32 b => Ieee.binary32.Equal a.toNat b.toNat
  | .scalar .f64 a, .scalar .f64 b => Ieee.binary64.Equal a.toNat b.toNat
  | v, w => v = w

theorem nan32 (m : Nat) : ¬ Ieee.binary32.IsNaN m ↔ m % 2 ^ (32 - 1) ≤ 0x7f800000 := by
  simp only [Ieee.Format.IsNaN, Ieee.Format.exponent, Ieee.Format.fraction, Ieee.binary32,
    Nat.reducePow, Nat.reduceSub]
  omega

theorem zero32 (m : Nat) : Ieee.binary32.IsZero m ↔ m % 2 ^ (32 - 1) = 0 := by
  simp only [Ieee.Format.IsZero, Ieee.Format.exponent, Ieee.Format.fraction, Ieee.binary32,
    Nat.reducePow, Nat.reduceSub]
  omega

theorem floatEq32 (a b : BitVec 32) :
    floatEq 0x7f800000 a b = true ↔ Ieee.binary32.Equal a.toNat b.toNat := by
  have hx : a = b ↔ a.toNat = b.toNat := BitVec.toNat_inj.symm
  simp only [floatEq, Bool.and_eq_true, decide_eq_true_eq, Bool.or_eq_true, beq_iff_eq, hx,
    Ieee.Format.Equal, nan32, zero32, and_assoc]

theorem nan64 (m : Nat) : ¬ Ieee.binary64.IsNaN m ↔ m % 2 ^ (64 - 1) ≤ 0x7ff0000000000000 := by
  simp only [Ieee.Format.IsNaN, Ieee.Format.exponent, Ieee.Format.fraction, Ieee.binary64,
    Nat.reducePow, Nat.reduceSub]
  omega

theorem zero64 (m : Nat) : Ieee.binary64.IsZero m ↔ m % 2 ^ (64 - 1) = 0 := by
  simp only [Ieee.Format.IsZero, Ieee.Format.exponent, Ieee.Format.fraction, Ieee.binary64,
    Nat.reducePow, Nat.reduceSub]
  omega

theorem floatEq64 (a b : BitVec 64) :
    floatEq 0x7ff0000000000000 a b = true ↔ Ieee.binary64.Equal a.toNat b.toNat := by
  have hx : a = b ↔ a.toNat = b.toNat := BitVec.toNat_inj.symm
  simp only [floatEq, Bool.and_eq_true, decide_eq_true_eq, Bool.or_eq_true, beq_iff_eq, hx,
    Ieee.Format.Equal, nan64, zero64, and_assoc]

/-- The values a component type has. -/
theorem component_shape {p : PrimTy} {v : RVal} (h : RVal.HasTy p.rty v) :
    (∃ s b, p = .scalar s ∧ v = .scalar s b) ∨
    (∃ b, p = .Bool ∧ v = .newtype (.scalar .u32 b)) := by
  cases p with
  | scalar s =>
    cases v <;> simp only [PrimTy.rty, RVal.HasTy] at h
    subst h
    exact .inl ⟨_, _, rfl, rfl⟩
  | Bool =>
    cases v <;> simp only [PrimTy.rty, boolTy, RVal.HasTy] at h
    rename_i v
    cases v <;> simp only [RVal.HasTy] at h
    subst h
    exact .inr ⟨_, rfl, rfl⟩

theorem eqVal_component {p : PrimTy} {v w : RVal} (hv : RVal.HasTy p.rty v)
    (hw : RVal.HasTy p.rty w) :
    ∃ b, eqVal v w = some b ∧ (b = true ↔ ComponentEqual v w) := by
  rcases component_shape hv with ⟨s, a, rfl, rfl⟩ | ⟨a, rfl, rfl⟩
  · rcases component_shape hw with ⟨s', b, e, rfl⟩ | ⟨b, e, rfl⟩
    · cases e
      refine ⟨scalarEq s a b, by simp [eqVal], ?_⟩
      cases s
      · exact floatEq32 a b
      · exact floatEq64 a b
      all_goals simp [scalarEq, ComponentEqual]
    · cases e
  · rcases component_shape hw with ⟨s', b, e, rfl⟩ | ⟨b, e, rfl⟩
    · cases e
    · exact ⟨scalarEq .u32 a b, by simp [eqVal], by simp [scalarEq, ComponentEqual]⟩

theorem eqFields_components {p : PrimTy} {ns : List String} {as bs : List (String × RVal)}
    (ha : HasTys (ns.map fun n => (n, p.rty)) as) (hb : HasTys (ns.map fun n => (n, p.rty)) bs) :
    ∃ x, eqFields as bs = some x ∧
      (x = true ↔ All2 (fun a b => ComponentEqual a.2 b.2) as bs) := by
  induction ns generalizing as bs with
  | nil =>
    cases as <;> simp only [List.map_nil, HasTys] at ha
    cases bs <;> simp only [List.map_nil, HasTys] at hb
    exact ⟨true, rfl, by simp [All2.nil]⟩
  | cons n ns ih =>
    obtain ⟨a, as, rfl, ha1, ha2⟩ := HasTys_cons ha
    obtain ⟨b, bs, rfl, hb1, hb2⟩ := HasTys_cons hb
    obtain ⟨x, hx, hx'⟩ := eqVal_component ha1 hb1
    obtain ⟨y, hy, hy'⟩ := ih ha2 hb2
    cases x with
    | false =>
      refine ⟨false, by simp [eqFields, hx], ?_⟩
      constructor
      · intro h; cases h
      · intro h
        cases h with
        | cons h1 _ => exact hx'.2 h1
    | true =>
      refine ⟨y, by simp [eqFields, hx, hy], ?_⟩
      rw [hy']
      constructor
      · exact fun h => .cons (hx'.1 rfl) h
      · intro h
        cases h with
        | cons _ h => exact h

/-- C49: `==` compiles for every std140 vector type, and holds exactly if the vectors are equal
component by component. -/
theorem C49_vector_eq {r : VecRow} (hr : r ∈ vectors140) {as bs : List (String × RVal)}
    (ha : RVal.HasTy (.struct r.primitive.fields) (.struct as))
    (hb : RVal.HasTy (.struct r.primitive.fields) (.struct bs)) :
    ∃ x, vectorEq .std140 r.name (.struct as) (.struct bs) = some x ∧
      (x = true ↔ All2 (fun a b => ComponentEqual a.2 b.2) as bs) := by
  have hs : (Layout.std140.vecPrimitive r.name).isSome = true := by
    have hall : (vectors140.all fun r => (Layout.std140.vecPrimitive r.name).isSome) = true := by
      decide
    exact List.all_eq_true.1 hall r hr
  simp only [RVal.HasTy, VecRow.primitive] at ha hb
  obtain ⟨x, h1, h2⟩ := eqFields_components ha hb
  exact ⟨x, by simp [vectorEq, Layout.vectorsHaveEq, hs, eqVal, h1], h2⟩

/-- Is a component the NaN of a float type? -/
def ComponentNaN : RVal → Prop
  | .scalar .f32 a => Ieee.binary32.IsNaN a.toNat
  | .scalar .f64 a => Ieee.binary64.IsNaN a.toNat
  | _ => False

theorem componentEqual_self (v : RVal) : ComponentEqual v v ↔ ¬ ComponentNaN v := by
  cases v with
  | scalar s a => cases s <;> simp [ComponentEqual, ComponentNaN, Ieee.Format.Equal]
  | _ => simp [ComponentEqual, ComponentNaN]

/-- C49: a std140 vector equals itself unless a component is NaN. -/
theorem C49_reflexive {r : VecRow} (hr : r ∈ vectors140) {as : List (String × RVal)}
    (ha : RVal.HasTy (.struct r.primitive.fields) (.struct as)) :
    vectorEq .std140 r.name (.struct as) (.struct as) = some true ↔
      ∀ a ∈ as, ¬ ComponentNaN a.2 := by
  obtain ⟨x, h1, h2⟩ := C49_vector_eq hr ha ha
  rw [h1, Option.some.injEq, h2]
  constructor
  · intro h a hm
    rw [← componentEqual_self]
    clear h1 h2 ha
    induction as with
    | nil => simp at hm
    | cons b r ih =>
      cases h with
      | cons h1 h2 =>
        rcases List.mem_cons.1 hm with rfl | hm
        · exact h1
        · exact ih h2 hm
  · intro h
    clear h1 h2 ha
    induction as with
    | nil => exact .nil
    | cons b r ih =>
      exact .cons ((componentEqual_self _).2 (h b (by simp))) (ih fun a ha => h a (by simp [ha]))

/-- C49: for integer and `Bool` vectors `==` is equality of `as_bytes()`. -/
theorem C49_words {tg : Target} (htg : tg.Valid) {r : VecRow} (hr : r ∈ vectors140)
    (hp : r.prim ≠ .scalar .f32 ∧ r.prim ≠ .scalar .f64) {as bs : List (String × RVal)}
    (ha : RVal.HasTy (.struct r.primitive.fields) (.struct as))
    (hb : RVal.HasTy (.struct r.primitive.fields) (.struct bs)) :
    ∃ x, vectorEq .std140 r.name (.struct as) (.struct bs) = some x ∧
      (x = true ↔ bytesOf tg (.struct r.primitive.fields) (.struct as) =
        bytesOf tg (.struct r.primitive.fields) (.struct bs)) := by
  obtain ⟨x, h1, h2⟩ := C49_vector_eq hr ha hb
  refine ⟨x, h1, h2.trans ?_⟩
  have hpk : (RTy.struct r.primitive.fields).packed = true := by
    have hall : (vectors140.all fun r => (RTy.struct r.primitive.fields).packed) = true := by decide
    exact List.all_eq_true.1 hall r hr
  rw [bytesOf_eq_enc htg hpk ha, bytesOf_eq_enc htg hpk hb, Option.some.injEq]
  have hst : as = bs ↔ enc tg.endian (.struct as) = enc tg.endian (.struct bs) := by
    constructor
    · rintro rfl; rfl
    · intro h
      have := enc_injective htg hpk ha hb h
      injection this
  rw [← hst]
  simp only [RVal.HasTy, VecRow.primitive] at ha hb
  clear h1 h2 hpk hst hr
  generalize r.fields = ns at *
  induction ns generalizing as bs with
  | nil =>
    cases as <;> simp only [List.map_nil, HasTys] at ha
    cases bs <;> simp only [List.map_nil, HasTys] at hb
    exact ⟨fun _ => rfl, fun _ => .nil⟩
  | cons n ns ih =>
    obtain ⟨a, as, rfl, ha1, ha2⟩ := HasTys_cons ha
    obtain ⟨b, bs, rfl, hb1, hb2⟩ := HasTys_cons hb
    have hc : ComponentEqual a b ↔ a = b := by
      rcases component_shape ha1 with ⟨s, a, e, rfl⟩ | ⟨a, e, rfl⟩
      · cases s
        · exact absurd e hp.1
        · exact absurd e hp.2
        all_goals simp [ComponentEqual]
      · simp [ComponentEqual]
    constructor
    · intro h
      cases h with
      | cons h1 h2 => rw [(hc.1 h1 :), (ih ha2 hb2).1 h2]
    · intro h
      injection h with h1 h2
      injection h1 with _ h1
      exact .cons (hc.2 h1) ((ih ha2 hb2).2 h2)

/-- C49: the std430 vector types have no `==`. -/
theorem C49_std430 (name : String) (v w : RVal) : vectorEq .std430 name v w = none := rfl

/-- C49: `==` of two `Bool`s compares their words. For `Bool`s that come from `bool`s, that is
equality of the `bool`s. -/
theorem C49_bool_eq :
    (∀ a b : BitVec 32, boolEq (.newtype (.scalar .u32 a)) (.newtype (.scalar .u32 b)) =
      some (decide (a = b))) ∧
    (∀ a b : Bool, boolEq (boolToBool a) (boolToBool b) = some (decide (a = b))) := by
  constructor
  · intro a b
    simp only [boolEq, eqVal, dite_true, scalarEq, Option.some.injEq]
    exact Bool.eq_iff_iff.2 (by rw [decide_eq_true_iff]; exact beq_iff_eq)
  · intro a b
    cases a <;> cases b <;> decide

/-- C49: `{:?}` of a `Bool` shows its truth value: of those made from a `bool`, the value; of any
other, `true` unless the word is zero. -/
theorem C49_bool_debug :
    (∀ b : Bool, boolDebug (boolToBool b) = some (if b then "Bool(true)" else "Bool(false)")) ∧
    (∀ w : BitVec 32, boolDebug (.newtype (.scalar .u32 w)) =
      some (if w = 0 then "Bool(false)" else "Bool(true)")) := by
  constructor
  · intro b; cases b <;> decide
  · intro w
    by_cases hw : w = 0
    · subst hw; decide
    · have h2 : (w != 0) = true := by simpa using hw
      rw [if_neg hw]
      show some ("Bool(" ++ (if (w != 0) = true then "true" else "false") ++ ")") = _
      rw [if_pos h2]
      decide

-- non-vacuity: equal although the bytes differ (zeros), unequal although they agree (NaN)
example : vectorEq .std140 "Vec2"
      (.struct [("x", .scalar .f32 (0x00000000 : BitVec 32)), ("y", .scalar .f32 (0x3f800000 : BitVec 32))])
      (.struct [("x", .scalar .f32 (0x80000000 : BitVec 32)), ("y", .scalar .f32 (0x3f800000 : BitVec 32))]) =
    some true := by decide

example : vectorEq .std140 "Vec2"
      (.struct [("x", .scalar .f32 (0x7fc00000 : BitVec 32)), ("y", .scalar .f32 (0x3f800000 : BitVec 32))])
      (.struct [("x", .scalar .f32 (0x7fc00000 : BitVec 32)), ("y", .scalar .f32 (0x3f800000 : BitVec 32))]) =
    some false := by decide

example : vectorEq .std140 "BVec2"
      (.struct [("x", boolToBool true), ("y", .newtype (.scalar .u32 (2 : BitVec 32)))])
      (.struct [("x", boolToBool true), ("y", .newtype (.scalar .u32 (1 : BitVec 32)))]) =
    some false := by decide

end Crevice
