import Verif.Proof.ByteOrder
import Verif.Proof.TargetIndep
import Verif.Props.C54
/-
C44: targets of different byte orders.
-/
namespace Crevice

/-- C44: on targets of different byte orders the bytes of a value have the same length; every scalar component has its bytes in
the reverse order, and all other bytes are zero on both. -/
theorem C44_byte_order {tg tg' : Target} (htg : tg.Valid) (htg' : tg'.Valid) (he : tg.endian ≠ tg'.endian) {env : ForeignEnv}
    (henv : env.Lawful tg) {l : Layout} {t : Ty} {i i' : Impl} (h : resolve tg env l t = some i)
    (h' : resolve tg' env l t = some i') {g : Glsl.Ty} (hg : t.glsl = some g) (hpl : t.plain = true) {v : RVal}
    (hv : t.HasVal tg env v) :
    ∃ bs bs', (i.asStd v).bind (bytesOf tg i.out) = some bs ∧ (i'.asStd v).bind (bytesOf tg' i'.out) = some bs' ∧
      bs.length = bs'.length ∧
      (∀ c ∈ Glsl.cells l g 0, c.1 + c.2 ≤ bs.length ∧ (bs'.drop c.1).take c.2 = ((bs.drop c.1).take c.2).reverse) ∧
      ∀ k (hk : k < bs.length) (hk' : k < bs'.length), ¬ Glsl.Occupied l g k → bs[k] = 0 ∧ bs'[k] = 0 := by
  have hv' := (hasVal_target htg htg').1 hv
  have henv' : env.Lawful tg' :=
    ⟨henv.into_has, henv.of_has, fun n rep v h => by
      obtain ⟨w, h1, h2, h3⟩ := henv.user_into n rep v h
      exact ⟨w, h1, (hasVal_target htg htg').1 h2, h3⟩,
    fun n rep w h => henv.user_of n rep w ((hasVal_target htg htg').2 h)⟩
  obtain ⟨o, bs, x, a1, a2, a3, a4⟩ := C54_as_bytes htg henv h hg hpl hv
  obtain ⟨o', bs', x', b1, b2, b3, b4⟩ := C54_as_bytes htg' henv' h' hg hpl hv'
  rw [a3] at b3
  injection b3 with b3
  subst b3
  obtain ⟨c1, c2, c3, c4⟩ := (Glsl.store_iff (glsl_wf hg)).1 a4
  obtain ⟨d1, d2, d3, d4⟩ := (Glsl.store_iff (glsl_wf hg)).1 b4
  refine ⟨bs, bs', by rw [a1]; exact a2, by rw [b1]; exact b2, c1.trans d1.symm, fun c hc => ?_, fun k hk hk' hno =>
    ⟨c4 k hk hno, d4 k hk' hno⟩⟩
  obtain ⟨w, h1, h2⟩ := Glsl.read_words c2 d2 c3 d3 c hc
  obtain ⟨k1, -, k3⟩ := Glsl.words_reverse he h1 h2
  exact ⟨k1, k3⟩

end Crevice
