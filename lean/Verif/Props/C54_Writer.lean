import Verif.Proof.EncodeBlock
import Verif.Props.C22_C26
/-
C54 for Writers: what a Writer delivers for the members of a block, or for an array, is the reference
encoding, apart from zeros at the end that it does not write.
-/
namespace Crevice

variable {tg : Target} {env : ForeignEnv} {l : Layout}

/-- C54: under the conditions of C22, the bytes a fresh Writer delivers for the members of a block,
followed by zeros up to the size of the block, are exactly the reference encoding of the block. -/
theorem C54_block (htg : tg.Valid) (henv : env.Lawful tg)
    (es : List (String × Entry tg env l)) (hok : ∀ e ∈ es, e.2.ElemsOk)
    (hfull : ∀ e ∈ es.dropLast, e.2.Full) (hpl : ∀ e ∈ es, e.2.Plain) {ms : List (String × Glsl.Ty)}
    (hms : blockMembers es = some ms) {σ ε : Type} {k : Sink σ ε} (hk : k.Lawful) {s : σ}
    {os : List Nat} {w' : Writer σ}
    (h : (Writer.new s).history k (es.map fun e => e.2.arg) = (os.map .ok, w')) :
    ∃ B vs ref, k.delivered w'.sink = k.delivered s ++ B ∧ B.length = w'.len ∧
      blockValues es = some vs ∧
      Glsl.store tg.endian l (.struct "Block" ms) (.struct vs) = some ref ∧
      ref = B ++ List.replicate (ref.length - B.length) 0 := by
  have hwf : ∀ v ∈ es.map (fun e => e.2.arg), v.Wf := by
    intro v hv
    obtain ⟨e, _, rfl⟩ := List.mem_map.1 hv
    exact e.2.wf htg henv
  obtain ⟨h1, h2, h3⟩ := history_ok hk hwf h
  rw [entries_leaves] at h2 h3
  simp only [Writer.new] at h1 h2 h3
  obtain ⟨vs, bs, z, k1, k2, k3⟩ := block_store htg henv es hok hfull hpl hms 0
  refine ⟨image 0 (entriesStds es), vs, Glsl.padTo ((Glsl.Ty.struct "Block" ms).size l) bs, h3, ?_, k1, ?_, ?_⟩
  · have := image_length 0 (entriesStds es)
    rw [Nat.zero_add] at this
    rw [this, Writer.len, h2]
  · simp only [Glsl.store, k2, Option.map_some]
  · rw [Glsl.padTo, k3, List.append_assoc, List.replicate_append_replicate]
    congr 1
    simp

/-- C54: the bytes a fresh Writer delivers for one value or slice are the reference encoding of the
value or array, except that the padding after the last element of an array is left out. -/
theorem C54_write (htg : tg.Valid) (henv : env.Lawful tg) (x : Entry tg env l) (hok : x.ElemsOk)
    (hpl : x.Plain) {g : Glsl.Ty} (hg : x.glsl = some g) {σ ε : Type} {k : Sink σ ε} (hk : k.Lawful)
    {s : σ} {o : Nat} {w' : Writer σ} (h : (Writer.new s).write k x.arg = (.ok o, w')) :
    ∃ B d ref, k.delivered w'.sink = k.delivered s ++ B ∧ B.length = w'.len ∧ x.denote = some d ∧
      Glsl.store tg.endian l g d = some ref ∧
      ref = B ++ List.replicate (ref.length - B.length) 0 ∧ (x.Full → ref = B) := by
  obtain ⟨h1, h2, h3⟩ := write_ok hk (x.wf htg henv) h
  rw [x.leaves] at h2 h3
  simp only [Writer.new] at h1 h2 h3
  obtain ⟨d, bs, z, k1, k2, k3, k4⟩ := x.store htg henv hok hpl hg 0
  have hz : Glsl.roundUp 0 (g.align l) - 0 = 0 := by
    simp only [Glsl.roundUp, Nat.zero_add, Nat.sub_zero]
    rcases Nat.eq_zero_or_pos (g.align l) with h0 | h0
    · rw [h0]
    · rw [Nat.div_eq_of_lt (by omega), Nat.zero_mul]
  rw [hz, List.replicate_zero, List.nil_append] at k3
  refine ⟨image 0 x.stds, d, bs, h3, ?_, k1, k2, ?_, ?_⟩
  · have := image_length 0 x.stds
    rw [Nat.zero_add] at this
    rw [this, Writer.len, h2]
  · rw [k3]
    congr 1
    simp
  · intro hf
    rw [k3, k4 hf]
    simp

/-- A header and a slice of derived structs meet the hypotheses, in both layouts, with slices of any
length. -/
example (l : Layout) (n : Nat) : ∃ (x : Item x86_64 Ex.env l) (es : List (String × Entry x86_64 Ex.env l))
    (ms : List (String × Glsl.Ty)) (os : List Nat) (w' : Writer (List Byte)), x.ty = Ex.light ∧
    es = [("head", .one x), ("lights", .many Ex.light (List.replicate n x))] ∧
    (∀ e ∈ es, e.2.ElemsOk) ∧ (∀ e ∈ es.dropLast, e.2.Full) ∧ (∀ e ∈ es, e.2.Plain) ∧
    blockMembers es = some ms ∧
    (Writer.new []).history (vecSink Unit) (es.map fun e => e.2.arg) = (os.map .ok, w') := by
  obtain ⟨i, hi⟩ := Ex.light_resolves x86_64 l
  obtain ⟨x, h1, h2, h3⟩ := Item.exists Ex.x86_64_valid Ex.env_lawful hi (Ex.light_hasVal _)
  have h16 : 16 ≤ x.impl.alignment ∨ l = .std430 := by
    cases l with
    | std430 => exact .inr rfl
    | std140 => exact .inl (by
        have := x.resolves
        rw [h1] at this
        exact (C02_struct_alignment this).1)
  have hgl : x.ty.glsl = Ex.light.glsl := by rw [h1]
  obtain ⟨w', hw, -⟩ := history_infallible (vecSink_infallible Unit) (Writer.new [])
    (vs := [("head", Entry.one x), ("lights", Entry.many Ex.light (List.replicate n x))].map
      fun e => e.2.arg) (by
      intro v hv
      obtain ⟨e, _, rfl⟩ := List.mem_map.1 hv
      exact e.2.wf Ex.x86_64_valid Ex.env_lawful)
  obtain ⟨g, hg⟩ : ∃ g, Ex.light.glsl = some g := ⟨_, Ex.light_glsl⟩
  refine ⟨x, _, [("head", g), ("lights", .array g n)], _, w', h1, rfl, ?_, ?_, ?_, ?_, hw⟩
  · intro e he
    simp only [List.mem_cons, List.not_mem_nil, or_false] at he
    rcases he with rfl | rfl
    · trivial
    · intro y hy
      rw [List.eq_of_mem_replicate hy]
      exact ⟨h1, h16.symm⟩
  · intro e he
    simp only [List.dropLast_cons_cons, List.dropLast_singleton, List.mem_singleton] at he
    subst he
    trivial
  · intro e he
    simp only [List.mem_cons, List.not_mem_nil, or_false] at he
    rcases he with rfl | rfl
    · show x.ty.plain = true
      rw [h1]; rfl
    · rfl
  · simp only [blockMembers, Entry.glsl, hgl, hg, Option.bind_some, Option.map_some,
      List.length_replicate]

end Crevice
