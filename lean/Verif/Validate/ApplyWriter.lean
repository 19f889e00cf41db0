import Verif.Validate.Fixtures
import Verif.Validate.ApplyTypes
import Verif.Props.C15_C38
import Verif.Props.C17_C20
import Verif.Props.C21
import Verif.Props.C22_C26
import Verif.Props.C24_C39
import Verif.Props.C33
import Verif.Props.C41_C42
import Verif.Props.C43_C46
import Verif.Props.C47
import Verif.Props.C50
import Verif.Props.C51
import Verif.Props.C52_C53
import Verif.Props.C52_Cursor
import Verif.Props.C54_Writer
import Verif.Props.C55
import Verif.Props.C56
import Verif.Props.C59
import Verif.Props.Depth
/-
The theorems about `Writer` and `Sizer`, applied to concrete values and sinks: every hypothesis is
met. `l` is either layout.
-/
namespace Crevice.Apply
open Ex

abbrev K := vecSink_lawful Unit
abbrev I := vecSink_infallible Unit

/-- Writing `xs` to a vector that already holds three bytes. -/
theorem xsHist (l : Layout) : ∃ (os : List Nat) (w' : Writer (List Byte)),
    (Writer.new [9, 9, 9]).history (vecSink Unit) ((xs l).map Item.arg) = (os.map .ok, w') :=
  hist I _ _

/-- Writing one light at offset 4 of a vector. -/
theorem lightWrt (l : Layout) : ∃ (o : Nat) (w' : Writer (List Byte)),
    (⟨[1, 2, 3, 4], 4⟩ : Writer (List Byte)).write (vecSink Unit) (L l).arg = (.ok o, w') :=
  wrt I _ ((L l).wf V E)

/-- Writing a slice of two lights at offset 4 of a vector. -/
theorem lightsWrt (l : Layout) : ∃ (o : Nat) (w' : Writer (List Byte)),
    (⟨[1, 2, 3, 4], 4⟩ : Writer (List Byte)).write (vecSink Unit) (.slice ([L l, L l].map Item.arg)) =
      (.ok o, w') :=
  wrt I _ (wf_slice (items_wf V E _))

theorem lights_ty (l : Layout) : ∀ x ∈ [L l, L l], x.ty = light := by
  intro x hx
  simp only [List.mem_cons, List.not_mem_nil, or_false, or_self] at hx
  subst hx
  exact L_ty l

theorem light_wval (l : Layout) : ∃ wv, (lightImpl l).wval x86_64 lightVal = some wv ∧ wv.Wf := by
  refine ⟨(L l).arg, ?_, (L l).wf V E⟩
  have := (L l).arg_eq
  rwa [L_impl, L_val] at this

/-! ## Writing -/

example (l : Layout) := C15_fresh_writer V E (lightImpl_ok l) (light_hasVal _)
  (light_wval l).choose_spec.1 K
  (wrt I (Writer.new [7, 7]) (light_wval l).choose_spec.2).choose_spec.choose_spec
example (l : Layout) := C17_succeeds V E (L l) I ⟨[1, 2, 3, 4], 4⟩
example (l : Layout) := C17_write V E (L l) K (lightWrt l).choose_spec.choose_spec
example := C17_write_std K (w := ⟨[1, 2, 3, 4], 4⟩) (x := ⟨16, 4, [5, 6, 7, 8]⟩) rfl (off := 16) rfl
example (l : Layout) := C18_history V E (xs l) K (xsHist l).choose_spec.choose_spec
example (l : Layout) := C18_history_general K (items_wf V E (xs l)) (xsHist l).choose_spec.choose_spec
example (l : Layout) := C19_sizer_placement x86_64 [lightImpl l, lightImpl l] ⟨4⟩
example (l : Layout) := C19_sizer_predicts_writer V E (xs l) K (xsHist l).choose_spec.choose_spec
example (l : Layout) := C20_iter_eq_slice (vecSink Unit) (Writer.new []) ((xs l).map Item.arg)
example (l : Layout) := C20_elementwise (vecSink Unit) (Writer.new []) (Writer.new []) ((xs l).map Item.arg) 0
example (l : Layout) := C20_each_once K (items_wf V E [L l, L l]) (lightsWrt l).choose_spec.choose_spec
example (l : Layout) := C20_append (vecSink Unit) (Writer.new []) ((xs l).map Item.arg) [(L l).arg]
example (l : Layout) := C21_constant_stride V E (lightImpl_ok l) (S := (lightImpl l).out.size x86_64)
  ((isNext_iff _ _ _).2 (nextOffset_self (Or.inr (C14_size V (lightImpl_ok l)))).symm) [L l, L l]
  (lights_ty l) K (lightsWrt l).choose_spec.choose_spec
example := C21_exception
example (l : Layout) := C22_exception l

/-- A block: a float, an array of two lights, a vector, an array of one light. -/
noncomputable def block (l : Layout) : List (String × Entry x86_64 env l) :=
  [("n", .one (F l 1)), ("ls", .many light [L l, L l]), ("v", .one (W l 1 2 3)), ("m", .many light [L l])]

theorem light_align (l : Layout) : (lightImpl l).alignment = 16 := by
  rw [(laidOut V (lightImpl_ok l) light_glsl).alignment]
  cases l <;> decide

theorem L_size (l : Layout) : (L l).bytes.length = 96 := by
  rw [(L l).length V E, L_impl]
  exact light_size l

theorem block_ok (l : Layout) : ∀ e ∈ block l, e.2.ElemsOk := by
  intro e he
  simp only [block, List.mem_cons, List.not_mem_nil, or_false] at he
  have h16 : 16 ≤ (L l).impl.alignment := by rw [L_impl]; exact Nat.le_of_eq (light_align l).symm
  rcases he with rfl | rfl | rfl | rfl
  · trivial
  · intro x hx
    have : x = L l := by simpa using hx
    subst this
    exact ⟨L_ty l, Or.inr h16⟩
  · trivial
  · intro x hx
    have : x = L l := by simpa using hx
    subst this
    exact ⟨L_ty l, Or.inr h16⟩

theorem block_full (l : Layout) : ∀ e ∈ (block l).dropLast, e.2.Full := by
  intro e he
  simp only [block, List.dropLast, List.mem_cons, List.not_mem_nil, or_false] at he
  rcases he with rfl | rfl | rfl
  · trivial
  · refine ⟨by simp, fun x hx => ?_⟩
    have : x = L l := by simpa using hx
    subst this
    rw [L_size, L_impl, light_align l]
    decide
  · trivial

theorem block_plain (l : Layout) : ∀ e ∈ block l, e.2.Plain := by
  intro e he
  simp only [block, List.mem_cons, List.not_mem_nil, or_false] at he
  rcases he with rfl | rfl | rfl | rfl <;> simp only [Entry.Plain, F_ty, W_ty] <;> rfl

theorem block_members (l : Layout) : ∃ ms, blockMembers (block l) = some ms := by
  simp only [block, blockMembers, Entry.glsl, F_ty, W_ty]
  exact ⟨_, rfl⟩

theorem block_hist (l : Layout) : ∃ (os : List Nat) (w' : Writer (List Byte)),
    (Writer.new []).history (vecSink Unit) ((block l).map fun e => e.2.arg) = (os.map .ok, w') := by
  obtain ⟨w', h, -⟩ := history_infallible I (Writer.new []) (vs := (block l).map fun e => e.2.arg) (by
    intro v hv
    simp only [block, List.map_cons, List.map_nil, List.mem_cons, List.not_mem_nil, or_false] at hv
    rcases hv with rfl | rfl | rfl | rfl
    · exact (F l 1).wf V E
    · exact wf_slice (items_wf V E [L l, L l])
    · exact (W l 1 2 3).wf V E
    · exact wf_slice (items_wf V E [L l]))
  exact ⟨_, w', h⟩

example (l : Layout) := C22_block V E (block l) (block_ok l) (block_full l) (block_members l).choose_spec K
  (block_hist l).choose_spec.choose_spec
example (l : Layout) := C54_block V E (block l) (block_ok l) (block_full l) (block_plain l)
  (block_members l).choose_spec K (block_hist l).choose_spec.choose_spec

/-- A header and then lights, as in the README. -/
noncomputable def header (l : Layout) : List (String × Item x86_64 env l) := [("n", F l 1), ("v", W l 1 2 3)]

theorem header_members (l : Layout) :
    ∃ ms, glslMembers ((header l).map fun f => (f.1, f.2.ty)) = some ms := by
  simp only [header, List.map_cons, List.map_nil, F_ty, W_ty]
  exact ⟨_, rfl⟩

theorem header_hist (l : Layout) : ∃ (os : List Nat) (o : Nat) (w' : Writer (List Byte)),
    (Writer.new []).history (vecSink Unit)
      (((header l).map fun f => f.2.arg) ++ [.slice ([L l, L l].map Item.arg)]) =
      ((os ++ [o]).map .ok, w') := by
  obtain ⟨w', h, -⟩ := history_infallible I (Writer.new [])
    (vs := ((header l).map fun f => f.2.arg) ++ [.slice ([L l, L l].map Item.arg)]) (by
    intro v hv
    simp only [header, List.map_cons, List.map_nil, List.cons_append, List.nil_append, List.mem_cons,
      List.not_mem_nil, or_false] at hv
    rcases hv with rfl | rfl | rfl
    · exact (F l 1).wf V E
    · exact (W l 1 2 3).wf V E
    · exact wf_slice (items_wf V E [L l, L l]))
  generalize hr : returned _ _ = r at h
  have hl : r.length = 3 := by rw [← hr]; rfl
  match r, hl with
  | [a, b, c], _ => exact ⟨[a, b], c, w', h⟩

example (l : Layout) := C22_header_then_structs V E (header l) "ls" [L l, L l] (lights_ty l)
  (header_members l).choose_spec light_glsl K (header_hist l).choose_spec.choose_spec.choose_spec
example (l : Layout) := C23_fields_exist V E (L l) (L_ty l)
noncomputable abbrev fields (l : Layout) := C23_fields_exist V E (L l) (L_ty l)
example (l : Layout) := C23_fieldwise V E (L l) (L_ty l) (fields l).choose (fields l).choose_spec.1
  (fields l).choose_spec.2 K (hist I [] (fields l).choose).choose_spec.choose_spec
example (l : Layout) := C54_write V E (.many light [L l, L l]) (block_ok l ("ls", _) (.tail _ (.head _)))
  light_plain (g := .array _ 2) rfl K (wrt I (Writer.new []) (wf_slice (items_wf V E [L l, L l]))).choose_spec.choose_spec

/-! ## Errors and fixed buffers -/

/-- A light into a slice that is too short. -/
theorem failing (l : Layout) : ∃ w', (Writer.new (⟨[], List.replicate 50 9⟩ : SliceState)).write sliceSink
    (L l).arg = (.error (), w') := by
  rcases h : (Writer.new (⟨[], List.replicate 50 9⟩ : SliceState)).write sliceSink (L l).arg with ⟨e | o, w'⟩
  · exact ⟨w', rfl⟩
  · have h' : (Writer.new (⟨[], List.replicate 50 9⟩ : SliceState)).history sliceSink ([L l].map Item.arg) =
        (([o] : List Nat).map .ok, w') := by
      simp only [List.map_cons, List.map_nil, Writer.history, h]
    have := (C25_fixed_buffer V E [L l] (List.replicate 50 9)).1.1 ⟨_, _, h'⟩
    simp only [List.map_cons, List.map_nil, L_impl, Sizer.addAll, Sizer.add, Sizer.new, Sizer.len, light_size,
      List.length_replicate] at this
    omega

example (l : Layout) := C24_error sliceSink_lawful ((L l).wf V E) (failing l).choose_spec
example (l : Layout) := C24_len sliceSink_lawful (w := ⟨⟨[1, 2], [9, 9, 9]⟩, 2⟩) (s := ⟨[], []⟩)
  (items_wf V E (xs l)) (by decide)
example (l : Layout) := C24_len_fresh sliceSink_lawful ⟨[], List.replicate 50 9⟩ (items_wf V E (xs l)) rfl
example := C24_retry_misaligns
example (l : Layout) := C24_reports sliceSink ⟨⟨[], List.replicate 50 9⟩, 0⟩ ((L l).wf V E)
example (l : Layout) := C25_fixed_buffer V E (xs l) (List.replicate 120 9)
example := C25_general (vs := [.std ⟨4, 4, [1, 1, 1, 1]⟩, .slice [.std ⟨16, 2, [2, 2]⟩]])
  (by
    intro v hv x hx
    simp only [List.mem_cons, List.not_mem_nil, or_false] at hv
    rcases hv with rfl | rfl <;> simp [WVal.leaves, leavesList] at hx <;> subst hx <;> rfl)
  (offs := [0, 16]) (total := 18)
  (.cons ⟨by decide, by decide, fun _ => ⟨by decide, fun m h h' => h'⟩⟩
    (.cons ⟨by decide, by decide, fun _ => ⟨by decide, fun m h h' => by
      obtain ⟨c, rfl⟩ := h
      simp only [Nat.zero_add] at h'
      have : 0 < c := by
        rcases Nat.eq_zero_or_pos c with rfl | h
        · simp at h'
        · exact h
      simp only
      omega⟩⟩ .nil)) (List.replicate 17 9)
theorem dyn_hasVal : (Ty.dynamic light).HasVal x86_64 env (.newtype lightVal) :=
  ⟨_, rfl, light_hasVal _⟩
noncomputable def D : Item x86_64 env .std140 := item dynLight_accepted dyn_hasVal
example := C26_write V E D (L .std140) (by rw [L_ty]; exact item_ty _ _)
  (by rw [L_val]; exact item_val _ _) K (wrt I ⟨[1, 2, 3, 4], 4⟩ (D.wf V E)).choose_spec.choose_spec
example (l : Layout) := C34_size_is_len (items_wf V E (xs l))
example (l : Layout) := C34_size_anywhere V E [L l, L l] (lights_ty l) K (lightsWrt l).choose_spec.choose_spec
example (l : Layout) := C39_sink_independent K (cursorVecSink_lawful Unit) (w₁ := Writer.new [9, 9, 9])
  (w₂ := Writer.new ⟨[1], 5⟩) rfl (items_wf V E (xs l)) (xsHist l).choose_spec.choose_spec
  (hist (cursorVecSink_infallible Unit) ⟨[1], 5⟩ (xs l)).choose_spec.choose_spec
example (l : Layout) := C41_read_back V E (xs l) K (xsHist l).choose_spec.choose_spec
example (l : Layout) := C41_slice_read_back V E [L l, L l] K (lightsWrt l).choose_spec.choose_spec
example (l : Layout) := C42_cast_in_place V E (xs l) K (xsHist l).choose_spec.choose_spec (base := 4096)
  (by decide)
example (l : Layout) := C46_writer_overhead V E (xs l) K (xsHist l).choose_spec.choose_spec
example (l : Layout) := C46_writer V E (xs l) K (xsHist l).choose_spec.choose_spec
  ((C18_history V E (xs l) K (xsHist l).choose_spec.choose_spec).1).admissible

/-! ## Machine words -/

theorem small (l : Layout) : ∀ x ∈ [L l, F l 1, L l], x.impl.out.size x86_64 < 2 ^ 16 := by
  intro x hx
  simp only [List.mem_cons, List.not_mem_nil, or_false] at hx
  rcases hx with rfl | rfl | rfl
  · rw [L_impl, light_size]; decide
  · rw [F_impl, (laidOut V (impl_ok l f32 (f32_accepted l)) rfl).size]; cases l <;> decide
  · rw [L_impl, light_size]; decide
example (l : Layout) := C33_items V [L l, F l 1, L l] (w := 16) (by decide) (small l)
example (l : Layout) := C33_writer_checked K [9] ([L l, F l 1, L l].map Item.arg)
  (fun v hv x hx => (C33_items V [L l, F l 1, L l] (w := 16) (by decide) (small l) v hv x hx).2)
example (l : Layout) := C33_writer_unchecked K [9] ([L l].map Item.arg)
  (fun v hv x hx => (C33_items V [L l] (w := 16) (by decide) (fun x h => small l x (by simp_all)) v hv x hx).2)
  (by
    obtain ⟨os, w', h⟩ := hist I [9] [L l]
    have h2 := congrArg Prod.snd (C19_sizer_predicts_writer V E [L l] K h)
    have h3 : (Sizer.new.addAll x86_64 ([L l].map Item.impl)).2 = ⟨96⟩ := by
      simp only [List.map_cons, List.map_nil, L_impl, Sizer.addAll, Sizer.add, Sizer.new, light_size,
        light_align]
      rfl
    rw [h3] at h2
    injection h2 with h2
    rw [h, ← h2]
    decide)
example (l : Layout) := C33_writer_wrapping (vecSink Unit) [9] ([L l, F l 1, L l].map Item.arg)
  (C33_items V [L l, F l 1, L l] (w := 16) (by decide) (small l))
example (l : Layout) := C33_size (wf_slice (items_wf V E [L l, F l 1, L l])) (w := 16) fun x hx => by
  rw [WVal.leaves] at hx
  obtain ⟨v, hv, hx⟩ := mem_leavesList hx
  exact C33_items V [L l, F l 1, L l] (w := 16) (by decide) (small l) v hv x hx
example (l : Layout) := C33_sizer_checked x86_64 [lightImpl l, lightImpl l] (w := 16)
  (fun i hi => by
    have : i = lightImpl l := by simpa using hi
    subst this
    rw [light_size, light_align]; decide)
example (l : Layout) := C33_sizer_wrapping (tg := x86_64) [lightImpl l, lightImpl l] (w := 7)
  (fun i hi => by
    have : i = lightImpl l := by simpa using hi
    subst this
    rw [light_size, light_align]; exact ⟨Or.inl ⟨4, rfl⟩, by decide, by decide⟩)

/-! ## Implementations of WriteStdN written by users, iterators -/

abbrev c : StdVal := ⟨4, 4, [2, 0, 0, 0]⟩
abbrev a : StdVal := ⟨16, 12, List.replicate 12 7⟩
theorem performs (off o₁ o₂ o₃ : Nat) (h₁ : nextOffset off 4 = o₁) (h₂ : nextOffset (o₁ + 4) 16 = o₂)
    (h₃ : nextOffset (o₂ + 12) 16 = o₃) :
    Performs (headerSlice Unit c [a, a]) off [c, a, a] (o₃ + 12) (.ok o₁) := by
  have e : ∀ o off a : Nat, nextOffset off a = o → IsNext a off o :=
    fun o off a h => (isNext_iff off a o).2 h.symm
  exact .writeStd (e _ _ _ h₁) (.len (.writeStd (e _ _ _ h₂) (.writeStd (e _ _ _ h₃) .ret)))
theorem wf3 : ∀ x ∈ [c, a, a], x.bytes.length = x.size := by decide
example := C47_any_implementation (headerSlice Unit c [a, a]) 4
example := C47_propagating sliceSink_lawful (headerSlice_ok c [a, a]).1 (w := ⟨⟨[], List.replicate 20 0⟩, 4⟩)
  rfl (performs 4 4 16 32 rfl rfl rfl) wf3
example := C47_std_size (performs 0 0 16 32 rfl rfl rfl) wf3
example := C47_instances (vecSink Unit) (Writer.new []) (.std c) [.std a, .std c]
example := C47_relocatable K I ((headerSlice_ok c [a, a]).2 _) (w := ⟨[], 32⟩) (performs 0 0 16 32 rfl rfl rfl)
  wf3 (by decide)
example := C47_closed (ε := Unit)
theorem takes : listIter.Takes [.std c, .std a] [.std c, .std a] [] := .cons rfl (.cons rfl .nil)
theorem yields : listIter.Yields [.std c, .std a] [.std c, .std a] [] := ⟨_, takes, rfl⟩
theorem yields_nil : listIter.Yields [] [] [] := ⟨_, .nil, rfl⟩
example := C50_ok (k := vecSink Unit) (w := Writer.new []) yields (o := 0) rfl
example := C50_deterministic (k := vecSink Unit) (w := Writer.new []) (C50_ok yields (o := 0) rfl)
  (C50_ok yields (o := 0) rfl)
example := C50_empty (k := vecSink Unit) (w := ⟨[1], 1⟩) yields_nil yields_nil
example := C50_resumes (k := vecSink Unit) (w := ⟨[1], 1⟩) (ys := []) yields_nil yields_nil (os := []) rfl
example := C50_error (k := sliceSink) (w := Writer.new ⟨[], List.replicate 20 0⟩) takes (m := 1) (by decide)
  (os := [0]) rfl (e := ()) rfl
example := C50_offset_exception
theorem endless (x : WVal) : (repeatIter x).Endless () fun _ => x := by
  intro n
  refine ⟨(), ?_⟩
  generalize List.range n = l
  induction l with
  | nil => exact .nil
  | cons a r ih => exact .cons rfl ih
theorem wf_a : (WVal.std a).Wf := wf_std rfl
example := C50_diverges I (w := Writer.new []) (endless (.std a)) (fun _ => wf_a)
example := C50_fixed_buffer (endless (.std a)) (fun _ => wf_a)
  (fun _ => ⟨a, by simp [WVal.leaves], by decide⟩) (List.replicate 100 9)

/-! ## Changing values, several Writers, cursors -/

/-- `light.inner.k = b` -/
theorem changed (l : Layout) (b : BitVec 64) : ∃ x' z : Item x86_64 env l, x'.ty = (L l).ty ∧
    (L l).ty.fieldTy ["inner", "k"] = some z.ty ∧ Assigned ["inner", "k"] (L l).val z.val x'.val := by
  have hv' : light.HasVal x86_64 env (.struct
      [("position", v3 (flt 0x3f800000) (flt 0x40000000) (flt 0x40400000)),
       ("intensity", flt 0xbf800000), ("enabled", .bool true),
       ("basis", v3 (v3 (flt 1) (flt 2) (flt 3)) (v3 (flt 4) (flt 5) (flt 6))
          (v3 (flt 7) (flt 8) (flt 9))),
       ("inner", .struct [("k", .scalar .f64 b), ("v", .newtype (v2 (flt 5) (flt 6)))])]) := by
    refine ⟨_, rfl, rfl, ?_, rfl, ⟨_, rfl⟩, rfl, ⟨_, rfl⟩, rfl, ?_, rfl, ?_, trivial⟩
    · exact uniform3 (flt_hasVal _) (flt_hasVal _) (flt_hasVal _)
    · exact uniform3 (uniform3 (flt_hasVal _) (flt_hasVal _) (flt_hasVal _))
        (uniform3 (flt_hasVal _) (flt_hasVal _) (flt_hasVal _))
        (uniform3 (flt_hasVal _) (flt_hasVal _) (flt_hasVal _))
    · exact ⟨_, rfl, rfl, ⟨_, rfl⟩, rfl,
        ⟨_, glam_vec2, _, rfl, uniform2 (flt_hasVal _) (flt_hasVal _)⟩, trivial⟩
  have hz : (Ty.scalar .f64).HasVal x86_64 env (.scalar .f64 b) := ⟨b, rfl⟩
  refine ⟨item (light_accepted l) hv', item (t := .scalar .f64) (by cases l <;> decide) hz, ?_, ?_, ?_⟩
  · rw [item_ty, L_ty]
  · rw [item_ty, L_ty]; rfl
  · rw [item_val, item_val, L_val]
    refine .field rfl (.field rfl .here rfl ?_) rfl ?_
    · intro m hm
      simp [attenVal, RVal.field, List.lookup, beq_eq_false_iff_ne.2 hm]
    · intro m hm
      simp [lightVal, RVal.field, List.lookup, beq_eq_false_iff_ne.2 hm]

example (l : Layout) (b : BitVec 64) := C51_field V E (changed l b).choose_spec.choose_spec.1
  (changed l b).choose_spec.choose_spec.2.1 (changed l b).choose_spec.choose_spec.2.2
example (l : Layout) (b : BitVec 64) := C51_buffer V E [F l 1, L l, F l 2] (m := 1) (by simp)
  (changed l b).choose (changed l b).choose_spec.choose_spec.1 K K (hist I [9] _).choose_spec.choose_spec
  (hist I [] _).choose_spec.choose_spec
example (l : Layout) (b : BitVec 64) := C51_buffer_field V E [F l 1, L l, F l 2] (m := 1) (by simp)
  (changed l b).choose_spec.choose_spec.1 (changed l b).choose_spec.choose_spec.2.1
  (changed l b).choose_spec.choose_spec.2.2 K K (hist I [9] _).choose_spec.choose_spec
  (hist I [] _).choose_spec.choose_spec
example (l : Layout) (b : BitVec 64) := C51_slice V E (lightImpl_ok l) (S := (lightImpl l).out.size x86_64)
  ((isNext_iff _ _ _).2 (nextOffset_self (Or.inr (C14_size V (lightImpl_ok l)))).symm) [L l, L l]
  (lights_ty l) (m := 1) (by simp) (changed l b).choose ((changed l b).choose_spec.choose_spec.1.trans (L_ty l))
  K K (w := ⟨[9], 5⟩) (w' := ⟨[], 5⟩) rfl (wrt I _ (wf_slice (items_wf V E _))).choose_spec.choose_spec
  (wrt I _ (wf_slice (items_wf V E _))).choose_spec.choose_spec

/-- Two Writers on the same vector, one after the other. -/
theorem twoSessions (l : Layout) : ∃ (os₁ os₂ : List Nat) (n₁ n₂ : Nat) (s' : List Byte),
    sessions (vecSink Unit) [9, 9] [[L l].map Item.arg, [F l 1, L l].map Item.arg] =
      (okSessions [(os₁, n₁), (os₂, n₂)], s') := by
  obtain ⟨os₁, w₁, h₁⟩ := hist I [9, 9] [L l]
  obtain ⟨os₂, w₂, h₂⟩ := hist I w₁.sink [F l 1, L l]
  refine ⟨os₁, os₂, w₁.len, w₂.len, w₂.sink, ?_⟩
  simp only [sessions, h₁, h₂]
  rfl
example (l : Layout) := C52_sessions K (fun vs hvs v hv => by
    simp only [List.mem_cons, List.not_mem_nil, or_false] at hvs
    rcases hvs with rfl | rfl
    · exact items_wf V E _ v hv
    · exact items_wf V E _ v hv)
  (twoSessions l).choose_spec.choose_spec.choose_spec.choose_spec.choose_spec
example (l : Layout) := C52_positions V E [[L l], [F l 1, L l]] K
  (twoSessions l).choose_spec.choose_spec.choose_spec.choose_spec.choose_spec
example (l : Layout) := C52_split V E [L l] [F l 1, L l] K K (hist I [1] _).choose_spec.choose_spec
  (twoSessions l).choose_spec.choose_spec.choose_spec.choose_spec.choose_spec
example (l : Layout) := C52_cursor_slice V E (xs l) (List.replicate 200 9) (pos := 30)
  (by rw [List.length_replicate]; omega)
example (l : Layout) := C52_cursor_vec V E (xs l) (List.replicate 20 9) (pos := 8)
  (by rw [List.length_replicate]; omega) Unit
example (l : Layout) := C52_cursor_vec_gap V E (xs l) (by simp [xs]) [9, 9] (pos := 8) (by decide) Unit
example (l : Layout) := C52_cursor_slice_past V E (xs l) [9, 9] (pos := 8) (by decide)
example (l : Layout) := C53_contents V E (xs l) (xs l) rfl K K (xsHist l).choose_spec.choose_spec
  (xsHist l).choose_spec.choose_spec
  (C41_read_back V E (xs l) K (xsHist l).choose_spec.choose_spec).choose_spec.1
  (C41_read_back V E (xs l) K (xsHist l).choose_spec.choose_spec).choose_spec.1
example (l : Layout) := C55_calls (k := sliceSink) (wf_slice (items_wf V E (xs l)))
  ⟨⟨[], List.replicate 50 9⟩, 4⟩
example (l : Layout) := C55_abandoned V E [L l, F l 1] (m := 0) (by simp) sliceSink_lawful (os := []) rfl
  (failing l).choose_spec
example := C56_buffered_lawful sliceSink_lawful 8
theorem buffered_hist (l : Layout) : ∃ (os : List Nat) (w : Writer (Buffered (List Byte))),
    (Writer.new (Buffered.new [9])).history ((vecSink Unit).buffered 8) ((xs l).map Item.arg) =
      (os.map .ok, w) := by
  refine hist (fun s bs => ?_) _ _
  simp only [Sink.buffered, Buffered.flush, vecSink]
  by_cases h : bs.length < 8 - s.held.length
  · exact ⟨_, by rw [if_pos h]⟩
  · rw [if_neg h]
    by_cases h2 : 8 - s.held.length < bs.length
    · rw [if_pos h2]
      by_cases h3 : 8 ≤ bs.length
      · exact ⟨_, by simp only [if_pos h3]; rfl⟩
      · exact ⟨_, by simp only [if_neg h3]; rfl⟩
    · rw [if_neg h2]
      by_cases h3 : 8 ≤ bs.length
      · exact ⟨_, by simp only [if_pos h3]; rfl⟩
      · exact ⟨_, by simp only [if_neg h3]; rfl⟩
example (l : Layout) := C56_flushed K 8 (items_wf V E (xs l)) (buffered_hist l).choose_spec.choose_spec
  (b := _) rfl K (xsHist l).choose_spec.choose_spec
example (l : Layout) := C56_held_back sliceSink_lawful 8 ⟨[], List.replicate 50 9⟩ (items_wf V E (xs l)) rfl
example := C56_late_error

/-- A light, a slice with a panic in it, and the light again. -/
noncomputable def panicky (l : Layout) : List UVal :=
  [.std (L l).std, .slice [.std (F l 1).std, .panics 4, .std (F l 1).std], .std (L l).std]
theorem panicky_wf (l : Layout) : ∀ u ∈ panicky l, ∀ x ∈ u.before, x.bytes.length = x.size := by
  have hL := items_wf V E [L l] (L l).arg (by simp)
  have hF := items_wf V E [F l 1] (F l 1).arg (by simp)
  rw [Item.arg_std] at hL hF
  intro u hu x hx
  simp only [panicky, List.mem_cons, List.not_mem_nil, or_false] at hu
  rcases hu with rfl | rfl | rfl
  · exact hL x (by simpa [UVal.before, UVal.parts, WVal.leaves] using hx)
  · exact hF x (by simpa [UVal.before, UVal.parts, UVal.partsList, WVal.leaves] using hx)
  · exact hL x (by simpa [UVal.before, UVal.parts, WVal.leaves] using hx)
example (l : Layout) := C59_unwind (vecPSink Unit) (Writer.new []) (.slice (panicky l))
example (l : Layout) := C59_history (vecPSink Unit) (Writer.new []) (panicky l)
example (l : Layout) := C59_vec (pre := [9]) (ε := Unit) (panicky l) (panicky_wf l) rfl
example (l : Layout) := (C59_size (.slice (panicky l))).2.2.1 _ rfl rfl

end Crevice.Apply
