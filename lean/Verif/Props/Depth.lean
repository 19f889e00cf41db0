import Verif.Spec.Paths
import Verif.Props.C51
import Verif.Props.C15_C38
import Verif.Proof.Sessions
/-
C36 and C37 for fields at any depth; C24: errors of the sink are always reported.
-/
namespace Crevice

/-- C36, at any depth: in the bytes of a converted value, the bytes that a field gives when it is
converted alone stand at the offset of the field, however deeply it is nested. -/
theorem C36_any_depth {tg : Target} (htg : tg.Valid) {env : ForeignEnv} (henv : env.Lawful tg)
    {l : Layout} {t u : Ty} {i : Impl} (h : resolve tg env l t = some i) {v : RVal}
    (hv : t.HasVal tg env v) {p : List String} (hp : t.fieldTy p = some u) :
    ∃ o bs j x y bsf off, i.asStd v = some o ∧ bytesOf tg i.out o = some bs ∧
      resolve tg env l u = some j ∧ v.atPath p = some x ∧ u.HasVal tg env x ∧
      j.asStd x = some y ∧ bytesOf tg j.out y = some bsf ∧
      i.out.offsetOf tg p = some (off, j.out) ∧ off + bsf.length ≤ bs.length ∧
      SliceAt bs off bsf := by
  induction p generalizing t i v with
  | nil =>
    simp only [Ty.fieldTy, Option.some.injEq] at hp
    subst hp
    obtain ⟨o, bs, h1, h2, h3, h4⟩ := C11_byte_round_trip htg henv h hv
    exact ⟨o, bs, i, v, o, bs, 0, h1, h2, h, rfl, hv, h1, h2, by rw [RTy.offsetOf], by omega,
      by simp [SliceAt]⟩
  | cons n p ih =>
    cases t with
    | struct name fs =>
      simp only [Ty.fieldTy, Option.bind_eq_some_iff] at hp
      obtain ⟨a, ha, hp⟩ := hp
      obtain ⟨o, bs, h1, h2, h3⟩ := C36_nesting htg henv h hv
      obtain ⟨j, x, y, bsf, off, g1, g2, g3, g4, g5, g6, g7, g8⟩ := h3 _ (mem_of_lookup_eq_some ha)
      simp only at g1 g2 g3 g6
      obtain ⟨o', bs', j', x', y', bsf', off', q1, q2, q3, q4, q5, q6, q7, q8, q9, q10⟩ := ih g1 g3 hp
      rw [g4, Option.some.injEq] at q1; subst q1
      rw [g5, Option.some.injEq] at q2; subst q2
      obtain ⟨is, -, -, hi⟩ := resolve_struct h
      have hgs : i.out = .struct (genFields tg (structAl l is) 0 0 is) := by rw [hi]; rfl
      refine ⟨o, bs, j', x', y', bsf', off + off', h1, h2, q3, ?_, q5, q6, q7, ?_, by omega, ?_⟩
      · rw [RVal.atPath, g2]; exact q4
      · rw [hgs] at g6 ⊢
        rw [offsetOf_cons g6, q8]
        rfl
      · exact g8.trans q10
    | _ => simp [Ty.fieldTy] at hp

/-- C37, at any depth: renaming structs and fields moves no field. -/
theorem C37_rename_any_depth {tg : Target} (htg : tg.Valid) {env : ForeignEnv} {l : Layout} {t u : Ty}
    (hr : t.Renamed u) {i j : Impl} (hi : resolve tg env l t = some i)
    (hj : resolve tg env l u = some j) {p q : List String} (hp : SamePath t u p q) :
    ∃ (off : Nat) (ty ty' : RTy), i.out.offsetOf tg p = some (off, ty) ∧
      j.out.offsetOf tg q = some (off, ty') ∧ ty.size tg = ty'.size tg := by
  induction hp generalizing i j with
  | nil =>
    refine ⟨0, i.out, j.out, by rw [RTy.offsetOf], by rw [RTy.offsetOf], ?_⟩
    exact (C37_rename_layout htg hr hi hj).2
  | @cons n n' fs gs k x y a b p q hk hk' h1 h2 _ ih =>
    obtain ⟨is, offs, fin, a1, a2, _, a4⟩ := C03_placement htg hi
    obtain ⟨js, offs', fin', b1, b2, _, b4⟩ := C03_placement htg hj
    have hli : is.length = fs.length := by simpa using (congrArg List.length a1).symm
    have hlj : js.length = gs.length := by simpa using (congrArg List.length b1).symm
    have hlo : offs.length = fs.length := by rw [a2.length]; simpa using hli
    have hlo' : offs'.length = gs.length := by rw [b2.length]; simpa using hlj
    have c1 := a4 k hk (by omega) (by omega)
    have c2 := b4 k hk' (by omega) (by omega)
    obtain ⟨_, off, ty, ty', d1, d2, -⟩ := C37_rename_offsets htg hr hi hj hk
    have hoff : offs'[k] = offs[k] := by
      rw [c1, Option.some.injEq, Prod.mk.injEq] at d1
      rw [c2, Option.some.injEq, Prod.mk.injEq] at d2
      rw [d2.1, d1.1]
    rw [hoff] at c2
    have e1 : resolve tg env l a = some (is[k]'(by omega)) := by
      have := congrArg (fun x => x[k]?) a1
      simpa [hk, show k < is.length by omega, h1] using this
    have e2 : resolve tg env l b = some (js[k]'(by omega)) := by
      have := congrArg (fun x => x[k]?) b1
      simpa [hk', show k < js.length by omega, h2] using this
    have hab : a.Renamed b := by
      simp only [Ty.Renamed] at hr
      rw [RenamedFields_iff] at hr
      simpa [h1, h2] using hr.get k hk hk'
    obtain ⟨o, ty₁, ty₂, f1, f2, f3⟩ := ih hab e1 e2
    simp only [h1] at c1
    simp only [h2] at c2
    obtain ⟨is', -, -, hi'⟩ := resolve_struct hi
    have hgs : i.out = .struct (genFields tg (structAl l is') 0 0 is') := by rw [hi']; rfl
    obtain ⟨js', -, -, hj'⟩ := resolve_struct hj
    have hgs' : j.out = .struct (genFields tg (structAl l js') 0 0 js') := by rw [hj']; rfl
    refine ⟨offs[k] + o, ty₁, ty₂, ?_, ?_, f3⟩
    · rw [hgs] at c1 ⊢
      rw [offsetOf_cons c1, f1]
      rfl
    · rw [hgs'] at c2 ⊢
      rw [offsetOf_cons c2, f2]
      rfl

/-- Non-vacuity: `Light.inner.v` with all names changed. -/
example : ∃ u, Ex.light.Renamed u ∧ SamePath Ex.light u ["inner", "v"] ["d", "f"] ∧
    (∃ i, resolve x86_64 Ex.env .std140 u = some i) ∧
    Ex.light.fieldTy ["inner", "v"] = some (.foreign "glam::Vec2") ∧
    Ex.lightVal.atPath ["inner", "v"] = some (.newtype (Ex.v2 (Ex.flt 5) (Ex.flt 6))) := by
  refine ⟨.struct "Q" [("c", Ex.vec3), ("b", Ex.f32), ("a", .bool), ("e", Ex.mat3),
    ("d", .struct "P" [("g", .scalar .f64), ("f", .foreign "glam::Vec2")])], ?_, ?_, ?_, rfl, rfl⟩
  · simp [Ex.light, Ex.atten, Ty.Renamed, RenamedFields]
  · exact .cons (k := 4) (by decide) (by decide) rfl rfl (.cons (k := 1) (by decide) (by decide) rfl rfl .nil)
  · exact (C30_convertible _ _ _ _).2 (by decide)

/-! ## C24 -/

section
variable {σ ε : Type}

theorem watched_calls (k : Sink σ ε) (s : σ × Bool) (cs : List (List Byte)) :
    (runCalls k.watched s cs).2.2 = (s.2 || match (runCalls k.watched s cs).1 with
      | .ok _ => false
      | .error _ => true) := by
  induction cs generalizing s with
  | nil => simp [runCalls]
  | cons c r ih =>
    simp only [runCalls]
    rcases h : k.watched.writeAll s c with ⟨e | u, s'⟩
    · simp only [Sink.watched] at h
      rcases h' : k.writeAll s.1 c with ⟨e' | u', t⟩
      · simp only [h', Prod.mk.injEq] at h
        obtain ⟨-, rfl⟩ := h
        simp
      · simp [h'] at h
    · have hs : s'.2 = s.2 := by
        simp only [Sink.watched] at h
        rcases h' : k.writeAll s.1 c with ⟨e' | u', t⟩
        · simp [h'] at h
        · simp only [h', Prod.mk.injEq] at h
          obtain ⟨-, rfl⟩ := h
          rfl
      simp only
      rw [ih, hs]

theorem sim_watched (k : Sink σ ε) : Sim k.watched k fun s t => s.1 = t := by
  rintro ⟨s, b⟩ t rfl bs
  simp only [Sink.watched]
  rcases k.writeAll s bs with ⟨e | u, s'⟩ <;> exact ⟨rfl, rfl⟩

/-- C24: an error of the sink is always reported, whatever the sink. Let the sink remember whether a
call to it has failed: a write to it does the same as without, and returns an error exactly if a call
has failed. -/
theorem C24_reports (k : Sink σ ε) (w : Writer σ) {v : WVal} (hwf : v.Wf) :
    ∃ w', (⟨(w.sink, false), w.offset⟩ : Writer (σ × Bool)).write k.watched v = ((w.write k v).1, w') ∧
      w'.sink.1 = (w.write k v).2.sink ∧ w'.len = (w.write k v).2.len ∧
      (w'.sink.2 = true ↔ ∃ e, (w.write k v).1 = .error e) := by
  obtain ⟨h1, h2, h3⟩ := sim_write (sim_watched k) v (s := (w.sink, false)) (t := w.sink) w.offset rfl
  refine ⟨_, Prod.ext h1 rfl, h3, h2, ?_⟩
  change _ ↔ ∃ e, (Writer.write k ⟨w.sink, w.offset⟩ v).1 = .error e
  rw [← h1, write_eq_seq]
  obtain ⟨t1, t2, -⟩ := seqStd_trace k.watched ⟨(w.sink, false), w.offset⟩ v.leaves hwf
  have := watched_calls k (w.sink, false) (calls w.offset v.leaves)
  rw [← t1, ← t2] at this
  rcases hs : seqStd k.watched ⟨(w.sink, false), w.offset⟩ v.leaves with ⟨e | u, w'⟩ <;>
    rw [hs] at this <;> simp only at this ⊢ <;> simp [this]

/-- A sink that fails, although it has accepted all bytes: the error is reported. -/
example : (Writer.new ([] : List Byte)).write
    { writeAll := fun s bs => (.error "disk full", s ++ bs), delivered := id } (.std ⟨4, 1, [7]⟩) =
      (.error "disk full", ⟨[7], 0⟩) := rfl

end

end Crevice
