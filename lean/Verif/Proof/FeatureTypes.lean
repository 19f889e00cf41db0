import Verif.Proof.FeatureResolve
/-
With any set of features: the types that can be written.
-/
namespace Crevice.Tables
open RustCode RustTypes TypeNames

variable {f : Features}

theorem top_ok : ScopeOk (view f) topScope :=
  ⟨fun _ hx => (nomatch hx), fun _ hx => (nomatch hx), fun _ hx => (nomatch hx)⟩

theorem impl_same (env : ForeignEnv) (n : Nat) (l : Layout) {t : RustCode.Ty} (ht : TyOk (view f) "" t) :
    textImplWith f env n l t = textImpl env n l t := by
  obtain ⟨h1, h2⟩ := (same f env n).norm top_ok ht
  unfold textImpl
  rw [crateSem_eq]
  exact bind_same h1 fun c hc => semImpl_same (same f env n) l (h2 c hc)

theorem name_same (env : ForeignEnv) (n : Nat) {t : RustCode.Ty} (ht : TyOk (view f) "" t) :
    textNameWith f env n t = textName env n t := by
  obtain ⟨h1, h2⟩ := (same f env n).norm top_ok ht
  rw [textName_eq]
  exact bind_same h1 fun c hc => semName_same (same f env n) (h2 c hc)

theorem norm_next (ix : Index) (o : Outside) (n : Nat) (s : Scope) (t : RustCode.Ty) :
    (sem ix o (n + 1)).norm s t = normRule ix (sem ix o n) s t := rfl

theorem norm_path {ix : Index} {o : Outside} {n : Nat} {p : List String} {args : List RustCode.Ty} {c : CTy}
    (hp : p.head? ≠ some "Self") (h : (sem ix o n).norm topScope (.path p args) = some c) :
    ∃ k q cs, n = k + 1 ∧ resolveName ix.names "" p = some q ∧ args.mapM ((sem ix o k).norm topScope) = some cs ∧
      c = .named q cs := by
  cases n with
  | zero => cases h
  | succ k =>
    rw [norm_next, normRule_path, if_neg hp] at h
    have e : normNamed ix (sem ix o k) topScope p args =
        (resolveName ix.names "" p).bind fun q => (args.mapM ((sem ix o k).norm topScope)).map (.named q) := by
      rcases p with _ | ⟨x, _ | ⟨y, p⟩⟩ <;> rfl
    rw [e] at h
    rw [Option.bind_eq_some_iff] at h
    obtain ⟨q, hq, h⟩ := h
    rw [Option.map_eq_some_iff] at h
    obtain ⟨cs, hcs, rfl⟩ := h
    exact ⟨k, q, cs, rfl, hq, hcs, rfl⟩

theorem resolve_has {names : List (String × List String)} {m x : String} {q : List String}
    (h : resolveName names m [x] = some q) : x ∈ q := by
  unfold resolveName at h
  dsimp only at h
  split at h
  · injection h with h
    subst h
    simp
  · split at h
    · injection h with h
      subst h
      simp
    · injection h with h
      subst h
      simp
    · cases h

theorem not_named {q : List String} {cs : List CTy} {x : String} (hx : x ∈ q) (h : ¬Fine f x) :
    ¬COk (view f) (.named q cs) := by
  intro hc
  unfold COk at hc
  exact h (hc.1 x hx)

theorem not_arg {q : List String} {c : CTy} (h : ¬COk (view f) c) : ¬COk (view f) (.named q [c]) := by
  intro hc
  simp only [COk, COks, and_true] at hc
  exact h hc.2

theorem ty_absent {env : ForeignEnv} {n : Nat} {x : String} {c : CTy} (h : ¬Fine f x)
    (hn : (GF f env n).norm topScope (ty x) = some c) : ¬COk (view f) c := by
  have hs : ([x] : List String).head? ≠ some "Self" := by
    intro e
    injection e with e
    exact h (e ▸ fine_of (by decide))
  obtain ⟨k, q, cs, rfl, hq, -, rfl⟩ := norm_path hs hn
  exact not_named (resolve_has hq) h

/-- A written type that mentions what is not there stands for no type, or for one that is not there. -/
theorem norm_absent {env : ForeignEnv} {t : RustCode.Ty} {T : Crevice.Ty} (h : Writes t T) :
    ¬TyOk (view f) "" t → ∀ {n c}, (GF f env n).norm topScope t = some c → ¬COk (view f) c := by
  induction h with
  | scalar s => exact fun ht => absurd (ty_ok (by cases s <;> decide)) ht
  | bool => exact fun ht => absurd (ty_ok (by decide)) ht
  | math m =>
    intro ht n c hn
    have hs : [libName m.lib, mathName m].head? ≠ some "Self" := by
      obtain ⟨lib, kind, s, d⟩ := m
      cases lib <;> simp [libName]
    obtain ⟨k, q, cs, rfl, hq, -, rfl⟩ := norm_path hs hn
    injection hq with hq
    subst hq
    refine not_named (x := libName m.lib) (by simp) fun hf => ht (math_ok hf.2 _)
  | foreign lib name arg hl hn ha =>
    intro ht n c hnorm
    have hs : [lib, name].head? ≠ some "Self" := by rcases hl with rfl | rfl <;> simp
    obtain ⟨k, q, cs, rfl, hq, hcs, rfl⟩ := norm_path hs hnorm
    injection hq with hq
    subst hq
    by_cases hp : ∀ x ∈ [lib, name], Fine f x
    · cases arg with
      | none =>
        refine absurd ?_ ht
        unfold TyOk
        exact ⟨hp, by simp only [Option.toList_none, List.map_nil, TysOk]⟩
      | some a =>
        have hfa : ¬Fine f a := by
          intro hfa
          refine ht ?_
          unfold TyOk
          refine ⟨hp, ?_⟩
          simp only [Option.toList_some, List.map_cons, List.map_nil, TysOk, and_true]
          exact fineTy hfa
        simp only [Option.toList_some, List.map_cons, List.map_nil] at hcs
        rw [List.mapM_cons] at hcs
        cases hx : (GF f env k).norm topScope (ty a) with
        | none => rw [hx] at hcs; cases hcs
        | some x =>
          rw [hx] at hcs
          injection hcs with hcs
          subst hcs
          exact not_arg (ty_absent hfa hx)
    · intro hc
      unfold COk at hc
      exact hp hc.1
  | @dynamic t T h ih =>
    intro ht n c hnorm
    obtain ⟨k, q, cs, rfl, hq, hcs, rfl⟩ := norm_path (by decide) hnorm
    rw [List.mapM_cons] at hcs
    cases hx : (GF f env k).norm topScope t with
    | none => rw [hx] at hcs; cases hcs
    | some x =>
      rw [hx] at hcs
      injection hcs with hcs
      subst hcs
      refine not_arg (ih (fun h => ht ?_) hx)
      exact path_ok (by decide) (by simp only [TysOk, and_true]; exact h)
  | @output l t T h ih =>
    intro ht n c hnorm
    cases n with
    | zero => cases hnorm
    | succ k =>
      rw [norm_next, normRule_proj] at hnorm
      dsimp only at hnorm
      rw [Option.bind_eq_some_iff] at hnorm
      obtain ⟨d, hd, hnorm⟩ := hnorm
      rw [Option.bind_eq_some_iff] at hnorm
      obtain ⟨tr, htr, hnorm⟩ := hnorm
      have hdc := ih (fun h => ht (by unfold TyOk; exact ⟨h, asVia l ""⟩)) hd
      have e : resolveName (indexWith f).names "" ["crate", mod l, asTrait l] = some [mod l, asTrait l] := by
        rw [with_names]
        cases f.std <;> cases l <;> kernel_rfl
      rw [show topScope.module = "" from rfl, e] at htr
      injection htr with htr
      subst htr
      unfold Sem.project at hnorm
      rw [no_find (absent env k d hdc l).1] at hnorm
      cases hnorm

theorem impl_absent (env : ForeignEnv) (n : Nat) (l : Layout) {t : RustCode.Ty} {T : Crevice.Ty} (h : Writes t T)
    (ht : ¬TyOk (view f) "" t) : textImplWith f env n l t = none := by
  show ((GF f env n).norm topScope t).bind (semImpl (GF f env n) l) = none
  cases hn : (GF f env n).norm topScope t with
  | none => rfl
  | some c => exact absent_impl env n l (norm_absent h ht hn)

theorem name_absent (env : ForeignEnv) (n : Nat) {t : RustCode.Ty} {T : Crevice.Ty} (h : Writes t T)
    (ht : ¬TyOk (view f) "" t) : textNameWith f env n t = none := by
  show ((GF f env n).norm topScope t).bind (semName (GF f env n)) = none
  cases hn : (GF f env n).norm topScope t with
  | none => rfl
  | some c => exact absent_name env n (norm_absent h ht hn)

theorem in_crate {a b : String} {arg : Option String} : inCrate a (pathText [a, b] arg.toList) := by
  unfold inCrate
  rw [pathText_toList, String.toList_append]
  exact ⟨b.toList ++ argText arg, by simp⟩

theorem not_in_glam {b : String} {arg : Option String} : ¬inCrate "glam" (pathText ["nalgebra", b] arg.toList) := by
  unfold inCrate
  rw [pathText_toList, String.toList_append]
  rintro ⟨r, hr⟩
  simp at hr

theorem not_in_nalgebra {b : String} {arg : Option String} : ¬inCrate "nalgebra" (pathText ["glam", b] arg.toList) := by
  unfold inCrate
  rw [pathText_toList, String.toList_append]
  rintro ⟨r, hr⟩
  simp at hr

theorem lib_enabled {lib name : String} {arg : Option String} (hl : lib = "glam" ∨ lib = "nalgebra") :
    (Ty.foreign (pathText [lib, name] arg.toList)).Enabled f ↔ offLib f lib = false := by
  unfold Ty.Enabled
  rcases hl with rfl | rfl
  · simp [in_crate, not_in_nalgebra, offLib]
  · simp [in_crate, not_in_glam, offLib]

/-- What is written with what is there needs no other features. -/
theorem enabled_of_ok {t : RustCode.Ty} {T : Crevice.Ty} (h : Writes t T) : TyOk (view f) "" t → T.Enabled f := by
  induction h with
  | scalar s => intro _; unfold Ty.Enabled; trivial
  | bool => intro _; unfold Ty.Enabled; trivial
  | math m =>
    intro ht
    unfold mathRustTy TyOk at ht
    have h := (ht.1 (libName m.lib) (by simp)).2
    unfold Ty.Enabled
    intro hm
    rw [hm] at h
    simpa [offLib, libName] using h
  | foreign lib name arg hl hn ha =>
    intro ht
    unfold TyOk at ht
    exact (lib_enabled hl).2 (ht.1 lib (by simp)).2
  | dynamic h ih =>
    intro ht
    simp only [TyOk, TysOk, and_true] at ht
    unfold Ty.Enabled
    exact ih ht.2
  | output l h ih =>
    intro ht
    unfold TyOk at ht
    unfold Ty.Enabled
    exact ih ht.1

/-- A type that needs no other features and is written with what is not there has no implementation. -/
theorem none_of_not_ok (tg : Target) (env : ForeignEnv) {t : RustCode.Ty} {T : Crevice.Ty} (h : Writes t T) :
    T.Enabled f → ¬TyOk (view f) "" t →
      (∀ l, resolve tg env l T = none ∧ T.outputName l = none) ∧ T.glslName = none := by
  induction h with
  | scalar s => exact fun _ ht => absurd (ty_ok (by cases s <;> decide)) ht
  | bool => exact fun _ ht => absurd (ty_ok (by decide)) ht
  | math m =>
    intro he ht
    refine absurd (math_ok ?_ _) ht
    unfold Ty.Enabled at he
    unfold LibOn
    cases hm : m.lib with
    | mint => rfl
    | cgmath => simp [offLib, libName, he hm]
  | foreign lib name arg hl hn ha =>
    intro he ht
    have hlib := (lib_enabled hl).1 he
    have hrow : mintyRow (pathText [lib, name] arg.toList) = none := by
      cases hr : mintyRow (pathText [lib, name] arg.toList) with
      | none => rfl
      | some r =>
        unfold mintyRow at hr
        have hm := List.mem_of_find?_eq_some hr
        have hf : r.foreign = pathText [lib, name] arg.toList := by simpa using List.find?_some hr
        have hty := foreignRustTy_pathText (ident_lib hl) hn ha
        have hfl : foreignLib r.foreign = lib := by
          rw [hf]
          have := hty
          unfold foreignRustTy at this
          injection this with h1 _
          injection h1 with h1 _
        refine absurd ?_ ht
        have := foreign_ok hm (f := f) (by rw [hfl]; exact hlib) ""
        rw [hf, hty] at this
        exact this
    refine ⟨fun l => ⟨?_, ?_⟩, ?_⟩
    · simp [resolve, hrow]
    · simp [Ty.outputName, hrow]
    · simp [Ty.glslName, hrow]
  | dynamic h ih =>
    intro he ht
    unfold Ty.Enabled at he
    have := ih he fun h => ht (path_ok (by decide) (by simp only [TysOk, and_true]; exact h))
    refine ⟨fun l => ⟨?_, ?_⟩, ?_⟩
    · cases l <;> simp [resolve, (this.1 _).1]
    · simp [Ty.outputName]
    · simp [Ty.glslName]
  | output l h ih =>
    intro he ht
    unfold Ty.Enabled at he
    have := ih he fun h => ht (by unfold TyOk; exact ⟨h, asVia l ""⟩)
    refine ⟨fun l' => ⟨?_, ?_⟩, ?_⟩
    · simp [resolve, (this.1 _).1]
    · simp [Ty.outputName, (this.1 _).2]
    · simp [Ty.glslName, (this.1 _).2]

theorem fine_mono {f f' : Features} (h : f.le f') {x : String} (hx : Fine f x) : Fine f' x := by
  obtain ⟨s, c, g, n⟩ := f
  obtain ⟨s', c', g', n'⟩ := f'
  have h1 := h "std"
  have h2 := h "cgmath"
  have h3 := h "glam"
  have h4 := h "nalgebra"
  simp only [Features.on, if_true, String.reduceEq, if_false, beq_self_eq_true, Bool.true_and] at h1 h2 h3 h4
  obtain ⟨hg, ho⟩ := hx
  refine ⟨?_, ?_⟩
  · unfold gone at *
    cases s'
    · cases s
      · exact hg
      · exact absurd (h1 rfl) Bool.false_ne_true
    · rfl
  · unfold offLib at *
    cases c <;> cases c' <;> cases g <;> cases g' <;> cases n <;> cases n' <;> simp_all

mutual
theorem ok_mono {f f' : Features} (h : f.le f') : ∀ c : CTy, COk (view f) c → COk (view f') c
  | .named q cs, hc => by
    unfold COk at *
    exact ⟨fun x hx => fine_mono h (hc.1 x hx), oks_mono h cs hc.2⟩
  | .array t _, hc => by
    unfold COk at *
    exact ok_mono h t hc
theorem oks_mono {f f' : Features} (h : f.le f') : ∀ cs : List CTy, COks (view f) cs → COks (view f') cs
  | [], _ => by unfold COks; trivial
  | c :: cs, hc => by
    unfold COks at *
    exact ⟨ok_mono h c hc.1, oks_mono h cs hc.2⟩
end

mutual
theorem ok_all : ∀ c : CTy, COk (view ⟨true, true, true, true⟩) c
  | .named q cs => by
    unfold COk
    exact ⟨fun x _ => ⟨rfl, by simp [offLib]⟩, oks_all cs⟩
  | .array t _ => by
    unfold COk
    exact ok_all t
theorem oks_all : ∀ cs : List CTy, COks (view ⟨true, true, true, true⟩) cs
  | [] => by unfold COks; trivial
  | c :: cs => by
    unfold COks
    exact ⟨ok_all c, oks_all cs⟩
end

end Crevice.Tables
