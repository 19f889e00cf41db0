import Verif.Proof.Run430
import Verif.Proof.RunDynamic
/-
The functions of `src/std140` and `src/std430` that do not need the feature `std`, executed in the library without it.
Written by `tools/gen_nostd.py` from `Proof/Run140.lean`, `Proof/Run430.lean` and `Proof/RunDynamic.lean`.
-/

namespace RustCode.N140
open Crevice

/-- The library without `std` with its items in parsed form. -/
def lib : Program :=
  { items := Parsed.internal ++ Parsed.std140Sizer ++ (Parsed.std140Traits.drop 2).take 5 ++
      Parsed.std140DynamicUniform.dropLast
    convTraits := ["AsStd140"]
    stdTraits := ["Std140"]
    convertName := "as_std140"
    restoreName := "from_std140" }

theorem library_no_std (f : Features) (hf : f.std = false) : libraryWith f .std140 = lib := by
  obtain ⟨s, c, g, n⟩ := f
  cases hf
  kernel_rfl

section
variable {S : Setting}

@[rust] theorem find_as_std (t : S.StdTy) : findMethod lib (.std t) "as_std140" =
    some (Parsed.std140Traits6_as_std140, [("T", .std t)]) := by rfl
@[rust] theorem find_alignOffset : findFn lib.items "align_offset" = some Parsed.internal1_align_offset := by rfl
@[rust] theorem find_max : findFn lib.items "max" = some Parsed.internal2_max := by rfl

end

/-- A value of a type that implements `Std140`, and what the Writer sees of it. -/
structure IsStd {S : Setting} (v : Val S) (t : RtTy S) (x : StdVal) : Prop where
  ty : typeOf lib.items v = t
  find : findMethod lib t "as_std140" = some (Parsed.std140Traits6_as_std140, [("T", t)])
  size : sizeOfTy lib.items t = some x.size
  align : ∀ cx n s, cx.prog = lib → cx.run = runFn lib (n + 2) →
    constOf cx t "ALIGNMENT" s = (.val (.word (BitVec.ofNat S.bits x.alignment)), s)
  bytes : bytesOfVal lib.items v = some x.bytes
  coerce : ∀ ty, v.coerce ty = v

/-- `as_std140` of such a value. -/
theorem call_as_std {S : Setting} (cx : Ctx S) (n : Nat) (h : cx.run = runFn lib (n + 1)) (tys : Tys S) (e : Expr)
    (v : Val S) (hv : ∀ ty, v.coerce ty = v) (s : State S) :
    callFn cx Parsed.std140Traits6_as_std140 tys (some (e, v)) [] [] s = (.val v, s) := by
  obtain ⟨env, world⟩ := s
  unfold callFn
  rw [h]
  simp [rust, runFn, Parsed.std140Traits6_as_std140, hv]

/-- A value of a type that implements `Std140`. -/
theorem isStd_std {S : Setting} (d : S.Std) : IsStd (S := S) (.arg (.std d)) (.std (S.stdTy d)) (viewStd d) where
  ty := by simp [typeOf]
  find := by simp [rust]
  size := rfl
  align := fun cx n s hp hrun => rfl
  bytes := rfl
  coerce := fun _ => rfl

/-- A type with a conversion, the type of the results, its size and alignment. -/
structure Converts {S : Setting} (t out : RtTy S) (size align : Nat) : Prop where
  proj : projectTy lib lib.depth t "Output" = out
  size : sizeOfTy lib.items out = some size
  align : ∀ cx n s, cx.prog = lib → cx.run = runFn lib (n + 2) →
    constOf cx out "ALIGNMENT" s = (.val (.word (BitVec.ofNat S.bits align)), s)

theorem converts_conv {S : Setting} (t : S.ConvTy) :
    Converts (S := S) (.conv t) (.std (S.outTy t)) (S.size (S.outTy t)) (S.align (S.outTy t)) :=
  ⟨rfl, rfl, fun _ _ _ _ _ => rfl⟩

theorem converts_std {S : Setting} (t : S.StdTy) :
    Converts (S := S) (.std t) (.std t) (S.size t) (S.align t) :=
  ⟨rfl, rfl, fun _ _ _ _ _ => rfl⟩

/-- `T::std140_size_static()`. -/
theorem call_sizeStatic {S : Setting} (cx : Ctx S) (hp : cx.prog = lib) (n : Nat) (h : cx.run = runFn lib (n + 1))
    (t out : RtTy S) (tys : Tys S) (size align : Nat)
    (hfind : findMethod lib t "std140_size_static" = some (Parsed.std140Traits5_std140_size_static, tys))
    (hproj : ∀ tys : Tys S, evalTy lib (("Self", t) :: tys) (lib.depth + 1) (.path ["Self", "Output"] []) = out)
    (hc : Converts t out size align) (s : State S) :
    callAssoc cx t "std140_size_static" [] [] s = (.val (.word (BitVec.ofNat S.bits size)), s) := by
  obtain ⟨env, world⟩ := s
  simp only [callAssoc, hp, hfind]
  unfold callFn
  rw [h]
  obtain ⟨cx', hp', htys', -, hrun', heq⟩ := runFn_body (S := S) (p := lib) (n := n)
    (f := Parsed.std140Traits5_std140_size_static) (tys := ("Self", t) :: tys)
    (s := { env := [], world := world }) rfl
  have hT : evalTy lib cx'.tys (lib.depth + 1) (.path ["Self", "Output"] []) = out := by
    rw [htys', hproj]
  simp only [Parsed.std140Traits5_std140_size_static] at heq
  simp [Parsed.std140Traits5_std140_size_static, rust]
  rw [heq]
  simp [rust, call, hp', hT, hc.size]

/-- `as_bytes`. -/
theorem method_asBytes {S : Setting} (cx : Ctx S) (hp : cx.prog = lib) (n : Nat) (h : cx.run = runFn lib (n + 1))
    (v : Val S) (t : RtTy S) (x : StdVal) (hv : IsStd v t x)
    (hfind : findMethod lib t "as_bytes" = some (Parsed.std140Traits4_as_bytes, [])) (e : Expr) (s : State S) :
    callMethod cx e v "as_bytes" [] [] s = (.val (.bytes x.bytes), s) := by
  obtain ⟨env, world⟩ := s
  simp only [callMethod, hp, hv.ty, hfind]
  unfold callFn
  rw [h]
  simp [rust, runFn, Parsed.std140Traits4_as_bytes, call, hv.bytes]

/-- A Sizer as a value. -/
def sizerVal {S : Setting} (o : BitVec S.bits) : Val S := .struct "Sizer" [("offset", .word o)]

/-- `Sizer::add`. -/
theorem run_add {S : Setting} (n : Nat) (t out : RtTy S) (size align : Nat) (hc : Converts t out size align)
    (tys : Tys S) (htys : tys.lookup "T" = some t) (o : BitVec S.bits) (world : S.World) :
    runFn lib (n + 3) Parsed.std140Sizer4_add tys { env := [("self", sizerVal o)], world := world } =
      (wordRes (sizerAdd (mode S) o size align).1,
        { env := [("self", sizerVal (sizerAdd (mode S) o size align).2)], world := world }) := by
  obtain ⟨cx, hp, htys', -, hrun, heq⟩ := runFn_body (S := S) (p := lib) (n := n + 2)
    (f := Parsed.std140Sizer4_add) (tys := tys)
    (s := { env := [("self", sizerVal o)], world := world }) rfl
  rw [heq]
  have hT : evalTy lib cx.tys (lib.depth + 1) (.proj (.path ["T"] []) (.path ["AsStd140"] []) ["Output"]) = out := by
    rw [← hc.proj, htys']
    have : ∀ d, evalTy lib tys (d + 1) (.path ["T"] []) = t := by intro d; rw [evalTy, htys]
    rw [evalTy, show lib.depth = (lib.depth - 1) + 1 from rfl, this]
  have hA : ∀ s : State S, pathVal cx (.proj (.path ["T"] []) (.path ["AsStd140"] []) ["Output", "ALIGNMENT"]) s =
      (.val (.word (BitVec.ofNat S.bits align)), s) := by
    intro s
    rw [pathVal, hp, hT, hc.align cx n s hp hrun]
  have hcall := call_alignOffset cx lib (n + 1) hrun
  cases h1 : alignOffsetU (mode S) o (BitVec.ofNat S.bits align) with
  | none => simp [rust, call, hp, hT, hc.size, hA, hcall, h1, sizerAdd, sizerVal]
  | some p =>
    cases h2 : uadd (mode S) o p with
    | none => simp [rust, call, hp, hT, hc.size, hA, hcall, h1, h2, sizerAdd, sizerVal, setField]
    | some o1 =>
      cases h3 : uadd (mode S) o1 (BitVec.ofNat S.bits size) <;>
        simp [rust, call, hp, hT, hc.size, hA, hcall, h1, h2, h3, sizerAdd, sizerVal, setField]

section Client
variable {S : Setting}

/-- `T::std140_size_static()`. -/
theorem exec_sizeStatic (m : Nat) (t : S.ConvTy) (env : Env S) (world : S.World) :
    exec lib [("T", .conv t)] (m + 1) (.call (.path (.path ["T", "std140_size_static"] [])) []) env world =
      (.val (.word (BitVec.ofNat _ (S.size (S.outTy t)))), { env := env, world := world }) := by
  have hcall : ∀ cx : Ctx S, call cx (.path (.path ["T", "std140_size_static"] [])) [] [] =
      callAssoc cx (evalTy cx.prog cx.tys (cx.prog.depth + 1) (.path ["T"] [])) "std140_size_static" [] [] := by
    intro cx; rfl
  have ht : evalTy lib [("T", (.conv t : RtTy S))] (lib.depth + 1) (.path ["T"] []) = .conv t := rfl
  rw [exec]
  simp only [eval, evalList, bind_apply, pure_apply, hcall, ht]
  exact call_sizeStatic _ rfl m rfl _ _ [] _ _ (by rfl) (fun tys => by rfl) (converts_conv t) _

/-- `x.as_bytes()`. -/
theorem exec_asBytes (m : Nat) (d : S.Std) (world : S.World) :
    exec lib [] (m + 1) (.method (.var "x") "as_bytes" []) [("x", .arg (.std d))] world =
      (.val (.bytes (S.bytes d)), { env := [("x", .arg (.std d))], world := world }) := by
  rw [exec]
  have h := method_asBytes { prog := lib, tys := [], fuel := m + 1, run := runFn lib (m + 1) } rfl m rfl _ _ _
    (isStd_std d) (by rfl) (.var "x")
  simp [rust, h, viewStd]

/-- `x.as_std140()` for a type that implements `Std140`. -/
theorem exec_asStd (m : Nat) (d : S.Std) (world : S.World) :
    exec lib [] (m + 1) (.method (.var "x") "as_std140" []) [("x", .arg (.std d))] world =
      (.val (.arg (.std d)), { env := [("x", .arg (.std d))], world := world }) := by
  rw [exec]
  have h := call_as_std { prog := lib, tys := [], fuel := m + 1, run := runFn lib (m + 1) } m rfl
    [("Self", .std (S.stdTy d)), ("T", .std (S.stdTy d))] (.var "x") (.arg (.std d)) (fun _ => rfl)
  simp [rust, callMethod, typeOf, find_as_std, h]

/-- `T::from_std140(x)` for such a type. -/
theorem exec_fromStd (m : Nat) (t : S.StdTy) (d : S.Std) (world : S.World) :
    exec lib [("T", .std t)] (m + 1) (.call (.path (.path ["T", "from_std140"] [])) [.var "x"]) [("x", .arg (.std d))] world =
      (.val (.arg (.std d)), { env := [("x", .arg (.std d))], world := world }) := by
  have hcall : ∀ (cx : Ctx S) (as : List Expr) (vs : List (Val S)), call cx (.path (.path ["T", "from_std140"] [])) as vs =
      callAssoc cx (evalTy cx.prog cx.tys (cx.prog.depth + 1) (.path ["T"] [])) "from_std140" as vs := by
    intro cx as vs; rfl
  have ht : evalTy lib [("T", (.std t : RtTy S))] (lib.depth + 1) (.path ["T"] []) = .std t := rfl
  have hf : findMethod lib (.std t : RtTy S) "from_std140" = some (Parsed.std140Traits6_from_std140, [("T", .std t)]) := by
    rfl
  rw [exec]
  simp only [eval, evalList, bind_apply, pure_apply, hcall, ht, callAssoc, hf]
  simp [rust, callFn, runFn, Parsed.std140Traits6_from_std140, Val.coerce]

/-- `Sizer::new()`. -/
theorem exec_sizerNew (m : Nat) (env : Env S) (world : S.World) :
    exec lib [] (m + 1) (.call (.path (.path ["Sizer", "new"] [])) []) env world =
      (.val (sizerVal 0), { env := env, world := world }) := by
  have hcall : ∀ cx : Ctx S, call cx (.path (.path ["Sizer", "new"] [])) [] [] =
      callAssoc cx (evalTy cx.prog cx.tys (cx.prog.depth + 1) (.path ["Sizer"] [])) "new" [] [] := by
    intro cx; rfl
  have ht : evalTy (S := S) lib [] (lib.depth + 1) (.path ["Sizer"] []) = .named "Sizer" [] := rfl
  have h1 : findMethod (S := S) lib (.named "Sizer" []) "new" = some (Parsed.std140Sizer4_new, []) := by rfl
  have h3 : structVal (S := S) lib.items "Sizer" ["offset"] [.lit 0] = M.pure (sizerVal 0) := by rfl
  rw [exec]
  simp only [eval, evalList, bind_apply, pure_apply, hcall, ht, callAssoc, h1]
  unfold callFn
  simp [rust, runFn, Parsed.std140Sizer4_new, structName, h3]
  rfl

theorem typeOf_sizer (o : BitVec S.bits) : typeOf lib.items (sizerVal o) = .named "Sizer" [] := by
  rw [sizerVal, typeOf]; rfl

/-- `z.len()`. -/
theorem exec_sizerLen (m : Nat) (o : BitVec S.bits) (world : S.World) :
    exec lib [] (m + 1) (.method (.var "z") "len" []) [("z", sizerVal o)] world =
      (.val (.word o), { env := [("z", sizerVal o)], world := world }) := by
  have h1 : findMethod (S := S) lib (.named "Sizer" []) "len" = some (Parsed.std140Sizer4_len, []) := by rfl
  rw [exec]
  have h : ∀ cx : Ctx S, cx.prog = lib → cx.run = runFn lib (m + 1) → ∀ s : State S, callMethod cx (.var "z") (sizerVal o) "len" [] [] s =
      (.val (.word o), s) := by
    intro cx hp hrun s
    obtain ⟨env, world⟩ := s
    simp only [callMethod, hp, typeOf_sizer, h1]
    unfold callFn
    simp [hrun, rust, runFn, Parsed.std140Sizer4_len, sizerVal]
  simp [rust, h]

/-- `z.add::<T>()`. -/
theorem exec_sizerAdd (m : Nat) (t out : RtTy S) (size align : Nat) (hc : Converts t out size align)
    (o : BitVec S.bits) (world : S.World) :
    execMethod lib (m + 3) [t] "z" "add" [("z", sizerVal o)] world =
      (wordRes (sizerAdd (mode S) o size align).1,
        { env := [("z", sizerVal (sizerAdd (mode S) o size align).2)], world := world }) := by
  have h1 : findMethod (S := S) lib (.named "Sizer" []) "add" = some (Parsed.std140Sizer4_add, []) := by rfl
  have hr := run_add m t out size align hc [("Self", .named "Sizer" []), ("T", t)] rfl o world
  unfold execMethod
  simp [rust, typeOf_sizer, h1]
  unfold callFn
  simp only [Parsed.std140Sizer4_add] at hr ⊢
  simp [rust, typeArg, hr]
  rcases sizerAdd (mode S) o size align with ⟨_ | r, o'⟩ <;> simp [rust, outs, copyBack]

theorem ofNat_max (w a : Nat) (h : 256 < 2 ^ w) (ha : a < 2 ^ w) :
    constMaxU (BitVec.ofNat w 256) (BitVec.ofNat w a) = BitVec.ofNat w (max 256 a) := by
  unfold constMaxU
  have h1 : (BitVec.ofNat w 256).toNat = 256 := by rw [BitVec.toNat_ofNat, Nat.mod_eq_of_lt h]
  have h2 : (BitVec.ofNat w a).toNat = a := by rw [BitVec.toNat_ofNat, Nat.mod_eq_of_lt ha]
  split
  · rename_i hgt
    rw [gt_iff_lt, BitVec.lt_def, h1, h2] at hgt
    rw [Nat.max_eq_left (by omega)]
  · rename_i hgt
    rw [gt_iff_lt, BitVec.lt_def, h1, h2] at hgt
    rw [Nat.max_eq_right (by omega)]

/-- `DynamicUniformStd140::<T>::ALIGNMENT`. -/
theorem const_uniform (t : S.StdTy) (h : 256 < 2 ^ S.bits) (ha : S.align t < 2 ^ S.bits) (cx : Ctx S) (n : Nat)
    (s : State S) (hp : cx.prog = lib) (hrun : cx.run = runFn lib (n + 2)) :
    constOf cx (.named "DynamicUniformStd140" [.std t]) "ALIGNMENT" s =
      (.val (.word (BitVec.ofNat S.bits (max 256 (S.align t)))), s) := by
  obtain ⟨env, world⟩ := s
  have hfind : ((implsOf lib (.named "DynamicUniformStd140" [.std t] : RtTy S)).findSome? fun i =>
      (assocConst i.2.2 "ALIGNMENT").map fun e => (e, i.2.1)) =
      some (.call (.var "max") [.num 256 "", .path (.path ["T", "ALIGNMENT"] [])], [("T", .std t)]) := by rfl
  simp only [constOf, hp, hfind]
  unfold callFn
  rw [hrun]
  obtain ⟨cx', hp', htys', -, hrun', heq⟩ := runFn_body (S := S) (p := lib) (n := n + 1)
    (f := ⟨"ALIGNMENT", ⟨[], [], []⟩, .static, [], .unit,
      some (.call (.var "max") [.num 256 "", .path (.path ["T", "ALIGNMENT"] [])])⟩)
    (tys := [("Self", .named "DynamicUniformStd140" [.std t]), ("T", .std t)])
    (s := { env := [], world := world }) rfl
  have hT : pathVal cx' (.path ["T", "ALIGNMENT"] []) = M.pure (.word (BitVec.ofNat S.bits (S.align t))) := by
    rw [pathVal, hp', htys']; rfl
  have hlit : ∀ (x y : Expr) (b : BitVec S.bits) (s : State S),
      callFn cx' Parsed.internal2_max [] none [x, y] [.lit 256, .word b] s =
      callFn cx' Parsed.internal2_max [] none [x, y] [.word (BitVec.ofNat S.bits 256), .word b] s := by
    intro x y b s; unfold callFn; rfl
  simp [rust]
  rw [heq]
  simp [rust, call, hp', hT, hlit, call_max cx' lib n hrun', ofNat_max _ _ h ha]

/-- The conversion of `DynamicUniform<T>` for the sizes. -/
theorem converts_uniform_conv (t : S.ConvTy) (h : 256 < 2 ^ S.bits) (ha : S.align (S.outTy t) < 2 ^ S.bits) :
    Converts (S := S) (.named "DynamicUniform" [.conv t]) (.named "DynamicUniformStd140" [.std (S.outTy t)])
      (S.size (S.outTy t)) (max 256 (S.align (S.outTy t))) :=
  ⟨rfl, rfl, fun cx n s hp hrun => const_uniform _ h ha cx n s hp hrun⟩

/-- `DynamicUniform::<T>::from_std140(d)`. -/
theorem call_from_uniform (t : S.ConvTy) (d : S.Std) (cx : Ctx S) (m : Nat) (hp : cx.prog = lib)
    (hrun : cx.run = runFn lib (m + 2)) (e : Expr) (s : State S) :
    callAssoc cx (.named "DynamicUniform" [.conv t]) "from_std140" [e] [uniformStdVal d] s =
      (match S.restore t d with
        | .returns c => .val (uniformVal (.conv c))
        | .panics => .panic, s) := by
  obtain ⟨env, world⟩ := s
  have hfind : findMethod (S := S) lib (.named "DynamicUniform" [.conv t]) "from_std140" =
    some (Parsed.std140DynamicUniform4_from_std140, [("T", .conv t)]) := by rfl
  simp only [callAssoc, hp, hfind]
  unfold callFn
  rw [hrun]
  obtain ⟨cx', hp', htys', -, hrun', heq⟩ := runFn_body (S := S) (p := lib) (n := m + 1)
    (f := Parsed.std140DynamicUniform4_from_std140)
    (tys := [("Self", .named "DynamicUniform" [.conv t]), ("T", .conv t)])
    (s := { env := [("value", uniformStdVal d)], world := world }) rfl
  have hT : evalTy lib cx'.tys (lib.depth + 1) (.path ["T"] []) = .conv t := by rw [htys']; rfl
  have hfn : findFn lib.items "DynamicUniform" = none := by rfl
  have hsn : structName cx'.tys (.path ["DynamicUniform"] []) = some "DynamicUniform" := by
    rw [htys']; rfl
  have hfind' : findMethod (S := S) lib (.conv t) "from_std140" = none := by rfl
  have hcall : ∀ (a : Expr), call cx' (.path (.proj (.path ["T"] []) (.path ["AsStd140"] []) ["from_std140"])) [a]
      [.arg (.std d)] = (M.ends (S.restore t d)).bind fun c => M.pure (.arg (.conv c)) := by
    intro a
    have : call cx' (.path (.proj (.path ["T"] []) (.path ["AsStd140"] []) ["from_std140"])) [a] [.arg (.std d)] =
        callAssoc cx' (evalTy cx'.prog cx'.tys (cx'.prog.depth + 1) (.path ["T"] [])) "from_std140" [a]
          [.arg (.std d)] := rfl
    have hrest : lib.restoreName = "from_std140" := rfl
    rw [this, hp', hT]
    simp [callAssoc, hp', hfind', hrest]
  have hsv : ∀ c : S.Conv, structVal lib.items "DynamicUniform" ((List.range 1).map toString) [(.arg (.conv c) : Val S)] =
      M.pure (uniformVal (.conv c)) := fun c => rfl
  simp only [Parsed.std140DynamicUniform4_from_std140] at heq
  have hco : ∀ ty, (uniformStdVal d).coerce ty = uniformStdVal d := fun _ => rfl
  have hco' : ∀ ty c, (uniformVal (S := S) (.conv c)).coerce ty = uniformVal (.conv c) := fun _ _ => rfl
  simp [rust, Parsed.std140DynamicUniform4_from_std140, hco]
  rw [heq]
  simp [List.range_succ] at hsv
  cases hr : S.restore t d <;>
    simp [rust, uniformStdVal, hcall, hr] <;> simp [call, hp', hfn, hsn, hsv, rust, hco']

end Client

end RustCode.N140

namespace RustCode.N430
open Crevice

/-- The library without `std` with its items in parsed form. -/
def lib : Program :=
  { items := Parsed.internal ++ Parsed.std430Sizer ++ (Parsed.std430Traits.drop 2).take 5
    convTraits := ["AsStd430"]
    stdTraits := ["Std430"]
    convertName := "as_std430"
    restoreName := "from_std430" }

theorem library_no_std (f : Features) (hf : f.std = false) : libraryWith f .std430 = lib := by
  obtain ⟨s, c, g, n⟩ := f
  cases hf
  kernel_rfl

section
variable {S : Setting}

@[rust] theorem find_as_std (t : S.StdTy) : findMethod lib (.std t) "as_std430" =
    some (Parsed.std430Traits6_as_std430, [("T", .std t)]) := by rfl
@[rust] theorem find_alignOffset : findFn lib.items "align_offset" = some Parsed.internal1_align_offset := by rfl
@[rust] theorem find_max : findFn lib.items "max" = some Parsed.internal2_max := by rfl

end

/-- A value of a type that implements `Std430`, and what the Writer sees of it. -/
structure IsStd {S : Setting} (v : Val S) (t : RtTy S) (x : StdVal) : Prop where
  ty : typeOf lib.items v = t
  find : findMethod lib t "as_std430" = some (Parsed.std430Traits6_as_std430, [("T", t)])
  size : sizeOfTy lib.items t = some x.size
  align : ∀ cx n s, cx.prog = lib → cx.run = runFn lib (n + 2) →
    constOf cx t "ALIGNMENT" s = (.val (.word (BitVec.ofNat S.bits x.alignment)), s)
  bytes : bytesOfVal lib.items v = some x.bytes
  coerce : ∀ ty, v.coerce ty = v

/-- `as_std430` of such a value. -/
theorem call_as_std {S : Setting} (cx : Ctx S) (n : Nat) (h : cx.run = runFn lib (n + 1)) (tys : Tys S) (e : Expr)
    (v : Val S) (hv : ∀ ty, v.coerce ty = v) (s : State S) :
    callFn cx Parsed.std430Traits6_as_std430 tys (some (e, v)) [] [] s = (.val v, s) := by
  obtain ⟨env, world⟩ := s
  unfold callFn
  rw [h]
  simp [rust, runFn, Parsed.std430Traits6_as_std430, hv]

/-- A value of a type that implements `Std430`. -/
theorem isStd_std {S : Setting} (d : S.Std) : IsStd (S := S) (.arg (.std d)) (.std (S.stdTy d)) (viewStd d) where
  ty := by simp [typeOf]
  find := by simp [rust]
  size := rfl
  align := fun cx n s hp hrun => rfl
  bytes := rfl
  coerce := fun _ => rfl

/-- A type with a conversion, the type of the results, its size and alignment. -/
structure Converts {S : Setting} (t out : RtTy S) (size align : Nat) : Prop where
  proj : projectTy lib lib.depth t "Output" = out
  size : sizeOfTy lib.items out = some size
  align : ∀ cx n s, cx.prog = lib → cx.run = runFn lib (n + 2) →
    constOf cx out "ALIGNMENT" s = (.val (.word (BitVec.ofNat S.bits align)), s)

theorem converts_conv {S : Setting} (t : S.ConvTy) :
    Converts (S := S) (.conv t) (.std (S.outTy t)) (S.size (S.outTy t)) (S.align (S.outTy t)) :=
  ⟨rfl, rfl, fun _ _ _ _ _ => rfl⟩

theorem converts_std {S : Setting} (t : S.StdTy) :
    Converts (S := S) (.std t) (.std t) (S.size t) (S.align t) :=
  ⟨rfl, rfl, fun _ _ _ _ _ => rfl⟩

/-- `T::std430_size_static()`. -/
theorem call_sizeStatic {S : Setting} (cx : Ctx S) (hp : cx.prog = lib) (n : Nat) (h : cx.run = runFn lib (n + 1))
    (t out : RtTy S) (tys : Tys S) (size align : Nat)
    (hfind : findMethod lib t "std430_size_static" = some (Parsed.std430Traits5_std430_size_static, tys))
    (hproj : ∀ tys : Tys S, evalTy lib (("Self", t) :: tys) (lib.depth + 1) (.path ["Self", "Output"] []) = out)
    (hc : Converts t out size align) (s : State S) :
    callAssoc cx t "std430_size_static" [] [] s = (.val (.word (BitVec.ofNat S.bits size)), s) := by
  obtain ⟨env, world⟩ := s
  simp only [callAssoc, hp, hfind]
  unfold callFn
  rw [h]
  obtain ⟨cx', hp', htys', -, hrun', heq⟩ := runFn_body (S := S) (p := lib) (n := n)
    (f := Parsed.std430Traits5_std430_size_static) (tys := ("Self", t) :: tys)
    (s := { env := [], world := world }) rfl
  have hT : evalTy lib cx'.tys (lib.depth + 1) (.path ["Self", "Output"] []) = out := by
    rw [htys', hproj]
  simp only [Parsed.std430Traits5_std430_size_static] at heq
  simp [Parsed.std430Traits5_std430_size_static, rust]
  rw [heq]
  simp [rust, call, hp', hT, hc.size]

/-- `as_bytes`. -/
theorem method_asBytes {S : Setting} (cx : Ctx S) (hp : cx.prog = lib) (n : Nat) (h : cx.run = runFn lib (n + 1))
    (v : Val S) (t : RtTy S) (x : StdVal) (hv : IsStd v t x)
    (hfind : findMethod lib t "as_bytes" = some (Parsed.std430Traits4_as_bytes, [])) (e : Expr) (s : State S) :
    callMethod cx e v "as_bytes" [] [] s = (.val (.bytes x.bytes), s) := by
  obtain ⟨env, world⟩ := s
  simp only [callMethod, hp, hv.ty, hfind]
  unfold callFn
  rw [h]
  simp [rust, runFn, Parsed.std430Traits4_as_bytes, call, hv.bytes]

/-- A Sizer as a value. -/
def sizerVal {S : Setting} (o : BitVec S.bits) : Val S := .struct "Sizer" [("offset", .word o)]

/-- `Sizer::add`. -/
theorem run_add {S : Setting} (n : Nat) (t out : RtTy S) (size align : Nat) (hc : Converts t out size align)
    (tys : Tys S) (htys : tys.lookup "T" = some t) (o : BitVec S.bits) (world : S.World) :
    runFn lib (n + 3) Parsed.std430Sizer4_add tys { env := [("self", sizerVal o)], world := world } =
      (wordRes (sizerAdd (mode S) o size align).1,
        { env := [("self", sizerVal (sizerAdd (mode S) o size align).2)], world := world }) := by
  obtain ⟨cx, hp, htys', -, hrun, heq⟩ := runFn_body (S := S) (p := lib) (n := n + 2)
    (f := Parsed.std430Sizer4_add) (tys := tys)
    (s := { env := [("self", sizerVal o)], world := world }) rfl
  rw [heq]
  have hT : evalTy lib cx.tys (lib.depth + 1) (.proj (.path ["T"] []) (.path ["AsStd430"] []) ["Output"]) = out := by
    rw [← hc.proj, htys']
    have : ∀ d, evalTy lib tys (d + 1) (.path ["T"] []) = t := by intro d; rw [evalTy, htys]
    rw [evalTy, show lib.depth = (lib.depth - 1) + 1 from rfl, this]
  have hA : ∀ s : State S, pathVal cx (.proj (.path ["T"] []) (.path ["AsStd430"] []) ["Output", "ALIGNMENT"]) s =
      (.val (.word (BitVec.ofNat S.bits align)), s) := by
    intro s
    rw [pathVal, hp, hT, hc.align cx n s hp hrun]
  have hcall := call_alignOffset cx lib (n + 1) hrun
  cases h1 : alignOffsetU (mode S) o (BitVec.ofNat S.bits align) with
  | none => simp [rust, call, hp, hT, hc.size, hA, hcall, h1, sizerAdd, sizerVal]
  | some p =>
    cases h2 : uadd (mode S) o p with
    | none => simp [rust, call, hp, hT, hc.size, hA, hcall, h1, h2, sizerAdd, sizerVal, setField]
    | some o1 =>
      cases h3 : uadd (mode S) o1 (BitVec.ofNat S.bits size) <;>
        simp [rust, call, hp, hT, hc.size, hA, hcall, h1, h2, h3, sizerAdd, sizerVal, setField]

section Client
variable {S : Setting}

/-- `T::std430_size_static()`. -/
theorem exec_sizeStatic (m : Nat) (t : S.ConvTy) (env : Env S) (world : S.World) :
    exec lib [("T", .conv t)] (m + 1) (.call (.path (.path ["T", "std430_size_static"] [])) []) env world =
      (.val (.word (BitVec.ofNat _ (S.size (S.outTy t)))), { env := env, world := world }) := by
  have hcall : ∀ cx : Ctx S, call cx (.path (.path ["T", "std430_size_static"] [])) [] [] =
      callAssoc cx (evalTy cx.prog cx.tys (cx.prog.depth + 1) (.path ["T"] [])) "std430_size_static" [] [] := by
    intro cx; rfl
  have ht : evalTy lib [("T", (.conv t : RtTy S))] (lib.depth + 1) (.path ["T"] []) = .conv t := rfl
  rw [exec]
  simp only [eval, evalList, bind_apply, pure_apply, hcall, ht]
  exact call_sizeStatic _ rfl m rfl _ _ [] _ _ (by rfl) (fun tys => by rfl) (converts_conv t) _

/-- `x.as_bytes()`. -/
theorem exec_asBytes (m : Nat) (d : S.Std) (world : S.World) :
    exec lib [] (m + 1) (.method (.var "x") "as_bytes" []) [("x", .arg (.std d))] world =
      (.val (.bytes (S.bytes d)), { env := [("x", .arg (.std d))], world := world }) := by
  rw [exec]
  have h := method_asBytes { prog := lib, tys := [], fuel := m + 1, run := runFn lib (m + 1) } rfl m rfl _ _ _
    (isStd_std d) (by rfl) (.var "x")
  simp [rust, h, viewStd]

/-- `x.as_std430()` for a type that implements `Std430`. -/
theorem exec_asStd (m : Nat) (d : S.Std) (world : S.World) :
    exec lib [] (m + 1) (.method (.var "x") "as_std430" []) [("x", .arg (.std d))] world =
      (.val (.arg (.std d)), { env := [("x", .arg (.std d))], world := world }) := by
  rw [exec]
  have h := call_as_std { prog := lib, tys := [], fuel := m + 1, run := runFn lib (m + 1) } m rfl
    [("Self", .std (S.stdTy d)), ("T", .std (S.stdTy d))] (.var "x") (.arg (.std d)) (fun _ => rfl)
  simp [rust, callMethod, typeOf, find_as_std, h]

/-- `T::from_std430(x)` for such a type. -/
theorem exec_fromStd (m : Nat) (t : S.StdTy) (d : S.Std) (world : S.World) :
    exec lib [("T", .std t)] (m + 1) (.call (.path (.path ["T", "from_std430"] [])) [.var "x"]) [("x", .arg (.std d))] world =
      (.val (.arg (.std d)), { env := [("x", .arg (.std d))], world := world }) := by
  have hcall : ∀ (cx : Ctx S) (as : List Expr) (vs : List (Val S)), call cx (.path (.path ["T", "from_std430"] [])) as vs =
      callAssoc cx (evalTy cx.prog cx.tys (cx.prog.depth + 1) (.path ["T"] [])) "from_std430" as vs := by
    intro cx as vs; rfl
  have ht : evalTy lib [("T", (.std t : RtTy S))] (lib.depth + 1) (.path ["T"] []) = .std t := rfl
  have hf : findMethod lib (.std t : RtTy S) "from_std430" = some (Parsed.std430Traits6_from_std430, [("T", .std t)]) := by
    rfl
  rw [exec]
  simp only [eval, evalList, bind_apply, pure_apply, hcall, ht, callAssoc, hf]
  simp [rust, callFn, runFn, Parsed.std430Traits6_from_std430, Val.coerce]

/-- `Sizer::new()`. -/
theorem exec_sizerNew (m : Nat) (env : Env S) (world : S.World) :
    exec lib [] (m + 1) (.call (.path (.path ["Sizer", "new"] [])) []) env world =
      (.val (sizerVal 0), { env := env, world := world }) := by
  have hcall : ∀ cx : Ctx S, call cx (.path (.path ["Sizer", "new"] [])) [] [] =
      callAssoc cx (evalTy cx.prog cx.tys (cx.prog.depth + 1) (.path ["Sizer"] [])) "new" [] [] := by
    intro cx; rfl
  have ht : evalTy (S := S) lib [] (lib.depth + 1) (.path ["Sizer"] []) = .named "Sizer" [] := rfl
  have h1 : findMethod (S := S) lib (.named "Sizer" []) "new" = some (Parsed.std430Sizer4_new, []) := by rfl
  have h3 : structVal (S := S) lib.items "Sizer" ["offset"] [.lit 0] = M.pure (sizerVal 0) := by rfl
  rw [exec]
  simp only [eval, evalList, bind_apply, pure_apply, hcall, ht, callAssoc, h1]
  unfold callFn
  simp [rust, runFn, Parsed.std430Sizer4_new, structName, h3]
  rfl

theorem typeOf_sizer (o : BitVec S.bits) : typeOf lib.items (sizerVal o) = .named "Sizer" [] := by
  rw [sizerVal, typeOf]; rfl

/-- `z.len()`. -/
theorem exec_sizerLen (m : Nat) (o : BitVec S.bits) (world : S.World) :
    exec lib [] (m + 1) (.method (.var "z") "len" []) [("z", sizerVal o)] world =
      (.val (.word o), { env := [("z", sizerVal o)], world := world }) := by
  have h1 : findMethod (S := S) lib (.named "Sizer" []) "len" = some (Parsed.std430Sizer4_len, []) := by rfl
  rw [exec]
  have h : ∀ cx : Ctx S, cx.prog = lib → cx.run = runFn lib (m + 1) → ∀ s : State S, callMethod cx (.var "z") (sizerVal o) "len" [] [] s =
      (.val (.word o), s) := by
    intro cx hp hrun s
    obtain ⟨env, world⟩ := s
    simp only [callMethod, hp, typeOf_sizer, h1]
    unfold callFn
    simp [hrun, rust, runFn, Parsed.std430Sizer4_len, sizerVal]
  simp [rust, h]

/-- `z.add::<T>()`. -/
theorem exec_sizerAdd (m : Nat) (t out : RtTy S) (size align : Nat) (hc : Converts t out size align)
    (o : BitVec S.bits) (world : S.World) :
    execMethod lib (m + 3) [t] "z" "add" [("z", sizerVal o)] world =
      (wordRes (sizerAdd (mode S) o size align).1,
        { env := [("z", sizerVal (sizerAdd (mode S) o size align).2)], world := world }) := by
  have h1 : findMethod (S := S) lib (.named "Sizer" []) "add" = some (Parsed.std430Sizer4_add, []) := by rfl
  have hr := run_add m t out size align hc [("Self", .named "Sizer" []), ("T", t)] rfl o world
  unfold execMethod
  simp [rust, typeOf_sizer, h1]
  unfold callFn
  simp only [Parsed.std430Sizer4_add] at hr ⊢
  simp [rust, typeArg, hr]
  rcases sizerAdd (mode S) o size align with ⟨_ | r, o'⟩ <;> simp [rust, outs, copyBack]

end Client

end RustCode.N430
