import Verif.Proof.Run140
/-
`DynamicUniform` and `write_slice`, which only std140 has, executed.
-/
namespace RustCode.L140
open Crevice

section
variable {S : Setting}

theorem ofNat_max (w a : Nat) (h : 256 < 2 ^ w) (ha : a < 2 ^ w) :
    constMaxU (BitVec.ofNat w 256) (BitVec.ofNat w a) = BitVec.ofNat w (max 256 a) := by
  unfold constMaxU
  have h1 : (BitVec.ofNat w 256).toNat = 256 := by rw [BitVec.toNat_ofNat, Nat.mod_eq_of_lt h]
  have h2 : (BitVec.ofNat w a).toNat = a := by rw [BitVec.toNat_ofNat, Nat.mod_eq_of_lt ha]
  split
  · rename_i hgt
    rw [gt_iff_lt, BitVec.lt_def, h1, h2] at hgt
    rw [Nat.max_eq_left (by omega)]
  · rename_i hgt
    rw [gt_iff_lt, BitVec.lt_def, h1, h2] at hgt
    rw [Nat.max_eq_right (by omega)]

/-- `DynamicUniformStd140::<T>::ALIGNMENT`. -/
theorem const_uniform (t : S.StdTy) (h : 256 < 2 ^ S.bits) (ha : S.align t < 2 ^ S.bits) (cx : Ctx S) (n : Nat)
    (s : State S) (hp : cx.prog = lib) (hrun : cx.run = runFn lib (n + 2)) :
    constOf cx (.named "DynamicUniformStd140" [.std t]) "ALIGNMENT" s =
      (.val (.word (BitVec.ofNat S.bits (max 256 (S.align t)))), s) := by
  obtain ⟨env, world⟩ := s
  have hfind : ((implsOf lib (.named "DynamicUniformStd140" [.std t] : RtTy S)).findSome? fun i =>
      (assocConst i.2.2 "ALIGNMENT").map fun e => (e, i.2.1)) =
      some (.call (.var "max") [.num 256 "", .path (.path ["T", "ALIGNMENT"] [])], [("T", .std t)]) := by rfl
  simp only [constOf, hp, hfind]
  unfold callFn
  rw [hrun]
  obtain ⟨cx', hp', htys', -, hrun', heq⟩ := runFn_body (S := S) (p := lib) (n := n + 1)
    (f := ⟨"ALIGNMENT", ⟨[], [], []⟩, .static, [], .unit,
      some (.call (.var "max") [.num 256 "", .path (.path ["T", "ALIGNMENT"] [])])⟩)
    (tys := [("Self", .named "DynamicUniformStd140" [.std t]), ("T", .std t)])
    (s := { env := [], world := world }) rfl
  have hT : pathVal cx' (.path ["T", "ALIGNMENT"] []) = M.pure (.word (BitVec.ofNat S.bits (S.align t))) := by
    rw [pathVal, hp', htys']; rfl
  have hlit : ∀ (x y : Expr) (b : BitVec S.bits) (s : State S),
      callFn cx' Parsed.internal2_max [] none [x, y] [.lit 256, .word b] s =
      callFn cx' Parsed.internal2_max [] none [x, y] [.word (BitVec.ofNat S.bits 256), .word b] s := by
    intro x y b s; unfold callFn; rfl
  simp [rust]
  rw [heq]
  simp [rust, call, hp', hT, hlit, call_max cx' lib n hrun', ofNat_max _ _ h ha]

/-- `DynamicUniformStd140(d)` is a value of a type that implements `Std140`. -/
theorem isStd_uniform (d : S.Std) (h : 256 < 2 ^ S.bits) (ha : S.align (S.stdTy d) < 2 ^ S.bits) :
    IsStd (uniformStdVal d) (.named "DynamicUniformStd140" [.std (S.stdTy d)]) (viewUniform d) where
  ty := by
    have : typesOf lib.items [("0", (.arg (.std d) : Val S))] = [("0", .std (S.stdTy d))] := by simp [typesOf, typeOf]
    rw [uniformStdVal, typeOf, this]; rfl
  find := by rfl
  size := by rfl
  align := fun cx n s hp hrun => const_uniform _ h ha cx n s hp hrun
  bytes := by rfl
  coerce := fun _ => rfl

theorem typeOf_uniform_conv (c : S.Conv) :
    typeOf lib.items (uniformVal (S := S) (.conv c)) = .named "DynamicUniform" [.conv (S.convTy c)] := by
  have : typesOf lib.items [("0", (.arg (.conv c) : Val S))] = [("0", .conv (S.convTy c))] := by simp [typesOf, typeOf]
  rw [uniformVal, typeOf, this]; rfl

theorem typeOf_uniform_std (d : S.Std) :
    typeOf lib.items (uniformVal (S := S) (.std d)) = .named "DynamicUniform" [.std (S.stdTy d)] := by
  have : typesOf lib.items [("0", (.arg (.std d) : Val S))] = [("0", .std (S.stdTy d))] := by simp [typesOf, typeOf]
  rw [uniformVal, typeOf, this]; rfl

theorem find_as_uniform (t : RtTy S) : findMethod lib (.named "DynamicUniform" [t]) "as_std140" =
    some (Parsed.std140DynamicUniform4_as_std140, [("T", t)]) := by rfl

theorem structVal_uniformStd (v : Val S) (hv : ∀ t, v.coerce t = v) :
    structVal lib.items "DynamicUniformStd140" ((List.range 1).map toString) [v] =
      M.pure (.struct "DynamicUniformStd140" [("0", v)]) := by
  have : structVal lib.items "DynamicUniformStd140" ((List.range 1).map toString) [v] =
      M.pure (.struct "DynamicUniformStd140" [("0", v.coerce (.path ["T"] []))]) := by rfl
  rw [this, hv]

/-- `DynamicUniform(v).as_std140()`. -/
theorem method_as_uniform (a : Arg S.Conv S.Std) (d : S.Std) (t : RtTy S)
    (ht : typeOf lib.items (uniformVal (S := S) a) = .named "DynamicUniform" [t])
    (has : ∀ (cx : Ctx S) (m : Nat), cx.prog = lib → cx.run = runFn lib (m + 1) → ∀ e s,
      callMethod cx e (.arg a) "as_std140" [] [] s = (.val (.arg (.std d)), s))
    (cx : Ctx S) (m : Nat) (hp : cx.prog = lib) (hrun : cx.run = runFn lib (m + 2)) (e : Expr) (s : State S) :
    callMethod cx e (uniformVal a) "as_std140" [] [] s = (.val (uniformStdVal d), s) := by
  obtain ⟨env, world⟩ := s
  simp only [callMethod, hp, ht, find_as_uniform]
  unfold callFn
  rw [hrun]
  obtain ⟨cx', hp', htys', -, hrun', heq⟩ := runFn_body (S := S) (p := lib) (n := m + 1)
    (f := Parsed.std140DynamicUniform4_as_std140)
    (tys := [("Self", .named "DynamicUniform" [t]), ("T", t)])
    (s := { env := [("self", uniformVal a)], world := world }) rfl
  have hfn : findFn lib.items "DynamicUniformStd140" = none := by rfl
  have hsn : structName cx'.tys (.path ["DynamicUniformStd140"] []) = some "DynamicUniformStd140" := by
    rw [htys']; rfl
  have hsv := structVal_uniformStd (S := S) (.arg (.std d)) (fun _ => rfl)
  simp only [Parsed.std140DynamicUniform4_as_std140] at heq
  simp [rust, Parsed.std140DynamicUniform4_as_std140]
  rw [heq]
  simp [rust, uniformVal, has cx' m hp' hrun', call, hp', hfn, hsn]
  simp [List.range_succ] at hsv
  simp [hsv, rust, uniformStdVal]

/-- The same when the inner conversion panics. -/
theorem method_as_uniform_panic (a : Arg S.Conv S.Std) (t : RtTy S)
    (ht : typeOf lib.items (uniformVal (S := S) a) = .named "DynamicUniform" [t])
    (has : ∀ (cx : Ctx S) (m : Nat), cx.prog = lib → cx.run = runFn lib (m + 1) → ∀ e s,
      callMethod cx e (.arg a) "as_std140" [] [] s = (.panic, s))
    (cx : Ctx S) (m : Nat) (hp : cx.prog = lib) (hrun : cx.run = runFn lib (m + 2)) (e : Expr) (s : State S) :
    callMethod cx e (uniformVal a) "as_std140" [] [] s = (.panic, s) := by
  obtain ⟨env, world⟩ := s
  simp only [callMethod, hp, ht, find_as_uniform]
  unfold callFn
  rw [hrun]
  obtain ⟨cx', hp', htys', -, hrun', heq⟩ := runFn_body (S := S) (p := lib) (n := m + 1)
    (f := Parsed.std140DynamicUniform4_as_std140)
    (tys := [("Self", .named "DynamicUniform" [t]), ("T", t)])
    (s := { env := [("self", uniformVal a)], world := world }) rfl
  simp only [Parsed.std140DynamicUniform4_as_std140] at heq
  simp [rust, Parsed.std140DynamicUniform4_as_std140]
  rw [heq]
  simp [rust, uniformVal, has cx' m hp' hrun']

theorem method_as_conv (c : S.Conv) (d : S.Std) (h : S.convert c = .returns d) (cx : Ctx S) (hp : cx.prog = lib)
    (e : Expr) (s : State S) : callMethod cx e (.arg (.conv c)) "as_std140" [] [] s = (.val (.arg (.std d)), s) := by
  simp only [callMethod, hp, typeOf, find_as_conv]
  simp [builtin, hp, convertName_eq, h, rust]

theorem method_as_conv_panic (c : S.Conv) (h : S.convert c = .panics) (cx : Ctx S) (hp : cx.prog = lib)
    (e : Expr) (s : State S) : callMethod cx e (.arg (.conv c)) "as_std140" [] [] s = (.panic, s) := by
  simp only [callMethod, hp, typeOf, find_as_conv]
  simp [builtin, hp, convertName_eq, h, rust]

theorem method_as_std (d : S.Std) (cx : Ctx S) (m : Nat) (hp : cx.prog = lib) (hrun : cx.run = runFn lib (m + 1))
    (e : Expr) (s : State S) : callMethod cx e (.arg (.std d)) "as_std140" [] [] s = (.val (.arg (.std d)), s) := by
  simp only [callMethod, hp, typeOf, find_as_std]
  exact call_as_std cx m hrun _ _ _ (fun _ => rfl) s

theorem find_write_uniform (t : RtTy S) (h : (∃ t', t = .conv t') ∨ ∃ t', t = .std t') :
    findMethod lib (.named "DynamicUniform" [t]) "write_std140" =
    some (Parsed.std140Traits8_write_std140, [("T", .named "DynamicUniform" [t])]) := by
  rcases h with ⟨_, rfl⟩ | ⟨_, rfl⟩ <;> rfl

/-- Writing a `DynamicUniform`. -/
def writeUniform {S : Setting} {σ : Type} (k : Crevice.Sink σ (Option S.Err)) (u : WriterU S.bits σ) :
    Arg S.Conv S.Std → Option (Except (Option S.Err) (BitVec S.bits)) × WriterU S.bits σ
  | .conv c =>
    match S.convert c with
    | .returns d => u.writeStd (mode S) k (viewUniform d)
    | .panics => (none, u)
  | .std d => u.writeStd (mode S) k (viewUniform d)
  | .slice _ => (none, u)

theorem writes_uniform (h : 256 < 2 ^ S.bits) (ha : ∀ t : S.StdTy, S.align t < 2 ^ S.bits) (a : Arg S.Conv S.Std)
    (hne : ∀ xs, a ≠ .slice xs) : Writes 5 (uniformVal a) (fun K u => writeUniform K.k u a) := by
  match a with
  | .std d =>
    have := writes_value (S := S) (uniformVal (.std d)) (uniformStdVal d) _ _ (viewUniform d)
      (by rw [typeOf_uniform_std]; exact find_write_uniform _ (.inr ⟨_, rfl⟩))
      (method_as_uniform _ _ _ (typeOf_uniform_std d) (fun cx m hp hrun e s => method_as_std d cx m hp hrun e s))
      (isStd_uniform d h (ha _))
    simpa only [writeUniform] using this
  | .conv c =>
    cases hc : S.convert c with
    | returns d =>
      have := writes_value (S := S) (uniformVal (.conv c)) (uniformStdVal d) _ _ (viewUniform d)
        (by rw [typeOf_uniform_conv]; exact find_write_uniform _ (.inl ⟨_, rfl⟩))
        (method_as_uniform _ _ _ (typeOf_uniform_conv c) (fun cx m hp hrun e s => method_as_conv c d hc cx hp e s))
        (isStd_uniform d h (ha _))
      simpa only [writeUniform, hc] using this
    | panics =>
      have := writes_panic (S := S) (uniformVal (.conv c)) _
        (by rw [typeOf_uniform_conv]; exact find_write_uniform _ (.inl ⟨_, rfl⟩))
        (method_as_uniform_panic _ _ (typeOf_uniform_conv c)
          (fun cx m hp hrun e s => method_as_conv_panic c hc cx hp e s))
      simpa only [writeUniform, hc] using this
  | .slice xs => exact absurd rfl (hne xs)

/-- The conversion of `DynamicUniform<T>` for the sizes. -/
theorem converts_uniform_conv (t : S.ConvTy) (h : 256 < 2 ^ S.bits) (ha : S.align (S.outTy t) < 2 ^ S.bits) :
    Converts (S := S) (.named "DynamicUniform" [.conv t]) (.named "DynamicUniformStd140" [.std (S.outTy t)])
      (S.size (S.outTy t)) (max 256 (S.align (S.outTy t))) :=
  ⟨rfl, rfl, fun cx n s hp hrun => const_uniform _ h ha cx n s hp hrun⟩

theorem converts_uniform_std (t : S.StdTy) (h : 256 < 2 ^ S.bits) (ha : S.align t < 2 ^ S.bits) :
    Converts (S := S) (.named "DynamicUniform" [.std t]) (.named "DynamicUniformStd140" [.std t])
      (S.size t) (max 256 (S.align t)) :=
  ⟨rfl, rfl, fun cx n s hp hrun => const_uniform _ h ha cx n s hp hrun⟩

/-- `DynamicUniform::<T>::from_std140(d)`. -/
theorem call_from_uniform (t : S.ConvTy) (d : S.Std) (cx : Ctx S) (m : Nat) (hp : cx.prog = lib)
    (hrun : cx.run = runFn lib (m + 2)) (e : Expr) (s : State S) :
    callAssoc cx (.named "DynamicUniform" [.conv t]) "from_std140" [e] [uniformStdVal d] s =
      (match S.restore t d with
        | .returns c => .val (uniformVal (.conv c))
        | .panics => .panic, s) := by
  obtain ⟨env, world⟩ := s
  have hfind : findMethod (S := S) lib (.named "DynamicUniform" [.conv t]) "from_std140" =
    some (Parsed.std140DynamicUniform4_from_std140, [("T", .conv t)]) := by rfl
  simp only [callAssoc, hp, hfind]
  unfold callFn
  rw [hrun]
  obtain ⟨cx', hp', htys', -, hrun', heq⟩ := runFn_body (S := S) (p := lib) (n := m + 1)
    (f := Parsed.std140DynamicUniform4_from_std140)
    (tys := [("Self", .named "DynamicUniform" [.conv t]), ("T", .conv t)])
    (s := { env := [("value", uniformStdVal d)], world := world }) rfl
  have hT : evalTy lib cx'.tys (lib.depth + 1) (.path ["T"] []) = .conv t := by rw [htys']; rfl
  have hfn : findFn lib.items "DynamicUniform" = none := by rfl
  have hsn : structName cx'.tys (.path ["DynamicUniform"] []) = some "DynamicUniform" := by
    rw [htys']; rfl
  have hfind' : findMethod (S := S) lib (.conv t) "from_std140" = none := by rfl
  have hcall : ∀ (a : Expr), call cx' (.path (.proj (.path ["T"] []) (.path ["AsStd140"] []) ["from_std140"])) [a]
      [.arg (.std d)] = (M.ends (S.restore t d)).bind fun c => M.pure (.arg (.conv c)) := by
    intro a
    have : call cx' (.path (.proj (.path ["T"] []) (.path ["AsStd140"] []) ["from_std140"])) [a] [.arg (.std d)] =
        callAssoc cx' (evalTy cx'.prog cx'.tys (cx'.prog.depth + 1) (.path ["T"] [])) "from_std140" [a]
          [.arg (.std d)] := rfl
    have hrest : lib.restoreName = "from_std140" := rfl
    rw [this, hp', hT]
    simp [callAssoc, hp', hfind', hrest]
  have hsv : ∀ c : S.Conv, structVal lib.items "DynamicUniform" ((List.range 1).map toString) [(.arg (.conv c) : Val S)] =
      M.pure (uniformVal (.conv c)) := fun c => rfl
  simp only [Parsed.std140DynamicUniform4_from_std140] at heq
  have hco : ∀ ty, (uniformStdVal d).coerce ty = uniformStdVal d := fun _ => rfl
  have hco' : ∀ ty c, (uniformVal (S := S) (.conv c)).coerce ty = uniformVal (.conv c) := fun _ _ => rfl
  simp [rust, Parsed.std140DynamicUniform4_from_std140, hco]
  rw [heq]
  simp [List.range_succ] at hsv
  cases hr : S.restore t d <;>
    simp [rust, uniformStdVal, hcall, hr] <;> simp [call, hp', hfn, hsn, hsv, rust, hco']

/-- `Writer::write_slice`. -/
theorem method_writeSlice (cx : Ctx S) (hp : cx.prog = lib) (n m : Nat) (h : cx.run = runFn lib (m + n + 2))
    (K : Kind S) (u : WriterU S.bits K.σ) (v : Val S) (hv : ∀ t, v.coerce t = v)
    (f : ∀ K : Kind S, WriterU S.bits K.σ → Option (Except (Option S.Err) (BitVec S.bits)) × WriterU S.bits K.σ)
    (hw : Writes n v f) (e a : Expr) (s : State S) :
    callMethod cx e (writerVal K u) "write_slice" [a] [v] s =
      ((setPlace e (writerVal K (f K u).2)).bind fun _ => finish (f K u).1) s := by
  have hfind : findMethod (S := S) lib (.named "Writer" [.other]) "write_slice" =
    some (Parsed.std140Writer6_write_slice, [("W", .other)]) := by rfl
  simp only [callMethod, hp, typeOf_writer, hfind]
  obtain ⟨r, hr, hfin⟩ := finish_ending (f K u).1
    { env := [("self", writerVal K (f K u).2), ("slice", v)], world := s.world }
  have henv : params Parsed.std140Writer6_write_slice.params [v] = [("slice", v)] := by
    simp [Parsed.std140Writer6_write_slice, params, hv]
  refine callFn_self (rest := [("slice", v)]) rfl rfl rfl ?_ hr
  rw [h, henv]
  obtain ⟨cx', hp', htys', -, hrun', heq⟩ := runFn_body (S := S) (p := lib) (n := m + n + 1)
    (f := Parsed.std140Writer6_write_slice) (tys := _)
    (s := { env := [("self", writerVal K u), ("slice", v)], world := s.world }) rfl
  simp only [Parsed.std140Writer6_write_slice] at heq ⊢
  simp only [List.filterMap_nil, List.append_nil]
  rw [heq]
  simp [rust, method_write cx' hp' n m hrun' K u v hv f hw, hfin]

end

end RustCode.L140
