import Verif.Validate.Fixtures
import Verif.Validate.ApplyTypes
import Verif.Props.C63
import Verif.Props.C64
import Verif.Props.C65
import Verif.Props.C66
import Verif.Props.C67
import Verif.Props.C68
import Verif.Props.C69
import Verif.Props.C71
import Verif.Props.C70
import Verif.Props.C72
import Verif.Props.C73
import Verif.Props.C74
/-
The theorems about the program text, applied to a concrete client: its types have sizes 4 and 16, some of its conversions panic,
its sink fails or panics when it is full, and its iterator panics or does not end.
-/
namespace Crevice.Apply
open Ex RustCode
open RustMacro (exec)

/-- A client. Types: `true` has size and alignment 4, `false` 12 and 16. A value is its type and whether its conversion
panics. The sink takes `cap` bytes; after that it fails, and from `2 * cap` on it panics. The iterator yields values
until its state is 0; then it ends, panics or goes on. -/
def client (checked : Bool) (cap : Nat) (last : Nat → Ends (Option (Arg (Bool × Bool) Bool)) × Nat) : Setting :=
  { bits := 64
    checked := checked
    Sink := List Byte
    Err := String
    ConvTy := Bool
    Conv := Bool × Bool
    StdTy := Bool
    Std := Bool
    convTy := Prod.fst
    stdTy := id
    World := Nat
    writeAll := fun s bs =>
      if s.length + bs.length ≤ cap then (.returns (.ok ()), s ++ bs)
      else if s.length + bs.length ≤ 2 * cap then (.returns (.error "full"), s)
      else (.panics, s)
    next := fun n => if n = 0 then last 0 else (.returns (some (.conv (n % 2 == 0, false))), n - 1)
    outTy := id
    convert := fun x => if x.2 then .panics else .returns x.1
    restore := fun _ d => .returns (d, false)
    convert_ty := fun c d h => by
      obtain ⟨a, b⟩ := c
      cases b <;> cases h <;> rfl
    align := fun t => if t then 4 else 16
    size := fun t => if t then 4 else 12
    bytes := fun t => List.replicate (if t then 4 else 12) 7 }

abbrev finite : Setting := client true 100 fun n => (.returns none, n)
abbrev bursts : Setting := client true 100 fun n => (.panics, n)

/-- A slice with nested slices, one of which has an item whose conversion panics. -/
abbrev arg : Arg finite.Conv finite.Std := .slice [.conv (true, false), .slice [.std false, .conv (true, true)], .std true]

theorem finite_sane : Sane finite := fun t => by cases t <;> decide

example (l : Layout) := C63_new (S := finite) l [1, 2] (0 : Nat)
example (l : Layout) := C63_len (S := finite) l [1, 2] 5 (0 : Nat)
example (l : Layout) := C63_write (S := finite) l [1, 2] 5 arg (0 : Nat)
example (l : Layout) := C63_write (S := finite) l [] (BitVec.ofNat 64 (2 ^ 64 - 3)) arg (0 : Nat)
/-- Three values, a panic inside of a slice, an error of the sink and a panic of the sink. -/
example (l : Layout) := C63_session (S := finite) l finite_sane id
  [.conv (true, false), .conv (false, false), arg, .slice (List.replicate 8 (.std false)), .slice (List.replicate 9 (.std true))]
  ⟨[1, 2], 2⟩ (0 : Nat) (by decide +kernel)
example (l : Layout) := C63_write_iter_list (S := finite) l [1] 1 [arg, .std false] (0 : Nat)
theorem finite_next : ∀ w w', finite.next w ≠ (.panics, w') := by
  intro w w' h
  simp only [finite, client] at h
  split at h <;> cases h
theorem finite_items : ∀ w x w', finite.next w = (.returns (some x), w') → ∃ b, x = .conv (b, false) := by
  intro w x w' h
  simp only [finite, client] at h
  split at h
  · cases h
  · cases h; exact ⟨_, rfl⟩
example (l : Layout) := C63_write_iter (S := finite) l finite_sane id finite_next
  (fun w x w' h => by obtain ⟨b, rfl⟩ := finite_items w x w' h; rfl) (d := 0)
  (fun w x w' h => by obtain ⟨b, rfl⟩ := finite_items w x w' h; exact Nat.le_refl _) ⟨[1, 2], 2⟩ (5 : Nat) (n := 10) rfl (by decide +kernel)
theorem bursts_items : ∀ w x w', bursts.next w = (.returns (some x), w') → ∃ b, x = .conv (b, false) := by
  intro w x w' h
  simp only [bursts, client] at h
  split at h
  · cases h
  · cases h; exact ⟨_, rfl⟩
example (l : Layout) := C63_write_iter_unwinds (S := bursts) l (d := 0)
  (fun w x w' h => by obtain ⟨b, rfl⟩ := bursts_items w x w' h; exact Nat.le_refl _) [1, 2] 2 (world := (2 : Nat))
  (.cons rfl (.cons rfl (.nil _))) rfl rfl

/-- A client whose iterator never finite, without overflow checks and with a sink that takes everything. -/
def forever : Setting :=
  { finite with checked := false, writeAll := fun s bs => (.returns (.ok ()), List.append s bs), next := fun n => (.returns (some (.std true)), n) }

theorem forever_writes (u : WriterU forever.bits forever.Sink) (x : StdVal) :
    ∃ o, (writeMachine (S := forever) u (.std x)).1 = some (.ok o) := by
  have hz : ∀ n s, ∃ s', writeZeros (callerSink forever fun _ => []) n s = (.ok (), s') := by
    intro n
    induction n with
    | zero => intro s; exact ⟨s, rfl⟩
    | succ n ih => intro s; obtain ⟨s', h⟩ := ih (List.append s [0]); exact ⟨s', h⟩
  have hp : ∀ a b : BitVec 64, ∃ p, alignOffsetU .off a b = some p := by
    intro a b
    unfold alignOffsetU urem
    by_cases hb : b = 0
    · exact ⟨0, by rw [if_pos hb]⟩
    · rw [if_neg hb, if_neg hb, Option.bind_some]
      by_cases hr : a % b = 0
      · exact ⟨0, by rw [if_pos hr]⟩
      · exact ⟨_, by rw [if_neg hr]; rfl⟩
  obtain ⟨p, h1⟩ := hp u.offset (BitVec.ofNat 64 x.alignment)
  obtain ⟨s', h2⟩ := hz p.toNat u.sink
  have hw : u.write (mode forever) (callerSink forever fun _ => []) (.std x) =
      (some (.ok (BitVec.add u.offset p)), ⟨List.append s' x.bytes, BitVec.add (BitVec.add u.offset p) (BitVec.ofNat 64 x.size)⟩) := by
    simp only [WriterU.write, WriterU.writeStd]
    have : mode forever = .off := rfl
    rw [this]
    erw [h1]
    dsimp only
    erw [h2]
    rfl
  refine ⟨BitVec.add u.offset p, ?_⟩
  simp only [writeMachine]
  have : (UVal.std x).written = .std x := rfl
  rw [this]
  erw [hw]
  rfl

example (l : Layout) := C63_write_iter_diverges (S := forever) l (d := 0)
  (fun w x w' h => by cases h; exact Nat.le_refl _) (fun w => ⟨_, _, rfl⟩) (fun w x w' u h => by cases h; exact forever_writes u _)
  [1, 2] 2 (0 : Nat) 100 (by decide)
example (l : Layout) := C63_size (S := finite) l arg (0 : Nat)
example (l : Layout) := C63_size_static (S := finite) l true 3 [] (0 : Nat)
example (l : Layout) := C63_as_bytes (S := finite) l false (0 : Nat)
example (l : Layout) := C63_provided_size (S := finite) l arg (0 : Nat)
example (l : Layout) := C63_blanket (S := finite) l false false 0 (0 : Nat)
example (l : Layout) := C63_sizer_new_len (S := finite) l 5 [] (0 : Nat)
theorem vec3_12 (l : Layout) : (impl l vec3 (vec3_accepted l)).out.size x86_64 = 12 ∧
    (impl l vec3 (vec3_accepted l)).alignment = 16 := by
  have h : (resolve x86_64 env l vec3).all (fun i => decide (i.out.size x86_64 = 12 ∧ i.alignment = 16)) = true := by
    cases l <;> decide
  rw [impl_ok l vec3 (vec3_accepted l)] at h
  simpa using h
example (l : Layout) := C63_sizer_add (S := finite) l false x86_64 (impl l vec3 (vec3_accepted l)) (vec3_12 l).1
  (vec3_12 l).2 5 0 (0 : Nat)
example := C63_sizer_add_dynamic (S := finite) false (by decide) finite_sane x86_64
  { impl .std140 vec3 (vec3_accepted .std140) with alignment := 256 } (vec3_12 .std140).1 rfl 5 0 (0 : Nat)
example := C63_dynamic_uniform (S := finite) (by decide) finite_sane [1, 2] 2 (.conv (false, false)) (by intro xs h; cases h) (0 : Nat)
example := C63_dynamic_from (S := finite) true false 0 (0 : Nat)
example := C63_write_slice (S := finite) [1, 2] 2 [arg, .std false] (0 : Nat)
example (l : Layout) := C63_internal (S := finite) l 5 4 [3, 9, 4] (0 : Nat)
example := C63_bool (S := finite) true 5 (0 : Nat)
example := C63_glsl_definition (S := finite) [("Light", "Light"), ("Vec3", "vec3")] "Light" [("pos", "Vec3"), ("power", "f32")]
  (name := "Light") (by decide) (ns := ["vec3", "float"]) (by decide) (by decide) [] (0 : Nat)

theorem fits_64 {l : Layout} (x : Item x86_64 env l)
    (h : (resolve x86_64 env l x.ty).all (fun i => decide (i.alignment ≤ 64 ∧ i.out.size x86_64 ≤ 256)) = true) :
    x.impl.alignment < 2 ^ 64 ∧ x.impl.out.size x86_64 < 2 ^ 64 := by
  rw [x.resolves] at h
  simp at h
  omega
/-- A float and a light. -/
noncomputable def fitItems (l : Layout) : List (FitItem x86_64 env l 64) :=
  [⟨F l 1, fits_64 _ (by rw [F_ty]; cases l <;> decide)⟩, ⟨L l, fits_64 _ (by rw [L_ty]; cases l <;> decide)⟩]
theorem fitItems_fit (l : Layout) : (Sizer.new.addAll x86_64 ((fitItems l).map fun x => x.1.impl)).2.len < 2 ^ 64 := by
  have h : ((resolve x86_64 env l (F l 1).ty).bind fun i => (resolve x86_64 env l (L l).ty).map fun j =>
      decide ((Sizer.new.addAll x86_64 [i, j]).2.len < 2 ^ 64)) = some true := by
    rw [F_ty, L_ty]
    cases l <;> decide
  rw [(F l 1).resolves, (L l).resolves] at h
  simp only [Option.bind_some, Option.map_some, Option.some.injEq, decide_eq_true_eq] at h
  exact h
example (l : Layout) := C63_end_to_end V E (l := l) 64 true (fitItems l) (fitItems_fit l)

/-! ### The derive macros -/

/-- `struct r#type<T> { a: .., b: .. }` with field types 1 and 2. -/
def someInput : DeriveInput Nat := ⟨"r#type", ["T"], .structNamed [("a", 1), ("b", 2)]⟩
example (l : Layout) := C64_layout true l .inCrate someInput (n := 5) (by decide)
example := C64_glsl false .inCrate someInput (n := 3) (by decide)
example (l : Layout) := C64_expansion x86_64 l .inCrate "Light" (light_fields l).choose
theorem light_run (l : Layout) : ∃ ts, exec (deriveProgram false) 5 "lib" (deriveEntry l)
    [synInput .inCrate ⟨"Light", [], .structNamed (light_fields l).choose⟩] = .val (.toks ts) ∧
    ∃ items, RustSyntax.Reads ts items := by
  obtain ⟨ts, h1, h2, -⟩ := C64_expansion x86_64 l .inCrate "Light" (light_fields l).choose
  exact ⟨ts, h1 5 (by decide), h2⟩
example (l : Layout) := C64_resolve .inCrate (light_fields l).choose_spec (by decide)
  (light_run l).choose_spec.1 (light_run l).choose_spec.2.choose_spec
example (l : Layout) := C64_outcome true l .inSuper "E" ["T"] (.enum : Data Nat) (n := 7) (by decide)
example (l : Layout) := C64_debug (by decide) (light_run l).choose_spec.1 (light_run l).choose_spec.2.choose_spec
example := C64_glsl_expansion .everywhere "Light" [("position", vec3), ("r#type", .scalar .u32)]

/-! ### Types and conversions -/

open TypeNames in
/-- `DynamicUniform<nalgebra::Matrix4<f64>>` -/
def writtenDynamic : Writes (.path ["crate", "std140", "DynamicUniform"] [.path ["nalgebra", "Matrix4"] [ty "f64"]])
    (.dynamic (.foreign "nalgebra::Matrix4<f64>")) :=
  .dynamic (.foreign "nalgebra" "Matrix4" (some "f64") (.inr rfl) ⟨by decide, by decide⟩
    (by intro a ha; injection ha with ha; subst ha; exact ⟨by decide, by decide⟩))
open TypeNames in
/-- `<mint::Vector3<bool> as AsStd430>::Output` -/
def writtenOutput := Writes.output .std430 (.math ⟨.mint, .vector, .bool, 3⟩)
theorem writtenDynamic_accepted : (resolve x86_64 env .std140 (.dynamic (.foreign "nalgebra::Matrix4<f64>"))).isSome = true := by
  decide +kernel
example (l : Layout) := C65_resolve x86_64 env writtenDynamic l
example := C65_output x86_64 env writtenDynamic .std140 (Option.get_mem writtenDynamic_accepted)
example := C65_name env writtenOutput
theorem boolVec_found : ∃ n f, (crateSem env n).find ["std430", "AsStd430"] [] (mathCTy ⟨.mint, .vector, .bool, 3⟩) = some f := by
  refine ⟨3, Tables.easyFound .std430 (mathCTy ⟨.mint, .vector, .bool, 3⟩) "BVec3" ["x", "y", "z"], ?_⟩
  rw [Tables.crateSem_eq]
  exact Tables.find_of_candidates (Tables.forall_of_map (Tables.easy_as env 0 .std430)
    ⟨"BVec3", ⟨.mint, .vector, .bool, 3⟩, ["x", "y", "z"]⟩ (by simp [easyRows, mintRows]))
example := C65_only x86_64 env .std430 boolVec_found.choose_spec.choose_spec
example := C65_coherent env .std430 (Tables.candidates_of_find boolVec_found.choose_spec.choose_spec)

theorem f32_named : ((crateSem env 1).candidates ["glsl", "Glsl"] [] (.named ["f32"] [])).isSome = true := by
  rw [Tables.crateSem_eq]
  decide +kernel
example := C65_at_most_one env (t := ["glsl", "Glsl"]) (by simp) (Option.get_mem f32_named)

/-! ### Features -/

/-- Only `std` and `nalgebra`. -/
def someFeatures : Features := ⟨true, false, false, true⟩
/-- Without `std`. -/
def fewFeatures : Features := ⟨false, false, false, true⟩
example (l : Layout) := C66_resolve x86_64 env someFeatures writtenDynamic l
theorem dynamic_enabled (f : Features) : (Ty.dynamic (.foreign "nalgebra::Matrix4<f64>")).Enabled f ↔ f.nalgebra = true := by
  have h1 : ¬inCrate "glam" "nalgebra::Matrix4<f64>" := by unfold inCrate; decide +kernel
  have h2 : inCrate "nalgebra" "nalgebra::Matrix4<f64>" := by unfold inCrate; decide +kernel
  simp [Ty.Enabled, h1, h2]
example : (Ty.dynamic (.foreign "nalgebra::Matrix4<f64>")).Enabled someFeatures ∧
    ¬(Ty.dynamic (.foreign "nalgebra::Matrix4<f64>")).Enabled ⟨true, true, true, false⟩ := by
  rw [dynamic_enabled, dynamic_enabled]
  exact ⟨rfl, nofun⟩
example := C66_name env fewFeatures writtenOutput
theorem fewFeatures_le : fewFeatures.le someFeatures := by
  intro name
  simp only [Features.on, fewFeatures, someFeatures]
  repeat' split
  all_goals simp
example (n : Nat) (c : RustTypes.CTy) := C66_additive env fewFeatures_le n c
example (n : Nat) (c : RustTypes.CTy) := C66_all env n c
theorem boolVec_always (f : Features) : ∃ n g, (crateSemWith f env n).candidates ["std430", "AsStd430"] []
    (mathCTy ⟨.mint, .vector, .bool, 3⟩) = some [g] := by
  obtain ⟨n, g, h⟩ := boolVec_found
  refine ⟨n, g, ?_⟩
  have h' := Tables.candidates_of_find h
  rw [Tables.crateSem_eq] at h'
  rw [← h']
  exact ((Tables.same f env n).candidates (Tables.as_core .std430) (by unfold RustTypes.COks; trivial) 
    (by
      simp only [mathCTy, RustTypes.COk, RustTypes.COks, and_true]
      exact ⟨Tables.fine_all (by decide), Tables.fine_all (by decide)⟩)).1
example := C66_coherent env fewFeatures .std430 (boolVec_always fewFeatures).choose_spec.choose_spec
theorem f32_named_few : ((crateSemWith fewFeatures env 1).candidates ["glsl", "Glsl"] [] (.named ["f32"] [])).isSome = true := by
  have nil : RustTypes.COks (Tables.view fewFeatures) [] := by unfold RustTypes.COks; trivial
  have h := ((Tables.same fewFeatures env 1).candidates (Tables.glsl_core (f := fewFeatures)) nil (c := .named ["f32"] []) (by
    simp only [RustTypes.COk, RustTypes.COks, and_true]
    exact Tables.fine_all (by decide))).1
  rw [show crateSemWith fewFeatures env 1 = Tables.GF fewFeatures env 1 from rfl, h, ← Tables.crateSem_eq]
  exact f32_named
example := C66_at_most_one env fewFeatures (t := ["glsl", "Glsl"]) (by simp) (Option.get_mem f32_named_few)
example := C66_std fewFeatures "glsl" "GlslStruct"

/-! ### A crate with derives -/

open TypeNames in
/-- `struct Lamp { position: mint::Vector3<f32>, power: f32 }` -/
def lampStruct : ClientStruct := ⟨.inherited, "Lamp", [("position", mathRustTy ⟨.mint, .vector, .f32, 3⟩), ("power", ty "f32")]⟩
open TypeNames in
/-- `pub struct Room { key: Lamp, on: bool, fill: Lamp }` -/
def roomStruct : ClientStruct := ⟨.everywhere, "Room", [("key", ty "Lamp"), ("on", ty "bool"), ("fill", ty "Lamp")]⟩
open TypeNames in
/-- `struct Pair { key: Lamp, spare: mint::Vector2<f64> }` -/
def pairStruct : ClientStruct := ⟨.inherited, "Pair", [("key", ty "Lamp"), ("spare", mathRustTy ⟨.mint, .vector, .f64, 2⟩)]⟩
/-- The structs. -/
def roomStructs : List ClientStruct := [lampStruct, roomStruct, pairStruct]
/-- The derives. -/
def roomDerives : List (ClientStruct × Layout) :=
  [(roomStruct, .std140), (lampStruct, .std430), (lampStruct, .std140), (pairStruct, .std430)]
/-- The structs with `GlslStruct`. -/
def roomGlsl : List ClientStruct := [pairStruct, lampStruct]
theorem roomDerives_known : ∀ d ∈ roomDerives, d.1 ∈ roomStructs := by
  intro d hd
  simp only [roomDerives, List.mem_cons, List.not_mem_nil, or_false] at hd
  rcases hd with rfl | rfl | rfl | rfl <;> simp [roomStructs]
theorem roomGlsl_known : ∀ c ∈ roomGlsl, c ∈ roomStructs := by
  intro d hd
  simp only [roomGlsl, List.mem_cons, List.not_mem_nil, or_false] at hd
  rcases hd with rfl | rfl <;> simp [roomStructs]
/-- The crate. -/
noncomputable def roomCrate : Client := (C67_client roomStructs roomDerives roomGlsl roomDerives_known roomGlsl_known).choose
theorem roomCrate_cs : roomCrate.cs = [lampStruct, roomStruct, pairStruct] :=
  (C67_client roomStructs roomDerives roomGlsl roomDerives_known roomGlsl_known).choose_spec.1
theorem roomCrate_ds : roomCrate.ds = roomDerives :=
  (C67_client roomStructs roomDerives roomGlsl roomDerives_known roomGlsl_known).choose_spec.2.1
theorem roomCrate_gs : roomCrate.gs = roomGlsl :=
  (C67_client roomStructs roomDerives roomGlsl roomDerives_known roomGlsl_known).choose_spec.2.2
theorem roomCrate_names : roomCrate.allItems.filterMap RustTypes.declared =
    ["Lamp", "Room", "Pair"] ++ roomDerives.flatMap ClientProof.pieceNames := by
  have := ClientProof.names_eq roomCrate
  rw [roomCrate_cs, roomCrate_ds] at this
  exact this
theorem roomCrate_ok : roomCrate.Ok := by
  refine ⟨?_, ?_, ?_, ?_⟩
  · rw [roomCrate_names]
    decide +kernel
  · rw [roomCrate_names]
    decide +kernel
  · rw [roomCrate_cs]
    decide +kernel
  · rw [roomCrate_gs]
    simp [roomGlsl, pairStruct, lampStruct]
/-- The struct `Lamp` of the model. -/
def lamp : Ty := .struct "Lamp" [("position", .math ⟨.mint, .vector, .f32, 3⟩), ("power", .scalar .f32)]
/-- The struct `Room` of the model. -/
def room : Ty := .struct "Room" [("key", lamp), ("on", .bool), ("fill", lamp)]
theorem lamp_uses (l : Layout) : Uses roomCrate l (TypeNames.ty "Lamp") lamp :=
  .struct (c := lampStruct) (by rw [roomCrate_cs]; exact List.mem_cons_self)
    (by rw [roomCrate_ds]; cases l <;> simp [roomDerives]) (.cons (.lib (.math _)) (.cons (.lib (.scalar .f32)) .nil))
theorem room_uses : Uses roomCrate .std140 (TypeNames.ty "Room") room :=
  .struct (c := roomStruct) (by rw [roomCrate_cs]; exact List.mem_cons_of_mem _ List.mem_cons_self)
    (by rw [roomCrate_ds]; simp [roomDerives])
    (.cons (lamp_uses _) (.cons (.lib .bool) (.cons (lamp_uses _) .nil)))
theorem room_accepted : (resolve x86_64 env .std140 room).isSome = true := by decide +kernel
example := C67_resolve x86_64 env roomCrate_ok room_uses (Option.get_mem room_accepted)
example := C67_output x86_64 env roomCrate_ok room_uses (Option.get_mem room_accepted)
example (n : Nat) := C67_underived (l := .std430) x86_64 env roomCrate_ok (c := roomStruct)
  (by rw [roomCrate_cs]; exact List.mem_cons_of_mem _ List.mem_cons_self)
  (by rw [roomCrate_ds]; simp [roomDerives, roomStruct, lampStruct, pairStruct]) n
example (n : Nat) := C67_at_most_one x86_64 env roomCrate_ok (t := ["std140", "AsStd140"]) (by simp)
  (by rw [ClientProof.sem_eq roomCrate_ok]
      exact ClientProof.as_cands (l := .std140) roomCrate_ok (c := roomStruct) (by rw [roomCrate_ds]; simp [roomDerives]) n)
theorem dynamicRoom_uses : Uses roomCrate .std140 (.path ["crate", "std140", "DynamicUniform"] [TypeNames.ty "Room"]) (.dynamic room) :=
  .dynamic rfl room_uses
theorem dynamicRoom_accepted : (resolve x86_64 env .std140 (.dynamic room)).isSome = true := by decide +kernel
example := C67_resolve x86_64 env roomCrate_ok dynamicRoom_uses (Option.get_mem dynamicRoom_accepted)
theorem lampOutput_accepted : (resolve x86_64 env .std430 (.output .std430 lamp)).isSome = true := by decide +kernel
example := C67_output x86_64 env roomCrate_ok (.output (lamp_uses .std430)) (Option.get_mem lampOutput_accepted)
/-- A lamp. -/
def lampVal (a b c d : BitVec 32) : RVal := .struct [("position", v3 (flt a) (flt b) (flt c)), ("power", flt d)]
theorem lamp_hasVal (a b c d : BitVec 32) : lamp.HasVal x86_64 env (lampVal a b c d) :=
  ⟨_, rfl, rfl, uniform3 (flt_hasVal _) (flt_hasVal _) (flt_hasVal _), rfl, ⟨_, rfl⟩, trivial⟩
/-- A room. -/
def roomVal : RVal := .struct [("key", lampVal 1 2 3 4), ("on", .bool true), ("fill", lampVal 5 6 7 8)]
theorem room_hasVal : room.HasVal x86_64 env roomVal :=
  ⟨_, rfl, rfl, lamp_hasVal 1 2 3 4, rfl, ⟨_, rfl⟩, rfl, lamp_hasVal 5 6 7 8, trivial⟩
theorem room_glsl : room.glsl.isSome = true := by decide +kernel
example := C67_shader V E roomCrate_ok room_uses room_accepted (Option.get_mem room_glsl) room_hasVal

/-- The fields of `Lamp` in the model. -/
def lampFields : List (String × Ty) := [("position", .math ⟨.mint, .vector, .f32, 3⟩), ("power", .scalar .f32)]
/-- The fields of `Pair` in the model. -/
def pairFields : List (String × Ty) := [("key", lamp), ("spare", .math ⟨.mint, .vector, .f64, 2⟩)]
theorem lamp_mem : lampStruct ∈ roomCrate.gs := by rw [roomCrate_gs]; simp [roomGlsl]
theorem pair_mem : pairStruct ∈ roomCrate.gs := by rw [roomCrate_gs]; simp [roomGlsl]
theorem lampFields_named : GlslUsesFields roomCrate lampStruct.fields lampFields :=
  .cons (.lib (.math _)) (.cons (.lib (.scalar .f32)) .nil)
theorem lamp_named : GlslUses roomCrate (TypeNames.ty "Lamp") lamp := .struct lamp_mem lampFields_named
theorem pairFields_named : GlslUsesFields roomCrate pairStruct.fields pairFields :=
  .cons lamp_named (.cons (.lib (.math _)) .nil)
example := C68_name x86_64 env roomCrate_ok lamp_named (x := "Lamp") (by decide +kernel)
example := C68_struct x86_64 env roomCrate_ok pair_mem pairFields_named
  (r := ("Pair", [⟨"Lamp", "key"⟩, ⟨"dvec2", "spare"⟩])) (by decide +kernel)
example (n : Nat) := C68_underived x86_64 env roomCrate_ok (c := roomStruct) (by rw [roomCrate_cs]; simp)
  (by rw [roomCrate_gs]; simp [roomGlsl, roomStruct, lampStruct, pairStruct]) n
example {S : Setting} (vars : RustCode.Env S) (world : S.World) := C68_definition x86_64 env roomCrate_ok pair_mem pairFields_named
  (text := "struct Pair {\n\tLamp key;\n\tdvec2 spare;\n};") (by decide +kernel) vars world
/-- A crate that rustc rejects: `Room` has a field of type `bool`. -/
noncomputable def badCrate : Client := (C67_client roomStructs [] [roomStruct] (by simp) (by simp [roomStructs])).choose
theorem badCrate_spec : badCrate.cs = roomStructs ∧ badCrate.ds = [] ∧ badCrate.gs = [roomStruct] :=
  (C67_client roomStructs [] [roomStruct] (by simp) (by simp [roomStructs])).choose_spec
theorem badCrate_ok : badCrate.Ok := by
  have hn : badCrate.allItems.filterMap RustTypes.declared = ["Lamp", "Room", "Pair"] := by
    have := ClientProof.names_eq badCrate
    rw [badCrate_spec.1, badCrate_spec.2.1] at this
    exact this
  refine ⟨?_, ?_, ?_, ?_⟩
  · rw [hn]
    decide +kernel
  · rw [hn]
    decide +kernel
  · rw [badCrate_spec.1]
    decide +kernel
  · rw [badCrate_spec.2.2]
    simp
example := C68_unnamed x86_64 env badCrate_ok (c := roomStruct) (by rw [badCrate_spec.2.2]; simp) (f := ("on", TypeNames.ty "bool"))
  (by simp [roomStruct]) .bool (l := .std140) (by decide +kernel) rfl
/-- Both structs. -/
def shaderStructs : List (String × List (String × Ty)) := [("Lamp", lampFields), ("Pair", pairFields)]
theorem shaderStructs_emittable : Emittable shaderStructs := by
  refine ⟨?_, by decide, ?_⟩
  · intro d hd
    simp only [shaderStructs, List.mem_cons, List.not_mem_nil, or_false] at hd
    rcases hd with rfl | rfl <;> refine ⟨by decide, by simp [lampFields, pairFields], by decide, by decide⟩
  · intro a d b h f hf n gs hs
    rcases a with _ | ⟨x, _ | ⟨y, a⟩⟩
    · simp only [shaderStructs, List.nil_append, List.cons.injEq] at h
      obtain ⟨rfl, -⟩ := h
      simp only [lampFields, List.mem_cons, List.not_mem_nil, or_false] at hf
      rcases hf with rfl | rfl <;> simp at hs
    · simp only [shaderStructs, List.cons_append, List.nil_append, List.cons.injEq] at h
      obtain ⟨rfl, rfl, -⟩ := h
      simp only [pairFields, List.mem_cons, List.not_mem_nil, or_false] at hf
      rcases hf with rfl | rfl
      · simp only [lamp, Ty.struct.injEq] at hs
        obtain ⟨rfl, rfl⟩ := hs
        simp [lampFields]
      · simp at hs
    · have := congrArg List.length h
      simp [shaderStructs] at this
theorem shaderStructs_used : ∀ d ∈ shaderStructs, ∃ c ∈ roomCrate.gs, c.name = d.1 ∧ GlslUsesFields roomCrate c.fields d.2 ∧
    ∀ f ∈ d.2, ∃ x, f.2.glslName = some x := by
  intro d hd
  simp only [shaderStructs, List.mem_cons, List.not_mem_nil, or_false] at hd
  rcases hd with rfl | rfl
  · refine ⟨lampStruct, lamp_mem, rfl, lampFields_named, fun f hf => ?_⟩
    simp only [lampFields, List.mem_cons, List.not_mem_nil, or_false] at hf
    rcases hf with rfl | rfl <;> exact ⟨_, rfl⟩
  · refine ⟨pairStruct, pair_mem, rfl, pairFields_named, fun f hf => ?_⟩
    simp only [pairFields, List.mem_cons, List.not_mem_nil, or_false] at hf
    rcases hf with rfl | rfl <;> exact ⟨_, rfl⟩
theorem pair_uses : Uses roomCrate .std430 (TypeNames.ty "Pair") (.struct "Pair" pairFields) :=
  .struct (c := pairStruct) (by rw [roomCrate_cs]; simp) (by rw [roomCrate_ds]; simp [roomDerives])
    (.cons (lamp_uses _) (.cons (.lib (.math _)) .nil))
example := C68_shader shaderStructs_emittable roomCrate_ok shaderStructs_used (sep := "\n") (by decide) V E
  (name := "Pair") (fs := pairFields) (by simp [shaderStructs]) pair_uses (by decide +kernel)

/-! ### A crate with derives and some features -/

open TypeNames in
/-- `struct Rig { pose: cgmath::Matrix4<f32>, lamp: Lamp }` -/
def rigStruct : ClientStruct := ⟨.inherited, "Rig", [("pose", mathRustTy ⟨.cgmath, .matrix, .f32, 4⟩), ("lamp", ty "Lamp")]⟩
/-- The crate. -/
noncomputable def rigCrate : Client := (C67_client [rigStruct, lampStruct] [(lampStruct, .std430), (rigStruct, .std430)]
  [lampStruct, rigStruct] (by simp) (by simp)).choose
theorem rigCrate_spec : rigCrate.cs = [rigStruct, lampStruct] ∧ rigCrate.ds = [(lampStruct, .std430), (rigStruct, .std430)] ∧
    rigCrate.gs = [lampStruct, rigStruct] :=
  (C67_client [rigStruct, lampStruct] [(lampStruct, .std430), (rigStruct, .std430)] [lampStruct, rigStruct] (by simp) (by simp)).choose_spec
theorem rigCrate_ok : rigCrate.Ok := by
  have hn : rigCrate.allItems.filterMap RustTypes.declared = ["Rig", "Lamp"] ++
      [(lampStruct, Layout.std430), (rigStruct, .std430)].flatMap ClientProof.pieceNames := by
    have := ClientProof.names_eq rigCrate
    rw [rigCrate_spec.1, rigCrate_spec.2.1] at this
    exact this
  refine ⟨?_, ?_, ?_, ?_⟩
  · rw [hn]
    decide +kernel
  · rw [hn]
    decide +kernel
  · rw [rigCrate_spec.1]
    decide +kernel
  · rw [rigCrate_spec.2.2]
    simp [rigStruct, lampStruct]
/-- The fields of `Rig` in the model. -/
def rigFields : List (String × Ty) := [("pose", .math ⟨.cgmath, .matrix, .f32, 4⟩), ("lamp", lamp)]
theorem rig_uses : Uses rigCrate .std430 (TypeNames.ty "Rig") (.struct "Rig" rigFields) :=
  .struct (c := rigStruct) (by rw [rigCrate_spec.1]; simp) (by rw [rigCrate_spec.2.1]; simp)
    (.cons (.lib (.math _)) (.cons (.struct (c := lampStruct) (by rw [rigCrate_spec.1]; simp) (by rw [rigCrate_spec.2.1]; simp)
      (.cons (.lib (.math _)) (.cons (.lib (.scalar .f32)) .nil))) .nil))
theorem rig_named : GlslUsesFields rigCrate rigStruct.fields rigFields :=
  .cons (.lib (.math _)) (.cons (.struct (c := lampStruct) (by rw [rigCrate_spec.2.2]; simp)
    (.cons (.lib (.math _)) (.cons (.lib (.scalar .f32)) .nil))) .nil)
theorem rig_accepted : (resolve x86_64 env .std430 (.struct "Rig" rigFields)).isSome = true := by decide +kernel
theorem rig_enabled {f : Features} (h : f.cgmath = true) : FieldsEnabled f rigFields := by
  simp [rigFields, lamp, FieldsEnabled, Ty.Enabled, h]
/-- Only cgmath. -/
def mathFeatures : Features := ⟨false, true, false, false⟩
example := C69_resolve x86_64 env rigCrate_ok mathFeatures rig_uses (show Ty.Enabled _ (.struct _ _) from by
  unfold Ty.Enabled; exact rig_enabled rfl) (Option.get_mem rig_accepted)
theorem rig_found : ∃ n c i, (rigCrate.semWith mathFeatures x86_64 env n).find ["std430", "AsStd430"] [] c = some i := by
  obtain ⟨N, hN⟩ := C69_resolve x86_64 env rigCrate_ok mathFeatures rig_uses (show Ty.Enabled _ (.struct _ _) from by
    unfold Ty.Enabled; exact rig_enabled rfl) (Option.get_mem rig_accepted)
  have h := hN N (Nat.le_refl _)
  unfold Client.implWith semImpl at h
  simp only [Option.bind_eq_some_iff] at h
  obtain ⟨c, -, i, hi, -⟩ := h
  exact ⟨N, c, i, hi⟩
example := C69_at_most_one x86_64 env rigCrate_ok mathFeatures (t := ["std430", "AsStd430"]) (by simp)
  (ClientProof.find_one rig_found.choose_spec.choose_spec.choose_spec)
example := C69_output x86_64 env rigCrate_ok mathFeatures rig_uses (show Ty.Enabled _ (.struct _ _) from by
  unfold Ty.Enabled; exact rig_enabled rfl) (Option.get_mem rig_accepted)
example (n : Nat) := C69_absent x86_64 env rigCrate_ok someFeatures (c := rigStruct) (by rw [rigCrate_spec.1]; simp)
  (x := rigStruct.fields[0]) (by simp [rigStruct]) (.math ⟨.cgmath, .matrix, .f32, 4⟩) (l := .std140) (by decide +kernel)
  (by simp [Ty.Enabled, someFeatures]) n
example := C69_name x86_64 env rigCrate_ok mathFeatures (.struct (c := rigStruct) (by rw [rigCrate_spec.2.2]; simp) rig_named)
  (show Ty.Enabled _ (.struct _ _) from by unfold Ty.Enabled; exact rig_enabled rfl) (x := "Rig") (by decide +kernel)
example := C69_fields x86_64 env rigCrate_ok (f := ⟨true, true, false, false⟩) rfl (c := rigStruct) (by rw [rigCrate_spec.2.2]; simp)
  rig_named (rig_enabled rfl) (r := ("Rig", [⟨"mat4", "pose"⟩, ⟨"Lamp", "lamp"⟩])) (by decide +kernel)
example (n : Nat) := C69_no_std x86_64 env rigCrate_ok (f := mathFeatures) rfl n (TypeNames.ty "Rig")
theorem room_enabled : room.Enabled fewFeatures := by simp [room, lamp, FieldsEnabled, Ty.Enabled]
example := C69_shader V E roomCrate_ok fewFeatures room_uses room_enabled room_accepted (Option.get_mem room_glsl) room_hasVal

/-- The room as an argument of the Writer. -/
noncomputable def roomPut (f : Features) (h : room.Enabled f) : RustCode.Put roomCrate f x86_64 env .std140 :=
  ⟨_, _, roomVal, _, room_uses, h, Option.get_mem room_accepted, room_hasVal⟩
/-- A lamp as an argument of the Writer. -/
noncomputable def lampPut (f : Features) (a b c d : BitVec 32) : RustCode.Put roomCrate f x86_64 env .std140 :=
  ⟨_, _, lampVal a b c d, _, lamp_uses .std140, by simp [lamp, FieldsEnabled, Ty.Enabled],
    Option.get_mem (show (resolve x86_64 env .std140 lamp).isSome = true by decide +kernel), lamp_hasVal a b c d⟩
theorem room_enabled_all (f : Features) : room.Enabled f := by simp [room, lamp, FieldsEnabled, Ty.Enabled]
theorem puts_fit (f : Features) : (Sizer.new.addAll x86_64 ([lampPut f 1 2 3 4, roomPut f (room_enabled_all f), lampPut f 5 6 7 8].map
    RustCode.Put.impl)).2.len < 2 ^ 16 := by
  show (Sizer.new.addAll x86_64 [((resolve x86_64 env .std140 lamp).get (by decide +kernel)),
    ((resolve x86_64 env .std140 room).get (by decide +kernel)), ((resolve x86_64 env .std140 lamp).get (by decide +kernel))]).2.len < 2 ^ 16
  decide +kernel
example := C70_library (f := ⟨true, false, true, false⟩) rfl .std430
example (s : List Byte) (n : Nat) := C70_no_writer (S := RustCode.crateSetting roomCrate mathFeatures x86_64 env .std140 9 16 true) (f := mathFeatures)
  rfl .std140 s () n
example (t : RustCode.CrateTy roomCrate mathFeatures x86_64 env .std140 9 16) (n : Nat) :=
  C70_any (S := RustCode.crateSetting roomCrate mathFeatures x86_64 env .std140 9 16 true) mathFeatures .std140 t t (t, roomVal) n [] ()
example (n : Nat) := C70_sizer_new_len (S := RustCode.crateSetting roomCrate mathFeatures x86_64 env .std140 9 16 true) mathFeatures .std140 7#16 n [] ()
example := C70_sizer roomCrate_ok V true (bits := 16) (by decide) _ (puts_fit mathFeatures)
example := C70_program roomCrate_ok V E (f := ⟨true, false, true, false⟩) rfl false (bits := 16) (by decide) _ (puts_fit _)

/-! ### C72 -/

/-- A room, then a slice of two lamps. -/
noncomputable def blockGiven (f : Features) : List (RustCode.Given roomCrate f x86_64 env .std140) :=
  [.one (roomPut f (room_enabled_all f)), .many lamp [lampPut f 1 2 3 4, lampPut f 5 6 7 8]]
theorem blockText_fit (f : Features) : (RustCode.sizerAfter (blockGiven f)).len < 2 ^ 16 := by
  show (Sizer.new.addAll x86_64 [((resolve x86_64 env .std140 room).get (by decide +kernel)),
    ((resolve x86_64 env .std140 lamp).get (by decide +kernel)), ((resolve x86_64 env .std140 lamp).get (by decide +kernel))]).2.len < 2 ^ 16
  decide +kernel
theorem blockText_members (f : Features) : ∃ ms, RustCode.givenMembers (["room", "lamps"].zip (blockGiven f)) = some ms := by
  have h1 : (room.glsl).isSome = true := by decide +kernel
  have h2 : (lamp.glsl).isSome = true := by decide +kernel
  obtain ⟨a, ha⟩ := Option.isSome_iff_exists.1 h1
  obtain ⟨b, hb⟩ := Option.isSome_iff_exists.1 h2
  refine ⟨[("room", a), ("lamps", .array b 2)], ?_⟩
  simp [RustCode.givenMembers, blockGiven, RustCode.Given.glsl, roomPut, ha, hb]
theorem blockText_elems (f : Features) : ∀ g ∈ blockGiven f, g.ElemsOk := by
  have h : 16 ≤ ((resolve x86_64 env .std140 lamp).get (by decide +kernel)).alignment := by decide +kernel
  intro g hg
  simp only [blockGiven, List.mem_cons, List.not_mem_nil, or_false] at hg
  rcases hg with rfl | rfl
  · exact trivial
  · intro x hx
    simp only [List.mem_cons, List.not_mem_nil, or_false] at hx
    rcases hx with rfl | rfl
    · exact ⟨rfl, .inr h⟩
    · exact ⟨rfl, .inr h⟩
theorem blockText_read : ∃ N, ∀ n ≥ N, ∃ (as : List (RustCode.Arg _ _)) (buf : List Byte) (ms : List (String × Glsl.Ty)) (vs : List (String × Glsl.Val)),
    RustCode.HandsAll (N := n) (bits := 16) (blockGiven ⟨true, false, true, false⟩) as ∧
    Glsl.read .little .std140 (.struct "Block" ms) buf 0 = some (.struct vs) := by
  obtain ⟨ms, hms⟩ := blockText_members ⟨true, false, true, false⟩
  obtain ⟨N, hN⟩ := C72_block roomCrate_ok V E (f := ⟨true, false, true, false⟩) rfl false (bits := 16) (by decide) _ (blockText_fit _)
  refine ⟨N, fun n hn => ?_⟩
  obtain ⟨as, os, buf, h1, -, -, -, -, -, h2⟩ := hN n hn
  obtain ⟨vs, -, h3, -⟩ := h2 ["room", "lamps"] ms rfl (blockText_elems _) (by
    intro g hg
    simp only [blockGiven, List.dropLast_cons_cons, List.dropLast_singleton, List.mem_singleton] at hg
    rw [hg]
    exact trivial) hms
  exact ⟨as, buf, ms, vs, h1, h3⟩
example := C72_structs V (.many lamp [lampPut ⟨true, false, true, false⟩ 1 2 3 4]) fun t xs h => by
  cases h
  refine ⟨⟨_, _, rfl⟩, fun x hx => ?_⟩
  rw [List.mem_singleton.1 hx]
  rfl
example {n : Nat} {a} (ha : RustCode.Hands (N := n) (bits := 16) (.many lamp [lampPut ⟨true, false, true, false⟩ 1 2 3 4]) a) :=
  C72_size V E (f := ⟨true, false, true, false⟩) rfl true ha (by decide) (by
    show (Sizer.new.addAll x86_64 [((resolve x86_64 env .std140 lamp).get (by decide +kernel))]).2.len < 2 ^ 16
    decide +kernel)

/-! ### C73 -/

/-- A crate in which every spliced type implements the traits of the derives, with `Output` that is `Debug`. -/
def someUser : RustTyping.Typ RustCode.Ty → String → Prop
  | .given _, q => q ∈ ["AsStd140", "AsStd430", "Glsl"]
  | .proj (.given _) _ "Output", q => q = "Debug"
  | _, _ => False

/-- The crate with the traits `sc` in scope. -/
def typingUser (sc : List String) : User RustCode.Ty := ⟨someUser, fun q => q ∈ sc, fun _ _ => False⟩

/-- A struct with the fields of `Room`. -/
theorem plainInput_items (l : Layout) (name : String) (generics : List String) :
    ∃ ts is, RustMacro.exec (deriveProgram false) 5 "lib" (deriveEntry l)
      [synInput .everywhere ⟨name, generics, .structNamed roomStruct.fields⟩] = .val (.toks ts) ∧ RustSyntax.Reads ts is := by
  rcases Tokens.emit_sim l .everywhere ⟨name, generics, .structNamed roomStruct.fields⟩ with
    ⟨ts', fields, g, -, -, k1, k2, k3, -, -, k4, -⟩ | ⟨e, -, k1⟩
  case inr => cases l <;> cases k1
  exact ⟨ts', _, by rw [C64_layout false l .everywhere _ (Nat.le_refl 5), emitAll_false, k1], k4⟩

/-- With the trait in scope what the derive returns is well typed; without it, it is not; nor with the name `u8`. -/
example (l : Layout) : ∃ is, RustTyping.WellTyped (typingEnv mathFeatures (typingUser ["AsStd140", "AsStd430"]))
    (inputItem .everywhere "Room" [] roomStruct.fields :: is) := by
  obtain ⟨ts, is, h1, h2⟩ := plainInput_items l "Room" []
  refine ⟨is, (C73_layout mathFeatures (typingUser ["AsStd140", "AsStd430"]) l .everywhere "Room" (by decide) roomStruct.fields
    (Nat.le_refl 5) h1 h2).2 ⟨by decide +kernel, by decide +kernel, by decide +kernel, fun x _ => .known ?_, fun x _ => .known ?_,
      fun _ => ?_, fun _ _ => id⟩⟩
  · cases l <;> simp [typingEnv, typingUser, someUser, asTraitName]
  · simp [typingEnv, typingUser, someUser, outputTy]
  · cases l <;> simp [typingUser, asTraitName]
example (l : Layout) : ∃ is, ¬ RustTyping.WellTyped (typingEnv mathFeatures (typingUser []))
    (inputItem .everywhere "Room" [] roomStruct.fields :: is) := by
  obtain ⟨ts, is, h1, h2⟩ := plainInput_items l "Room" []
  refine ⟨is, fun h => ?_⟩
  have := (C73_layout mathFeatures (typingUser []) l .everywhere "Room" (by decide) roomStruct.fields (Nat.le_refl 5) h1 h2).1 h
  exact absurd (this.2.2.2.2.2.1 (by simp [roomStruct])) (by simp [typingUser])
example (l : Layout) : ∃ is, ¬ RustTyping.WellTyped (typingEnv mathFeatures (typingUser ["AsStd140", "AsStd430"]))
    (inputItem .everywhere "r#u8" [] roomStruct.fields :: is) := by
  obtain ⟨ts, is, h1, h2⟩ := plainInput_items l "r#u8" []
  refine ⟨is, fun h => ?_⟩
  exact absurd ((C73_layout mathFeatures _ l .everywhere "r#u8" (by decide) roomStruct.fields (Nat.le_refl 5) h1 h2).1 h).1
    (by decide +kernel)
example (l : Layout) : ∃ is, ¬ RustTyping.WellTyped (typingEnv mathFeatures (typingUser ["AsStd140", "AsStd430"]))
    (inputItem .everywhere "Room" ["T"] roomStruct.fields :: is) := by
  obtain ⟨ts, is, h1, h2⟩ := plainInput_items l "Room" ["T"]
  exact ⟨is, C73_generic mathFeatures _ l .everywhere "Room" (by simp) roomStruct.fields (Nat.le_refl 5) h1 h2⟩

/-- `GlslStruct` on the struct: well typed with `std`, not without. -/
example : ∃ is, RustTyping.WellTyped (typingEnv someFeatures (typingUser []))
      (inputItem .everywhere "Room" [] roomStruct.fields :: is) ∧
    ¬ RustTyping.WellTyped (typingEnv mathFeatures (typingUser [])) (inputItem .everywhere "Room" [] roomStruct.fields :: is) := by
  cases h : Tokens.emitGlslTokens ⟨"Room", [], .structNamed roomStruct.fields⟩ with
  | error e => cases h
  | ok ts =>
    obtain ⟨fields, -, h2⟩ := Tokens.glsl_reads _ h
    have h1 : RustMacro.exec (deriveProgram false) 3 "lib" "derive_glsl_struct"
        [synInput .everywhere ⟨"Room", [], .structNamed roomStruct.fields⟩] = .val (.toks ts) := by
      rw [C64_glsl false .everywhere _ (Nat.le_refl 3), h]
    refine ⟨_, (C73_glsl someFeatures (typingUser []) .everywhere "Room" roomStruct.fields (Nat.le_refl 3) h1 h2).2
      ⟨rfl, by decide +kernel, by decide +kernel, fun x _ => .known ?_⟩, fun hw => ?_⟩
    · simp [typingEnv, typingUser, someUser]
    · exact absurd ((C73_glsl mathFeatures _ .everywhere "Room" roomStruct.fields (Nat.le_refl 3) h1 h2).1 hw).1 (by decide)

/-! ### C74 -/

theorem roomCrate_namesOk : roomCrate.NamesOk := by
  refine ⟨?_, ?_, ?_⟩
  · rw [roomCrate_cs, roomCrate_ds]
    decide +kernel
  · rw [roomCrate_cs]
    decide +kernel
  · rw [roomCrate_cs]
    simp only [List.mem_cons, List.not_mem_nil, or_false, forall_eq_or_imp, forall_eq]
    decide +kernel

example : ∃ is js, RustTyping.WellTyped (typingEnv ⟨true, false, false, false⟩
    (roomCrate.user ⟨true, false, false, false⟩ x86_64 env)) (crateProgram roomCrate.cs is js) := by
  obtain ⟨is, js, hi, hj, -⟩ := C74_items roomCrate
  refine ⟨is, js, C74_crate x86_64 env roomCrate_ok roomCrate_namesOk ⟨true, false, false, false⟩ hi hj ?_ (fun _ => rfl) ?_⟩
  · rw [roomCrate_ds]
    simp only [roomDerives, List.mem_cons, List.not_mem_nil, or_false]
    have hl : ∀ l, UsesFields roomCrate l lampStruct.fields lampFields := fun l =>
      .cons (.lib (.math _)) (.cons (.lib (.scalar .f32)) .nil)
    have en : FieldsEnabled ⟨true, false, false, false⟩ lampFields := by simp [lampFields, FieldsEnabled, Ty.Enabled]
    rintro d (rfl | rfl | rfl | rfl)
    · exact ⟨[("key", lamp), ("on", .bool), ("fill", lamp)], .cons (lamp_uses _) (.cons (.lib .bool) (.cons (lamp_uses _) .nil)),
        by simp [lamp, FieldsEnabled, Ty.Enabled], by decide +kernel⟩
    · exact ⟨lampFields, hl _, en, by decide +kernel⟩
    · exact ⟨lampFields, hl _, en, by decide +kernel⟩
    · exact ⟨pairFields, .cons (lamp_uses _) (.cons (.lib (.math _)) .nil),
        by simp [pairFields, lamp, FieldsEnabled, Ty.Enabled], by decide +kernel⟩
  · rw [roomCrate_gs]
    simp only [roomGlsl, List.mem_cons, List.not_mem_nil, or_false]
    rintro c (rfl | rfl)
    · exact ⟨pairFields, pairFields_named, by simp [pairFields, lamp, FieldsEnabled, Ty.Enabled], by decide +kernel⟩
    · exact ⟨lampFields, lampFields_named, by simp [lampFields, FieldsEnabled, Ty.Enabled], by decide +kernel⟩

example : ∃ is js, RustTyping.WellTyped (typingEnv ⟨true, false, false, false⟩ (typingUser ["AsStd140", "AsStd430"]))
    (crateProgram roomCrate.cs is js) := by
  obtain ⟨is, js, hi, hj, -⟩ := C74_items roomCrate
  have hself : ∀ c ∈ roomCrate.cs, c.name ≠ "Self" := by rw [roomCrate_cs]; decide +kernel
  refine ⟨is, js, (C74_types ⟨true, false, false, false⟩ (typingUser ["AsStd140", "AsStd430"]) hself hi hj).2
    ⟨roomCrate_namesOk.distinct, roomCrate_namesOk.fields, fun c hc => ?_, roomCrate_ok.glslOnce, fun _ => rfl,
      fun d hd => ⟨?_, fun x _ => .known ?_, fun x _ => .known ?_, fun _ => ?_, fun _ _ => id⟩, fun c _ x _ => .known ?_⟩⟩
  · have := roomCrate_namesOk.free c hc
    simp only [List.mem_cons, List.not_mem_nil, or_false, not_or] at this
    exact ⟨fun _ => by simp [this], fun _ => this.2.2⟩
  · revert d
    rw [roomCrate_ds]
    decide +kernel
  · obtain ⟨c, l⟩ := d
    cases l <;> simp [typingEnv, typingUser, someUser, asTraitName]
  · simp [typingEnv, typingUser, someUser, outputTy]
  · obtain ⟨c, l⟩ := d
    cases l <;> simp [typingUser, asTraitName]
  · simp [typingEnv, typingUser, someUser]

/-- Without the feature `std` the crate, which has `GlslStruct`s, is not well typed. -/
example (u : User RustCode.Ty) : ∃ is js, Returned roomCrate.ds is ∧ GlslReturned roomCrate.gs js ∧
    ¬ RustTyping.WellTyped (typingEnv ⟨false, false, false, false⟩ u) (crateProgram roomCrate.cs is js) := by
  obtain ⟨is, js, hi, hj, -⟩ := C74_items roomCrate
  have hself : ∀ c ∈ roomCrate.cs, c.name ≠ "Self" := by rw [roomCrate_cs]; decide +kernel
  refine ⟨is, js, hi, hj, fun h => ?_⟩
  have := ((C74_types ⟨false, false, false, false⟩ u hself hi hj).1 h).2.2.2.2.1 (by rw [roomCrate_gs]; simp [roomGlsl])
  cases this

/-! ### C71 -/

/-- `struct Room<T> { key: Lamp, on: bool, fill: Lamp }`, with any type in the place of field types. -/
def genericInput : DeriveInput RustCode.Ty := ⟨"Room", ["T"], .structNamed roomStruct.fields⟩

theorem genericInput_items (l : Layout) : ∃ ts is g, (∀ n ≥ 5, RustMacro.exec (deriveProgram false) n "lib" (deriveEntry l)
    [synInput .everywhere genericInput] = .val (.toks ts)) ∧ RustSyntax.Reads ts is ∧
    is = Tokens.ast l .everywhere "Room" ["T"] roomStruct.fields g ∧
    RustSyntax.Ref.value ⟨true, ["crevice", "internal", "max_arr"]⟩ ∈ RustSyntax.refs is := by
  rcases Tokens.emit_sim l .everywhere genericInput with ⟨ts', fields, g, -, -, k1, k2, k3, -, -, k4, -⟩ | ⟨e, -, k1⟩
  case inr => cases l <;> cases k1
  injection k2 with k2
  subst k2
  refine ⟨ts', _, g, fun n hn => ?_, k4, rfl, ?_⟩
  · rw [C64_layout false l .everywhere _ hn, emitAll_false, k1]
  · have hg : g.alignment = structAlignment l roomStruct.fields := by
      obtain ⟨fs, h1, -, -, -, h2, -⟩ := emitLayout_inv k3
      injection h1 with h1
      rw [h2, ← h1]
    refine List.mem_flatMap.2 ⟨.impl true ["T"] (some (Expand.stdTrait l)) (.path ⟨false, [g.structName]⟩ ["T"])
      [.const "ALIGNMENT" (.path ⟨false, ["usize"]⟩ []) (Tokens.rust l g.alignment)], by simp [Tokens.ast, genericInput], ?_⟩
    rw [hg]
    simp [RustSyntax.itemRefs, RustSyntax.assocRefs, structAlignment, Tokens.rust, RustSyntax.exprRefs, RustSyntax.Path.free]

example (f : Features) (l : Layout) : ∃ ts is g, (∀ n ≥ 5, RustMacro.exec (deriveProgram false) n "lib" (deriveEntry l)
    [synInput .everywhere genericInput] = .val (.toks ts)) ∧ RustSyntax.Reads ts is ∧
    is = Tokens.ast l .everywhere "Room" ["T"] roomStruct.fields g ∧
    ∀ r ∈ RustSyntax.refs is, provided f r = true ∨ fromScope "Room" is r := by
  obtain ⟨ts, is, g, h1, h2, h3, -⟩ := genericInput_items l
  exact ⟨ts, is, g, h1, h2, h3, C71_layout f l .everywhere genericInput (Nat.le_refl 5) (h1 5 (Nat.le_refl 5)) h2⟩

theorem glslInput_items : ∃ ts is, (∀ n ≥ 3, RustMacro.exec (deriveProgram false) n "lib" "derive_glsl_struct"
    [synInput .everywhere genericInput] = .val (.toks ts)) ∧ RustSyntax.Reads ts is := by
  cases h : Tokens.emitGlslTokens genericInput with
  | error e => cases h
  | ok ts =>
    obtain ⟨fields, -, h2⟩ := Tokens.glsl_reads genericInput h
    refine ⟨ts, _, fun n hn => ?_, h2⟩
    rw [C64_glsl false .everywhere _ hn, h]

example : ∃ is : List (RustSyntax.Item RustCode.Ty),
    ∀ r ∈ RustSyntax.refs is, provided someFeatures r = true ∨ fromScope "Room" is r := by
  obtain ⟨ts, is, h1, h2⟩ := glslInput_items
  exact ⟨is, C71_glsl someFeatures rfl .everywhere genericInput (Nat.le_refl 3) (h1 3 (Nat.le_refl 3)) h2⟩
example : ∃ is : List (RustSyntax.Item RustCode.Ty), ∃ r ∈ RustSyntax.refs is,
    r = .trait ⟨true, ["crevice", "glsl", "GlslStruct"]⟩ ∧ provided mathFeatures r = false := by
  obtain ⟨ts, is, h1, h2⟩ := glslInput_items
  exact ⟨is, (C71_glsl_needs_std mathFeatures rfl .everywhere genericInput (Nat.le_refl 3) (h1 3 (Nat.le_refl 3)) h2).2⟩

/-- A path that is not there, one that is not public, and one that is no trait. -/
example : provided mathFeatures (.value ⟨true, ["crevice", "internal", "min"]⟩) = false := by
  simp only [provided, NameProof.globalPath_eq]; rfl
example : provided mathFeatures (.type ⟨true, ["crevice", "bool", "Bool"]⟩) = false := by
  simp only [provided, NameProof.globalPath_eq]; rfl
example : provided mathFeatures (.trait ⟨true, ["crevice", "std140", "Vec2"]⟩) = false := by
  simp only [provided, traitIs, NameProof.globalPath_eq]; rfl

example := C71_exports mathFeatures
example := ((C71_exports someFeatures).2.1 .std430 "Writer").2 (.inr ⟨rfl, by simp [publicWithStd]⟩)
example := C71_additive (f := ⟨false, true, false, false⟩) (f' := ⟨true, true, false, false⟩)
  (fun x hx => by
    unfold Features.on at hx ⊢
    split <;> simp_all) ["std140", "Sizer"]
example := C71_imports mathFeatures ["std140", "sizer"] (by rw [NameProof.compiled_eq]; simp)
  (.use false ["crate", "internal", "align_offset"])
  (by rw [NameProof.declsWith_eq]; simp [NameProof.declTable, NameProof.decls_std140_sizer])
example := C71_crates mathFeatures ["std140", "traits"] (by rw [NameProof.compiled_eq]; simp) ("std", "std") (by simp [words]) rfl

end Crevice.Apply
