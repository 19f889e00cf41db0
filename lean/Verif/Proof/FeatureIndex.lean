import Verif.Model.TextFeatures
import Verif.Proof.TextIndex
/-
The items of the crate with any set of features, sorted.
-/
namespace Crevice.Tables
open RustCode RustTypes TypeNames

/-- Only the feature `std`, or none. -/
def onlyStd (b : Bool) : Features := ⟨b, false, false, false⟩

/-! ### Files -/

theorem expanded_of {fs : List (List Tok)} {is : List Item} (h : (expandFiles fs).map (List.map undoc) = some is) :
    expanded fs = is := by
  unfold expanded
  cases he : expandFiles fs with
  | none => rw [he] at h; exact absurd h (by simp)
  | some js => rw [he] at h; simpa using h

theorem file_bool (f : Features) : fileItems f ["bool"] = Parsed.bool := by kernel_rfl
theorem file_internal (f : Features) : fileItems f ["internal"] = Parsed.internal := by kernel_rfl
theorem file_sizer140 (f : Features) : fileItems f ["std140", "sizer"] = Parsed.std140Sizer := by kernel_rfl
theorem file_writer140 (f : Features) : fileItems f ["std140", "writer"] = Parsed.std140Writer := by kernel_rfl
theorem file_dynamic (f : Features) :
    fileItems f ["std140", "dynamic_uniform"] = Parsed.std140DynamicUniform.dropLast := by kernel_rfl
theorem file_sizer430 (f : Features) : fileItems f ["std430", "sizer"] = Parsed.std430Sizer := by kernel_rfl
theorem file_writer430 (f : Features) : fileItems f ["std430", "writer"] = Parsed.std430Writer := by kernel_rfl

theorem file_primitives140 (f : Features) : fileItems f ["std140", "primitives"] = primitivesItems .std140 :=
  expanded_of (by kernel_rfl)
theorem file_primitives430 (f : Features) : fileItems f ["std430", "primitives"] = primitivesItems .std430 :=
  expanded_of (by kernel_rfl)

theorem file_mint (f : Features) : fileItems f ["imp", "imp_mint"] = mintRows.flatMap easyItems :=
  expanded_of (by kernel_rfl)
theorem file_cgmath (f : Features) : fileItems f ["imp", "imp_cgmath"] = cgmathRows.flatMap easyItems :=
  expanded_of (by kernel_rfl)
theorem file_glam (f : Features) : fileItems f ["imp", "imp_glam"] = glamRows.flatMap mintyItems :=
  expanded_of (by kernel_rfl)
theorem file_nalgebra (f : Features) : fileItems f ["imp", "imp_nalgebra"] = nalgebraRows.flatMap mintyItems :=
  expanded_of (by kernel_rfl)

theorem file_traits140 (f : Features) :
    fileItems f ["std140", "traits"] = fileItems (onlyStd f.std) ["std140", "traits"] := by
  obtain ⟨s, c, g, n⟩ := f
  cases s <;> kernel_rfl
theorem file_traits430 (f : Features) :
    fileItems f ["std430", "traits"] = fileItems (onlyStd f.std) ["std430", "traits"] := by
  obtain ⟨s, c, g, n⟩ := f
  cases s <;> kernel_rfl
theorem file_glsl (f : Features) : fileItems f ["glsl"] = fileItems (onlyStd f.std) ["glsl"] := by
  obtain ⟨s, c, g, n⟩ := f
  cases s <;> kernel_rfl

/-! ### Modules -/

theorem declared_lib (f : Features) :
    declaredIn f Source.libRoot ["std140", "std430", "bool", "glsl", "internal", "imp"] =
      ["std140", "std430", "bool", "glsl", "internal", "imp"] := by kernel_rfl

/-- The modules with submodules are looked for in this order. -/
abbrev moduleOrder : List String :=
  ["traits", "dynamic_uniform", "sizer", "writer", "primitives", "imp_mint", "imp_cgmath", "imp_glam", "imp_nalgebra"]

theorem declared_std140 (f : Features) : declaredIn f Source.std140Root moduleOrder =
    ["traits", "dynamic_uniform", "sizer"] ++ (if f.std then ["writer"] else []) ++ ["primitives"] := by
  obtain ⟨s, c, g, n⟩ := f
  cases s <;> kernel_rfl

theorem declared_std430 (f : Features) : declaredIn f Source.std430Root moduleOrder =
    ["traits", "sizer"] ++ (if f.std then ["writer"] else []) ++ ["primitives"] := by
  obtain ⟨s, c, g, n⟩ := f
  cases s <;> kernel_rfl

theorem declared_imp (f : Features) : declaredIn f Source.impRoot moduleOrder =
    ["imp_mint"] ++ (if f.cgmath then ["imp_cgmath"] else []) ++ (if f.glam then ["imp_glam"] else []) ++
      (if f.nalgebra then ["imp_nalgebra"] else []) := by
  obtain ⟨s, c, g, n⟩ := f
  cases c <;> cases g <;> cases n <;> kernel_rfl

/-- The items of the modules other than `imp`, with and without `std`. -/
def coreModules (b : Bool) : List (String × List Item) :=
  [("std140", fileItems (onlyStd b) ["std140", "traits"] ++ Parsed.std140DynamicUniform.dropLast ++ Parsed.std140Sizer ++
      (if b then Parsed.std140Writer else []) ++ primitivesItems .std140),
    ("std430", fileItems (onlyStd b) ["std430", "traits"] ++ Parsed.std430Sizer ++
      (if b then Parsed.std430Writer else []) ++ primitivesItems .std430),
    ("bool", Parsed.bool),
    ("glsl", fileItems (onlyStd b) ["glsl"]),
    ("internal", Parsed.internal)]

/-- The rows of `easy_impl!` with the given features. -/
def easyWith (f : Features) : List EasyRow := mintRows ++ (if f.cgmath then cgmathRows else [])

/-- The rows of `minty_impl!` with the given features. -/
def mintyWith (f : Features) : List MintyRow :=
  (if f.glam then glamRows else []) ++ (if f.nalgebra then nalgebraRows else [])

theorem modules_eq (f : Features) : crateModulesWith f =
    coreModules f.std ++ [("imp", (easyWith f).flatMap easyItems ++ (mintyWith f).flatMap mintyItems)] := by
  have m1 : moduleItems f "std140" = (declaredIn f Source.std140Root moduleOrder).flatMap fun x => fileItems f ["std140", x] := rfl
  have m2 : moduleItems f "std430" = (declaredIn f Source.std430Root moduleOrder).flatMap fun x => fileItems f ["std430", x] := rfl
  have m3 : moduleItems f "imp" = (declaredIn f Source.impRoot moduleOrder).flatMap fun x => fileItems f ["imp", x] := rfl
  have m4 : moduleItems f "bool" = fileItems f ["bool"] := rfl
  have m5 : moduleItems f "glsl" = fileItems f ["glsl"] := rfl
  have m6 : moduleItems f "internal" = fileItems f ["internal"] := rfl
  unfold crateModulesWith coreModules
  rw [declared_lib]
  simp only [List.map_cons, List.map_nil, List.cons_append, List.nil_append]
  rw [m1, m2, m3, m4, m5, m6, declared_std140, declared_std430, declared_imp]
  simp only [List.flatMap_append, List.flatMap_cons, List.flatMap_nil, List.append_nil, file_bool, file_internal,
    file_sizer140, file_sizer430, file_dynamic, file_primitives140, file_primitives430, file_mint]
  rw [file_traits140, file_traits430, file_glsl]
  obtain ⟨s, c, g, n⟩ := f
  have w1 : (if s = true then ["writer"] else []).flatMap (fun x => fileItems ⟨s, c, g, n⟩ ["std140", x]) =
      if s then Parsed.std140Writer else [] := by
    cases s
    · rfl
    · exact (List.append_nil _).trans (file_writer140 _)
  have w2 : (if s = true then ["writer"] else []).flatMap (fun x => fileItems ⟨s, c, g, n⟩ ["std430", x]) =
      if s then Parsed.std430Writer else [] := by
    cases s
    · rfl
    · exact (List.append_nil _).trans (file_writer430 _)
  have w3 : (if c = true then ["imp_cgmath"] else []).flatMap (fun x => fileItems ⟨s, c, g, n⟩ ["imp", x]) =
      (if c then cgmathRows else []).flatMap easyItems := by
    cases c
    · rfl
    · exact (List.append_nil _).trans (file_cgmath _)
  have w4 : (if g = true then ["imp_glam"] else []).flatMap (fun x => fileItems ⟨s, c, g, n⟩ ["imp", x]) =
      (if g then glamRows else []).flatMap mintyItems := by
    cases g
    · rfl
    · exact (List.append_nil _).trans (file_glam _)
  have w5 : (if n = true then ["imp_nalgebra"] else []).flatMap (fun x => fileItems ⟨s, c, g, n⟩ ["imp", x]) =
      (if n then nalgebraRows else []).flatMap mintyItems := by
    cases n
    · rfl
    · exact (List.append_nil _).trans (file_nalgebra _)
  dsimp only at w1 w2 w3 w4 w5 ⊢
  rw [w1, w2, w3, w4, w5]
  unfold easyWith mintyWith
  simp only [List.flatMap_append, List.append_assoc]

end Crevice.Tables
