import Verif.Proof.DeclTables
import Verif.Model.Expand
/-
What crevice makes public, of the names that derived code refers to.
-/
namespace Crevice.NameProof
open RustCode RustSyntax Expand

/-- The modules of crevice. -/
def known : List (List String) :=
  [[], ["util"], ["glsl"], ["std140"], ["std140", "dynamic_uniform"], ["std140", "primitives"], ["std140", "sizer"], ["std140", "traits"], ["std140", "writer"], ["std430"], ["std430", "primitives"], ["std430", "sizer"], ["std430", "traits"], ["std430", "writer"], ["internal"], ["bool"], ["imp"], ["imp", "imp_mint"], ["imp", "imp_cgmath"], ["imp", "imp_glam"], ["imp", "imp_nalgebra"]]

theorem moduleText_other {m : List String} (h : m ∉ known) : moduleText m = [] := by
  have h1 : sourceFiles.lookup m = none := by
    rw [List.lookup_eq_none_iff]
    intro p hp
    have : p.1 ∈ known := by
      have : ∀ x ∈ sourceFiles.map Prod.fst, x ∈ known := by decide
      exact this _ (List.mem_map_of_mem hp)
    simp only [bne_iff_ne, ne_eq]
    rintro rfl
    exact h this
  match m, h, h1 with
  | [], h, _ => exact absurd (by simp [known]) h
  | [x], h, h1 =>
    have h2 : moduleRoots.lookup x = none := by
      rw [List.lookup_eq_none_iff]
      intro p hp
      have : [p.1] ∈ known := by
        have : ∀ x ∈ moduleRoots.map Prod.fst, [x] ∈ known := by decide
        exact this _ (List.mem_map_of_mem hp)
      simp only [bne_iff_ne, ne_eq]
      rintro rfl
      exact h this
    simp [moduleText, h1, h2]
  | _ :: _ :: _, h, h1 => simp [moduleText, h1]

theorem util_alone (f : Features) : decls (configure f.on Source.util ++ configure f.on []) = [] := by
  kernel_rfl

theorem declsWith_eq (f : Features) : declsWith f = declTable f := by
  funext m
  by_cases h : m ∈ known
  · simp only [known, List.mem_cons, List.not_mem_nil, or_false] at h
    rcases h with rfl | rfl | rfl | rfl | rfl | rfl | rfl | rfl | rfl | rfl | rfl | rfl | rfl | rfl | rfl | rfl | rfl | rfl | rfl | rfl | rfl
    · exact decls_root_eq f
    · exact decls_util_eq f
    · exact decls_glsl_eq f
    · exact decls_std140_eq f
    · exact decls_std140_dynamic_uniform_eq f
    · exact decls_std140_primitives_eq f
    · exact decls_std140_sizer_eq f
    · exact decls_std140_traits_eq f
    · exact decls_std140_writer_eq f
    · exact decls_std430_eq f
    · exact decls_std430_primitives_eq f
    · exact decls_std430_sizer_eq f
    · exact decls_std430_traits_eq f
    · exact decls_std430_writer_eq f
    · exact decls_internal_eq f
    · exact decls_bool_eq f
    · exact decls_imp_eq f
    · exact decls_imp_imp_mint_eq f
    · exact decls_imp_imp_cgmath_eq f
    · exact decls_imp_imp_glam_eq f
    · exact decls_imp_imp_nalgebra_eq f
  · have h1 : declTable f m = [] := by
      unfold declTable
      split
      · exact absurd (by simp [known]) h
      · exact absurd (by simp [known]) h
      · exact absurd (by simp [known]) h
      · exact absurd (by simp [known]) h
      · exact absurd (by simp [known]) h
      · exact absurd (by simp [known]) h
      · exact absurd (by simp [known]) h
      · exact absurd (by simp [known]) h
      · exact absurd (by simp [known]) h
      · exact absurd (by simp [known]) h
      · exact absurd (by simp [known]) h
      · exact absurd (by simp [known]) h
      · exact absurd (by simp [known]) h
      · exact absurd (by simp [known]) h
      · exact absurd (by simp [known]) h
      · exact absurd (by simp [known]) h
      · exact absurd (by simp [known]) h
      · exact absurd (by simp [known]) h
      · exact absurd (by simp [known]) h
      · exact absurd (by simp [known]) h
      · exact absurd (by simp [known]) h
      · rfl
    rw [h1, declsWith, moduleText_other h]
    exact util_alone f

theorem creviceNames_eq (f : Features) (m : List String) : creviceNames f m = publicNames (declTable f) 5 m := by
  rw [creviceNames, declsWith_eq]

/-- `provided`, by the tables. -/
theorem globalPath_eq (f : Features) (q : List String) :
    globalPath f q = match q with
      | [] => []
      | a :: r => if a = "crevice" then publicPath (declTable f) 5 [] r else [(.outside (a :: r), [])] := by
  cases q with
  | nil => rfl
  | cons a r => rw [globalPath, crevicePath, declsWith_eq]

theorem std_trait (f : Features) (l : Layout) : provided f (.trait (stdTrait l)) = true := by
  obtain ⟨s, a, b, c⟩ := f
  cases s <;> cases l <;> (simp only [provided, traitIs, globalPath_eq]; rfl)

theorem std_alignment (f : Features) (l : Layout) : provided f (.member (stdTrait l) "ALIGNMENT") = true := by
  obtain ⟨s, a, b, c⟩ := f
  cases s <;> cases l <;> (simp only [provided, traitIs, globalPath_eq]; rfl)

theorem std_as_bytes (f : Features) (l : Layout) : provided f (.member (stdTrait l) "as_bytes") = true := by
  obtain ⟨s, a, b, c⟩ := f
  cases s <;> cases l <;> (simp only [provided, traitIs, globalPath_eq]; rfl)

theorem std_impl (f : Features) (l : Layout) : provided f (.impl (stdTrait l) ["ALIGNMENT"]) = true := by
  obtain ⟨s, a, b, c⟩ := f
  cases s <;> cases l <;> (simp only [provided, traitIs, globalPath_eq]; rfl)

theorem as_trait (f : Features) (l : Layout) : provided f (.trait (asStdTrait l)) = true := by
  obtain ⟨s, a, b, c⟩ := f
  cases s <;> cases l <;> (simp only [provided, traitIs, globalPath_eq]; rfl)

theorem as_output (f : Features) (l : Layout) : provided f (.member (asStdTrait l) "Output") = true := by
  obtain ⟨s, a, b, c⟩ := f
  cases s <;> cases l <;> (simp only [provided, traitIs, globalPath_eq]; rfl)

theorem as_impl (f : Features) (l : Layout) :
    provided f (.impl (asStdTrait l) ["Output", asStdMethod l, fromStdMethod l]) = true := by
  obtain ⟨s, a, b, c⟩ := f
  cases s <;> cases l <;> (simp only [provided, traitIs, globalPath_eq]; rfl)

theorem as_from (f : Features) (l : Layout) :
    provided f (.value ⟨true, (asStdTrait l).segments ++ [fromStdMethod l]⟩) = true := by
  obtain ⟨s, a, b, c⟩ := f
  cases s <;> cases l <;> (simp only [provided, traitIs, globalPath_eq]; rfl)

theorem internal_fns (f : Features) :
    provided f (.value ⟨true, ["crevice", "internal", "align_offset"]⟩) = true ∧
    provided f (.value ⟨true, ["crevice", "internal", "max_arr"]⟩) = true := by
  obtain ⟨s, a, b, c⟩ := f
  cases s <;> exact ⟨by (simp only [provided, traitIs, globalPath_eq]; rfl), by (simp only [provided, traitIs, globalPath_eq]; rfl)⟩

theorem size_of (f : Features) : provided f (.value ⟨true, ["core", "mem", "size_of"]⟩) = true := rfl

theorem bytemuck_trait (f : Features) :
    (∀ x ∈ ["Zeroable", "Pod"], provided f (.trait (bytemuckTrait x)) = true ∧
      provided f (.impl (bytemuckTrait x) []) = true) ∧
    provided f (.value ⟨true, (bytemuckTrait "Zeroable").segments ++ ["zeroed"]⟩) = true := by
  obtain ⟨s, a, b, c⟩ := f
  refine ⟨fun x hx => ?_, by cases s <;> (simp only [provided, traitIs, globalPath_eq]; rfl)⟩
  simp only [List.mem_cons, List.not_mem_nil, or_false] at hx
  rcases hx with rfl | rfl <;> cases s <;> exact ⟨by (simp only [provided, traitIs, globalPath_eq]; rfl), by (simp only [provided, traitIs, globalPath_eq]; rfl)⟩

theorem glsl_names (f : Features) :
    provided f (.trait (glslItem "Glsl")) = true ∧ provided f (.member (glslItem "Glsl") "NAME") = true ∧
    provided f (.impl (glslItem "Glsl") ["NAME"]) = true ∧ provided f (.type (glslItem "GlslField")) = true := by
  obtain ⟨s, a, b, c⟩ := f
  cases s <;> exact ⟨by (simp only [provided, traitIs, globalPath_eq]; rfl), by (simp only [provided, traitIs, globalPath_eq]; rfl), by (simp only [provided, traitIs, globalPath_eq]; rfl), by (simp only [provided, traitIs, globalPath_eq]; rfl)⟩

theorem glsl_struct (f : Features) :
    provided f (.trait (glslItem "GlslStruct")) = f.std ∧ provided f (.impl (glslItem "GlslStruct") ["FIELDS"]) = f.std := by
  obtain ⟨s, a, b, c⟩ := f
  cases s <;> exact ⟨by (simp only [provided, traitIs, globalPath_eq]; rfl), by (simp only [provided, traitIs, globalPath_eq]; rfl)⟩

end Crevice.NameProof
