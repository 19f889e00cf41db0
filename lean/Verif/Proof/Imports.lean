import Verif.Proof.PublicNames
/-
Imports, reexports and the crates that the text asks for.
-/
namespace Crevice.NameProof
open RustCode

/-- The words in a text. -/
def wordsIn (ts : List RustCode.Tok) : List (String × String) := words.filter fun w => ts.contains (.id w.1)

theorem mem_wordsIn {ts : List RustCode.Tok} {w : String × String} (hw : w ∈ words) (h : RustCode.Tok.id w.1 ∈ ts) : w ∈ wordsIn ts :=
  List.mem_filter.2 ⟨hw, by simpa using h⟩

theorem words_root (f : Features) : wordsIn (configure f.on (moduleText [])) = [] := by
  kernel_rfl

theorem words_util (f : Features) : wordsIn (configure f.on (moduleText ["util"])) = [] := by
  kernel_rfl

theorem words_glsl (f : Features) : wordsIn (configure f.on (moduleText ["glsl"])) = if f.std then [("String", "std")] else [] := by
  obtain ⟨s, a, b, c⟩ := f
  cases s <;> kernel_rfl

theorem words_std140 (f : Features) : wordsIn (configure f.on (moduleText ["std140"])) = [] := by
  obtain ⟨s, a, b, c⟩ := f
  cases s <;> kernel_rfl

theorem words_std140_dynamic_uniform (f : Features) : wordsIn (configure f.on (moduleText ["std140", "dynamic_uniform"])) = [] := by
  kernel_rfl

theorem words_std140_primitives (f : Features) : wordsIn (configure f.on (moduleText ["std140", "primitives"])) = [] := by
  kernel_rfl

theorem words_std140_sizer (f : Features) : wordsIn (configure f.on (moduleText ["std140", "sizer"])) = [] := by
  kernel_rfl

theorem words_std140_traits (f : Features) : wordsIn (configure f.on (moduleText ["std140", "traits"])) = if f.std then [("std", "std")] else [] := by
  obtain ⟨s, a, b, c⟩ := f
  cases s <;> kernel_rfl

theorem words_std140_writer (f : Features) : wordsIn (configure f.on (moduleText ["std140", "writer"])) = [("std", "std")] := by
  kernel_rfl

theorem words_std430 (f : Features) : wordsIn (configure f.on (moduleText ["std430"])) = [] := by
  obtain ⟨s, a, b, c⟩ := f
  cases s <;> kernel_rfl

theorem words_std430_primitives (f : Features) : wordsIn (configure f.on (moduleText ["std430", "primitives"])) = [] := by
  kernel_rfl

theorem words_std430_sizer (f : Features) : wordsIn (configure f.on (moduleText ["std430", "sizer"])) = [] := by
  kernel_rfl

theorem words_std430_traits (f : Features) : wordsIn (configure f.on (moduleText ["std430", "traits"])) = if f.std then [("std", "std")] else [] := by
  obtain ⟨s, a, b, c⟩ := f
  cases s <;> kernel_rfl

theorem words_std430_writer (f : Features) : wordsIn (configure f.on (moduleText ["std430", "writer"])) = [("std", "std")] := by
  kernel_rfl

theorem words_internal (f : Features) : wordsIn (configure f.on (moduleText ["internal"])) = [] := by
  kernel_rfl

theorem words_bool (f : Features) : wordsIn (configure f.on (moduleText ["bool"])) = [] := by
  kernel_rfl

theorem words_imp (f : Features) : wordsIn (configure f.on (moduleText ["imp"])) = [] := by
  obtain ⟨s, a, b, c⟩ := f
  cases a <;> cases b <;> cases c <;> kernel_rfl

theorem words_imp_imp_mint (f : Features) : wordsIn (configure f.on (moduleText ["imp", "imp_mint"])) = [] := by
  kernel_rfl

theorem words_imp_imp_cgmath (f : Features) : wordsIn (configure f.on (moduleText ["imp", "imp_cgmath"])) = [("cgmath", "cgmath")] := by
  kernel_rfl

theorem words_imp_imp_glam (f : Features) : wordsIn (configure f.on (moduleText ["imp", "imp_glam"])) = [("glam", "glam")] := by
  kernel_rfl

theorem words_imp_imp_nalgebra (f : Features) : wordsIn (configure f.on (moduleText ["imp", "imp_nalgebra"])) = [("nalgebra", "nalgebra")] := by
  kernel_rfl

theorem compiled_eq (f : Features) : compiledModules f =
    [[], ["util"], ["glsl"], ["std140"], ["std140", "dynamic_uniform"], ["std140", "primitives"], ["std140", "sizer"],
      ["std140", "traits"]] ++ ((if f.std then [["std140", "writer"]] else []) ++ ([["std430"], ["std430", "primitives"],
      ["std430", "sizer"], ["std430", "traits"]] ++ ((if f.std then [["std430", "writer"]] else []) ++ ([["internal"], ["bool"],
      ["imp"], ["imp", "imp_mint"]] ++ ((if f.cgmath then [["imp", "imp_cgmath"]] else []) ++
      ((if f.glam then [["imp", "imp_glam"]] else []) ++ if f.nalgebra then [["imp", "imp_nalgebra"]] else [])))))) := by
  rw [compiledModules, declsWith_eq]
  obtain ⟨s, a, b, c⟩ := f
  cases s <;> cases a <;> cases b <;> cases c <;> kernel_rfl

theorem words_ok (f : Features) : ∀ m ∈ compiledModules f, ∀ w ∈ words, f.on w.2 = false →
    RustCode.Tok.id w.1 ∉ configure f.on (moduleText m) := by
  intro m hm w hw hf hin
  have h := mem_wordsIn hw hin
  rw [compiled_eq] at hm
  simp only [List.mem_append, List.mem_cons, List.not_mem_nil, or_false] at hm
  rcases hm with (rfl | rfl | rfl | rfl | rfl | rfl | rfl | rfl) | hm
  · rw [words_root] at h
    cases h
  · rw [words_util] at h
    cases h
  · rw [words_glsl] at h
    cases hs : f.std <;> simp [hs] at h
    subst h
    simp [Features.on, hs] at hf
  · rw [words_std140] at h
    cases h
  · rw [words_std140_dynamic_uniform] at h
    cases h
  · rw [words_std140_primitives] at h
    cases h
  · rw [words_std140_sizer] at h
    cases h
  · rw [words_std140_traits] at h
    cases hs : f.std <;> simp [hs] at h
    subst h
    simp [Features.on, hs] at hf
  rcases hm with hm | hm
  · cases hs : f.std <;> simp [hs] at hm
    subst hm
    rw [words_std140_writer] at h
    simp at h
    subst h
    simp [Features.on, hs] at hf
  rcases hm with (rfl | rfl | rfl | rfl) | hm
  · rw [words_std430] at h
    cases h
  · rw [words_std430_primitives] at h
    cases h
  · rw [words_std430_sizer] at h
    cases h
  · rw [words_std430_traits] at h
    cases hs : f.std <;> simp [hs] at h
    subst h
    simp [Features.on, hs] at hf
  rcases hm with hm | hm
  · cases hs : f.std <;> simp [hs] at hm
    subst hm
    rw [words_std430_writer] at h
    simp at h
    subst h
    simp [Features.on, hs] at hf
  rcases hm with (rfl | rfl | rfl | rfl) | hm
  · rw [words_internal] at h
    cases h
  · rw [words_bool] at h
    cases h
  · rw [words_imp] at h
    cases h
  · rw [words_imp_imp_mint] at h
    cases h
  rcases hm with hm | hm | hm
  · cases hs : f.cgmath <;> simp [hs] at hm
    subst hm
    rw [words_imp_imp_cgmath] at h
    simp at h
    subst h
    simp [Features.on, hs] at hf
  · cases hs : f.glam <;> simp [hs] at hm
    subst hm
    rw [words_imp_imp_glam] at h
    simp at h
    subst h
    simp [Features.on, hs] at hf
  · cases hs : f.nalgebra <;> simp [hs] at hm
    subst hm
    rw [words_imp_imp_nalgebra] at h
    simp at h
    subst h
    simp [Features.on, hs] at hf

theorem imports_ok (f : Features) :
    ((compiledModules f).all fun m => (declsWith f m).all (declOk (declsWith f) 5 m)) = true := by
  rw [compiledModules, declsWith_eq]
  obtain ⟨s, a, b, c⟩ := f
  cases s <;> cases a <;> cases b <;> cases c <;> kernel_rfl

/-- The public modules. -/
def publicModules : List (List String) := [[], ["glsl"], ["std140"], ["std430"], ["internal"]]

/-- The names that the public modules make public. -/
def nameTable (s : Bool) : List String → List (String × Thing)
  | [] =>
      [("glsl", .module ["glsl"]), ("std140", .module ["std140"]), ("std430", .module ["std430"]),
       ("internal", .module ["internal"])]
  | ["glsl"] =>
    if s then
      [("GlslStruct", .outside ["crevice_derive", "GlslStruct"]), ("Glsl", .item .trait [("NAME", false)]),
       ("GlslField", .item .struct []), ("GlslStruct", .item .trait [("FIELDS", false), ("glsl_definition", true)])]
    else
      [("GlslStruct", .outside ["crevice_derive", "GlslStruct"]), ("Glsl", .item .trait [("NAME", false)]),
       ("GlslField", .item .struct [])]
  | ["std140"] =>
    if s then
      [("Bool", .item .struct []), ("DynamicUniform", .item .struct []), ("DynamicUniformStd140", .item .struct []),
       ("Vec2", .item .struct []), ("Vec3", .item .struct []), ("Vec4", .item .struct []),
       ("IVec2", .item .struct []), ("IVec3", .item .struct []), ("IVec4", .item .struct []),
       ("UVec2", .item .struct []), ("UVec3", .item .struct []), ("UVec4", .item .struct []),
       ("BVec2", .item .struct []), ("BVec3", .item .struct []), ("BVec4", .item .struct []),
       ("DVec2", .item .struct []), ("DVec3", .item .struct []), ("DVec4", .item .struct []),
       ("Mat2", .item .struct []), ("Mat3", .item .struct []), ("Mat4", .item .struct []),
       ("DMat2", .item .struct []), ("DMat3", .item .struct []), ("DMat4", .item .struct []),
       ("Sizer", .item .struct []), ("Std140", .item .trait [("ALIGNMENT", false), ("as_bytes", true)]),
       ("AsStd140", .item .trait [("Output", false), ("as_std140", false), ("std140_size_static", true), ("from_std140", false)]),
       ("WriteStd140", .item .trait [("write_std140", false), ("std140_size", true)]), ("Writer", .item .struct []),
       ("AsStd140", .outside ["crevice_derive", "AsStd140"])]
    else
      [("Bool", .item .struct []), ("DynamicUniform", .item .struct []), ("DynamicUniformStd140", .item .struct []),
       ("Vec2", .item .struct []), ("Vec3", .item .struct []), ("Vec4", .item .struct []),
       ("IVec2", .item .struct []), ("IVec3", .item .struct []), ("IVec4", .item .struct []),
       ("UVec2", .item .struct []), ("UVec3", .item .struct []), ("UVec4", .item .struct []),
       ("BVec2", .item .struct []), ("BVec3", .item .struct []), ("BVec4", .item .struct []),
       ("DVec2", .item .struct []), ("DVec3", .item .struct []), ("DVec4", .item .struct []),
       ("Mat2", .item .struct []), ("Mat3", .item .struct []), ("Mat4", .item .struct []),
       ("DMat2", .item .struct []), ("DMat3", .item .struct []), ("DMat4", .item .struct []),
       ("Sizer", .item .struct []), ("Std140", .item .trait [("ALIGNMENT", false), ("as_bytes", true)]),
       ("AsStd140", .item .trait [("Output", false), ("as_std140", false), ("std140_size_static", true), ("from_std140", false)]),
       ("AsStd140", .outside ["crevice_derive", "AsStd140"])]
  | ["std430"] =>
    if s then
      [("Bool", .item .struct []), ("Vec2", .item .struct []), ("Vec3", .item .struct []),
       ("Vec4", .item .struct []), ("IVec2", .item .struct []), ("IVec3", .item .struct []),
       ("IVec4", .item .struct []), ("UVec2", .item .struct []), ("UVec3", .item .struct []),
       ("UVec4", .item .struct []), ("BVec2", .item .struct []), ("BVec3", .item .struct []),
       ("BVec4", .item .struct []), ("DVec2", .item .struct []), ("DVec3", .item .struct []),
       ("DVec4", .item .struct []), ("Mat2", .item .struct []), ("Mat3", .item .struct []),
       ("Mat4", .item .struct []), ("DMat2", .item .struct []), ("DMat3", .item .struct []),
       ("DMat4", .item .struct []), ("Sizer", .item .struct []),
       ("Std430", .item .trait [("ALIGNMENT", false), ("as_bytes", true)]),
       ("AsStd430", .item .trait [("Output", false), ("as_std430", false), ("std430_size_static", true), ("from_std430", false)]),
       ("WriteStd430", .item .trait [("write_std430", false), ("std430_size", true)]), ("Writer", .item .struct []),
       ("AsStd430", .outside ["crevice_derive", "AsStd430"])]
    else
      [("Bool", .item .struct []), ("Vec2", .item .struct []), ("Vec3", .item .struct []),
       ("Vec4", .item .struct []), ("IVec2", .item .struct []), ("IVec3", .item .struct []),
       ("IVec4", .item .struct []), ("UVec2", .item .struct []), ("UVec3", .item .struct []),
       ("UVec4", .item .struct []), ("BVec2", .item .struct []), ("BVec3", .item .struct []),
       ("BVec4", .item .struct []), ("DVec2", .item .struct []), ("DVec3", .item .struct []),
       ("DVec4", .item .struct []), ("Mat2", .item .struct []), ("Mat3", .item .struct []),
       ("Mat4", .item .struct []), ("DMat2", .item .struct []), ("DMat3", .item .struct []),
       ("DMat4", .item .struct []), ("Sizer", .item .struct []),
       ("Std430", .item .trait [("ALIGNMENT", false), ("as_bytes", true)]),
       ("AsStd430", .item .trait [("Output", false), ("as_std430", false), ("std430_size_static", true), ("from_std430", false)]),
       ("AsStd430", .outside ["crevice_derive", "AsStd430"])]
  | ["internal"] =>
      [("bytemuck", .outside ["bytemuck"]), ("align_offset", .item .fn []), ("max", .item .fn []),
       ("max_arr", .item .fn [])]
  | _ => []

theorem names_std (f : Features) {m : List String} (hm : m ∈ publicModules) : creviceNames f m = nameTable f.std m := by
  rw [creviceNames_eq]
  obtain ⟨s, a, b, c⟩ := f
  simp only [publicModules, List.mem_cons, List.not_mem_nil, or_false] at hm
  rcases hm with rfl | rfl | rfl | rfl | rfl <;> cases s <;> kernel_rfl

theorem table_le : ∀ m ∈ publicModules, ∀ y ∈ nameTable false m,
    y ∈ nameTable true m := by decide +kernel

theorem table_public : ∀ s : Bool, ∀ m ∈ publicModules, ∀ y ∈ nameTable s m,
    (match y.2 with
      | .module m' => publicModules.contains m'
      | _ => true) = true := by decide +kernel

theorem names_le {f f' : Features} (h : f.le f') {m : List String} (hm : m ∈ publicModules) :
    ∀ y ∈ creviceNames f m, y ∈ creviceNames f' m := by
  have hs : f.std = true → f'.std = true := h "std"
  rw [names_std f hm, names_std f' hm]
  cases h1 : f.std with
  | true => rw [hs h1]; exact fun y hy => hy
  | false =>
    cases h2 : f'.std with
    | false => exact fun y hy => hy
    | true => exact table_le m hm

theorem names_public {f : Features} {m : List String} (hm : m ∈ publicModules) :
    ∀ y ∈ creviceNames f m, ∀ m', y.2 = .module m' → m' ∈ publicModules := by
  rw [names_std f hm]
  intro y hy m' hy'
  have := table_public _ m hm y hy
  rw [hy'] at this
  simpa using this

theorem path_cons (f : Features) (m : List String) (x : String) (r : List String) :
    publicPath (declsWith f) 5 m (x :: r) = ((creviceNames f m).filter fun y => y.1 = x).flatMap fun y =>
      match y.2 with
      | .module m' => publicPath (declsWith f) 5 m' r
      | .outside q => [(.outside (q ++ r), [])]
      | .item k ms => [(.item k ms, r)] := by
  rw [publicPath, creviceNames]
  rfl

theorem path_le {f f' : Features} (h : f.le f') (p : List String) : ∀ {m : List String}, m ∈ publicModules →
    ∀ t ∈ publicPath (declsWith f) 5 m p, t ∈ publicPath (declsWith f') 5 m p := by
  induction p with
  | nil => intro m _ t ht; rw [publicPath] at ht ⊢; exact ht
  | cons x r ih =>
    intro m hm t ht
    rw [path_cons, List.mem_flatMap] at ht ⊢
    obtain ⟨y, hy, ht⟩ := ht
    rw [List.mem_filter] at hy
    refine ⟨y, List.mem_filter.2 ⟨names_le h hm y hy.1, hy.2⟩, ?_⟩
    have h1 := names_public hm y hy.1
    obtain ⟨y1, y2⟩ := y
    cases y2 with
    | module m' => exact ih (h1 m' rfl) t ht
    | outside q => exact ht
    | item k ms => exact ht

end Crevice.NameProof
