import Verif.Spec.TextNames
import Verif.Proof.KernelRfl
/-
What each module of crevice declares, written by `tools/gen_decls.py`; each line is checked against the text of the module.
-/
namespace Crevice.NameProof
open RustCode

/-- `[]` -/
def decls_root (_ : Features) : List Decl :=
  [.module false "util", .module true "glsl", .module true "std140", .module true "std430", .module true "internal",
   .module false "bool", .module false "imp"]

theorem decls_root_eq (f : Features) : declsWith f [] = decls_root f := by
  kernel_rfl

/-- `["util"]` -/
def decls_util (_ : Features) : List Decl :=
  []

theorem decls_util_eq (f : Features) : declsWith f ["util"] = decls_util f := by
  kernel_rfl

/-- `["glsl"]` -/
def decls_glsl (f : Features) : List Decl :=
  if f.std then
    [.use true ["crevice_derive", "GlslStruct"], .item true .trait "Glsl" [("NAME", false)],
     .item true .struct "GlslField" [], .item true .trait "GlslStruct" [("FIELDS", false), ("glsl_definition", true)]]
  else
    [.use true ["crevice_derive", "GlslStruct"], .item true .trait "Glsl" [("NAME", false)],
     .item true .struct "GlslField" []]

theorem decls_glsl_eq (f : Features) : declsWith f ["glsl"] = decls_glsl f := by
  obtain ⟨s, a, b, c⟩ := f
  cases s <;> kernel_rfl

/-- `["std140"]` -/
def decls_std140 (f : Features) : List Decl :=
  if f.std then
    [.module false "dynamic_uniform", .module false "primitives", .module false "sizer", .module false "traits",
     .module false "writer", .use true ["crate", "bool", "Bool"], .glob true ["self", "dynamic_uniform"],
     .glob true ["self", "primitives"], .glob true ["self", "sizer"], .glob true ["self", "traits"],
     .glob true ["self", "writer"], .use true ["crevice_derive", "AsStd140"]]
  else
    [.module false "dynamic_uniform", .module false "primitives", .module false "sizer", .module false "traits",
     .use true ["crate", "bool", "Bool"], .glob true ["self", "dynamic_uniform"], .glob true ["self", "primitives"],
     .glob true ["self", "sizer"], .glob true ["self", "traits"], .use true ["crevice_derive", "AsStd140"]]

theorem decls_std140_eq (f : Features) : declsWith f ["std140"] = decls_std140 f := by
  obtain ⟨s, a, b, c⟩ := f
  cases s <;> kernel_rfl

/-- `["std140", "dynamic_uniform"]` -/
def decls_std140_dynamic_uniform (_ : Features) : List Decl :=
  [.use false ["bytemuck", "Pod"], .use false ["bytemuck", "Zeroable"], .use false ["crate", "internal", "max"],
   .use false ["crate", "std140", "AsStd140"], .use false ["crate", "std140", "Std140"],
   .item true .struct "DynamicUniform" [], .item true .struct "DynamicUniformStd140" []]

theorem decls_std140_dynamic_uniform_eq (f : Features) : declsWith f ["std140", "dynamic_uniform"] = decls_std140_dynamic_uniform f := by
  kernel_rfl

/-- `["std140", "primitives"]` -/
def decls_std140_primitives (_ : Features) : List Decl :=
  [.use false ["bytemuck", "Pod"], .use false ["bytemuck", "Zeroable"], .use false ["crate", "bool", "Bool"],
   .use false ["crate", "glsl", "Glsl"], .use false ["crate", "std140", "AsStd140"],
   .use false ["crate", "std140", "Std140"], .item true .struct "Vec2" [], .item true .struct "Vec3" [],
   .item true .struct "Vec4" [], .item true .struct "IVec2" [], .item true .struct "IVec3" [],
   .item true .struct "IVec4" [], .item true .struct "UVec2" [], .item true .struct "UVec3" [],
   .item true .struct "UVec4" [], .item true .struct "BVec2" [], .item true .struct "BVec3" [],
   .item true .struct "BVec4" [], .item true .struct "DVec2" [], .item true .struct "DVec3" [],
   .item true .struct "DVec4" [], .item true .struct "Mat2" [], .item true .struct "Mat3" [],
   .item true .struct "Mat4" [], .item true .struct "DMat2" [], .item true .struct "DMat3" [],
   .item true .struct "DMat4" []]

theorem decls_std140_primitives_eq (f : Features) : declsWith f ["std140", "primitives"] = decls_std140_primitives f := by
  kernel_rfl

/-- `["std140", "sizer"]` -/
def decls_std140_sizer (_ : Features) : List Decl :=
  [.use false ["core", "mem", "size_of"], .use false ["crate", "internal", "align_offset"],
   .use false ["crate", "std140", "AsStd140"], .use false ["crate", "std140", "Std140"], .item true .struct "Sizer" []]

theorem decls_std140_sizer_eq (f : Features) : declsWith f ["std140", "sizer"] = decls_std140_sizer f := by
  kernel_rfl

/-- `["std140", "traits"]` -/
def decls_std140_traits (f : Features) : List Decl :=
  if f.std then
    [.use false ["core", "mem", "size_of"], .use false ["std", "io"], .use false ["std", "io", "Write"],
     .use false ["bytemuck", "bytes_of"], .use false ["bytemuck", "Pod"], .use false ["bytemuck", "Zeroable"],
     .use false ["crate", "std140", "Writer"], .item true .trait "Std140" [("ALIGNMENT", false), ("as_bytes", true)],
     .item true .trait "AsStd140" [("Output", false), ("as_std140", false), ("std140_size_static", true), ("from_std140", false)],
     .item true .trait "WriteStd140" [("write_std140", false), ("std140_size", true)]]
  else
    [.use false ["core", "mem", "size_of"], .use false ["bytemuck", "bytes_of"], .use false ["bytemuck", "Pod"],
     .use false ["bytemuck", "Zeroable"], .item true .trait "Std140" [("ALIGNMENT", false), ("as_bytes", true)],
     .item true .trait "AsStd140" [("Output", false), ("as_std140", false), ("std140_size_static", true), ("from_std140", false)]]

theorem decls_std140_traits_eq (f : Features) : declsWith f ["std140", "traits"] = decls_std140_traits f := by
  obtain ⟨s, a, b, c⟩ := f
  cases s <;> kernel_rfl

/-- `["std140", "writer"]` -/
def decls_std140_writer (_ : Features) : List Decl :=
  [.use false ["std", "io"], .use false ["std", "io", "Write"], .use false ["std", "mem", "size_of"],
   .use false ["bytemuck", "bytes_of"], .use false ["crate", "internal", "align_offset"],
   .use false ["crate", "std140", "AsStd140"], .use false ["crate", "std140", "Std140"],
   .use false ["crate", "std140", "WriteStd140"], .item true .struct "Writer" []]

theorem decls_std140_writer_eq (f : Features) : declsWith f ["std140", "writer"] = decls_std140_writer f := by
  kernel_rfl

/-- `["std430"]` -/
def decls_std430 (f : Features) : List Decl :=
  if f.std then
    [.module false "primitives", .module false "sizer", .module false "traits", .module false "writer",
     .use true ["crate", "bool", "Bool"], .glob true ["self", "primitives"], .glob true ["self", "sizer"],
     .glob true ["self", "traits"], .glob true ["self", "writer"], .use true ["crevice_derive", "AsStd430"]]
  else
    [.module false "primitives", .module false "sizer", .module false "traits", .use true ["crate", "bool", "Bool"],
     .glob true ["self", "primitives"], .glob true ["self", "sizer"], .glob true ["self", "traits"],
     .use true ["crevice_derive", "AsStd430"]]

theorem decls_std430_eq (f : Features) : declsWith f ["std430"] = decls_std430 f := by
  obtain ⟨s, a, b, c⟩ := f
  cases s <;> kernel_rfl

/-- `["std430", "primitives"]` -/
def decls_std430_primitives (_ : Features) : List Decl :=
  [.use false ["bytemuck", "Pod"], .use false ["bytemuck", "Zeroable"], .use false ["crate", "bool", "Bool"],
   .use false ["crate", "glsl", "Glsl"], .use false ["crate", "std430", "AsStd430"],
   .use false ["crate", "std430", "Std430"], .item true .struct "Vec2" [], .item true .struct "Vec3" [],
   .item true .struct "Vec4" [], .item true .struct "IVec2" [], .item true .struct "IVec3" [],
   .item true .struct "IVec4" [], .item true .struct "UVec2" [], .item true .struct "UVec3" [],
   .item true .struct "UVec4" [], .item true .struct "BVec2" [], .item true .struct "BVec3" [],
   .item true .struct "BVec4" [], .item true .struct "DVec2" [], .item true .struct "DVec3" [],
   .item true .struct "DVec4" [], .item true .struct "Mat2" [], .item true .struct "Mat3" [],
   .item true .struct "Mat4" [], .item true .struct "DMat2" [], .item true .struct "DMat3" [],
   .item true .struct "DMat4" []]

theorem decls_std430_primitives_eq (f : Features) : declsWith f ["std430", "primitives"] = decls_std430_primitives f := by
  kernel_rfl

/-- `["std430", "sizer"]` -/
def decls_std430_sizer (_ : Features) : List Decl :=
  [.use false ["core", "mem", "size_of"], .use false ["crate", "internal", "align_offset"],
   .use false ["crate", "std430", "AsStd430"], .use false ["crate", "std430", "Std430"], .item true .struct "Sizer" []]

theorem decls_std430_sizer_eq (f : Features) : declsWith f ["std430", "sizer"] = decls_std430_sizer f := by
  kernel_rfl

/-- `["std430", "traits"]` -/
def decls_std430_traits (f : Features) : List Decl :=
  if f.std then
    [.use false ["core", "mem", "size_of"], .use false ["std", "io"], .use false ["std", "io", "Write"],
     .use false ["bytemuck", "bytes_of"], .use false ["bytemuck", "Pod"], .use false ["bytemuck", "Zeroable"],
     .use false ["crate", "std430", "Writer"], .item true .trait "Std430" [("ALIGNMENT", false), ("as_bytes", true)],
     .item true .trait "AsStd430" [("Output", false), ("as_std430", false), ("std430_size_static", true), ("from_std430", false)],
     .item true .trait "WriteStd430" [("write_std430", false), ("std430_size", true)]]
  else
    [.use false ["core", "mem", "size_of"], .use false ["bytemuck", "bytes_of"], .use false ["bytemuck", "Pod"],
     .use false ["bytemuck", "Zeroable"], .item true .trait "Std430" [("ALIGNMENT", false), ("as_bytes", true)],
     .item true .trait "AsStd430" [("Output", false), ("as_std430", false), ("std430_size_static", true), ("from_std430", false)]]

theorem decls_std430_traits_eq (f : Features) : declsWith f ["std430", "traits"] = decls_std430_traits f := by
  obtain ⟨s, a, b, c⟩ := f
  cases s <;> kernel_rfl

/-- `["std430", "writer"]` -/
def decls_std430_writer (_ : Features) : List Decl :=
  [.use false ["std", "io"], .use false ["std", "io", "Write"], .use false ["std", "mem", "size_of"],
   .use false ["bytemuck", "bytes_of"], .use false ["crate", "internal", "align_offset"],
   .use false ["crate", "std430", "AsStd430"], .use false ["crate", "std430", "Std430"],
   .use false ["crate", "std430", "WriteStd430"], .item true .struct "Writer" []]

theorem decls_std430_writer_eq (f : Features) : declsWith f ["std430", "writer"] = decls_std430_writer f := by
  kernel_rfl

/-- `["internal"]` -/
def decls_internal (_ : Features) : List Decl :=
  [.use true ["bytemuck"], .item true .fn "align_offset" [], .item true .fn "max" [], .item true .fn "max_arr" []]

theorem decls_internal_eq (f : Features) : declsWith f ["internal"] = decls_internal f := by
  kernel_rfl

/-- `["bool"]` -/
def decls_bool (_ : Features) : List Decl :=
  [.use false ["core", "fmt", "Debug"], .use false ["core", "fmt", "Formatter"], .use false ["bytemuck", "Pod"],
   .use false ["bytemuck", "Zeroable"], .item true .struct "Bool" []]

theorem decls_bool_eq (f : Features) : declsWith f ["bool"] = decls_bool f := by
  kernel_rfl

/-- `["imp"]` -/
def decls_imp (f : Features) : List Decl :=
  .module false "imp_mint" :: ((if f.cgmath then [.module false "imp_cgmath"] else []) ++
    ((if f.glam then [.module false "imp_glam"] else []) ++ if f.nalgebra then [.module false "imp_nalgebra"] else []))

theorem decls_imp_eq (f : Features) : declsWith f ["imp"] = decls_imp f := by
  obtain ⟨s, a, b, c⟩ := f
  cases a <;> cases b <;> cases c <;> kernel_rfl

/-- `["imp", "imp_mint"]` -/
def decls_imp_imp_mint (_ : Features) : List Decl :=
  []

theorem decls_imp_imp_mint_eq (f : Features) : declsWith f ["imp", "imp_mint"] = decls_imp_imp_mint f := by
  kernel_rfl

/-- `["imp", "imp_cgmath"]` -/
def decls_imp_imp_cgmath (_ : Features) : List Decl :=
  []

theorem decls_imp_imp_cgmath_eq (f : Features) : declsWith f ["imp", "imp_cgmath"] = decls_imp_imp_cgmath f := by
  kernel_rfl

/-- `["imp", "imp_glam"]` -/
def decls_imp_imp_glam (_ : Features) : List Decl :=
  []

theorem decls_imp_imp_glam_eq (f : Features) : declsWith f ["imp", "imp_glam"] = decls_imp_imp_glam f := by
  kernel_rfl

/-- `["imp", "imp_nalgebra"]` -/
def decls_imp_imp_nalgebra (_ : Features) : List Decl :=
  []

theorem decls_imp_imp_nalgebra_eq (f : Features) : declsWith f ["imp", "imp_nalgebra"] = decls_imp_imp_nalgebra f := by
  kernel_rfl

/-- What the modules declare. -/
def declTable (f : Features) : List String → List Decl
  | [] => decls_root f
  | ["util"] => decls_util f
  | ["glsl"] => decls_glsl f
  | ["std140"] => decls_std140 f
  | ["std140", "dynamic_uniform"] => decls_std140_dynamic_uniform f
  | ["std140", "primitives"] => decls_std140_primitives f
  | ["std140", "sizer"] => decls_std140_sizer f
  | ["std140", "traits"] => decls_std140_traits f
  | ["std140", "writer"] => decls_std140_writer f
  | ["std430"] => decls_std430 f
  | ["std430", "primitives"] => decls_std430_primitives f
  | ["std430", "sizer"] => decls_std430_sizer f
  | ["std430", "traits"] => decls_std430_traits f
  | ["std430", "writer"] => decls_std430_writer f
  | ["internal"] => decls_internal f
  | ["bool"] => decls_bool f
  | ["imp"] => decls_imp f
  | ["imp", "imp_mint"] => decls_imp_imp_mint f
  | ["imp", "imp_cgmath"] => decls_imp_imp_cgmath f
  | ["imp", "imp_glam"] => decls_imp_imp_glam f
  | ["imp", "imp_nalgebra"] => decls_imp_imp_nalgebra f
  | _ => []

end Crevice.NameProof
