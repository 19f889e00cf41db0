import Verif.Model.TextTyping
import Verif.Proof.PublicNames
import Verif.Proof.KernelRfl
/-
The declarations in `typingEnv`.
-/
namespace Crevice.TypingProof
open RustCode RustTyping

/-- `trait StdN`. -/
def stdDecl : TraitDecl :=
  ⟨true, [.path ["Copy"] [], .path ["Zeroable"] [], .path ["Pod"] []],
    [.const "ALIGNMENT" (.path ["usize"] []) true, .fn "as_bytes" .ref [] (.ref false (.slice (.path ["u8"] []))) false]⟩

/-- `trait AsStdN`. -/
def asDecl (l : Layout) : TraitDecl :=
  ⟨false, [],
    [.type "Output" [.path [l.traitName] []], .fn (Expand.asStdMethod l) .ref [] (.path ["Self", "Output"] []) true,
      .fn (match l with | .std140 => "std140_size_static" | .std430 => "std430_size_static") .static [] (.path ["usize"] []) false,
      .fn (Expand.fromStdMethod l) .static [.path ["Self", "Output"] []] (.path ["Self"] []) true]⟩

theorem text_std (f : Features) (l : Layout) : traitDecl l.traitName (textWith f [l.modName, "traits"]) = some stdDecl := by
  obtain ⟨a, b, c, d⟩ := f
  cases l <;> cases a <;> kernel_rfl

theorem text_as (f : Features) (l : Layout) : traitDecl (asTraitName l) (textWith f [l.modName, "traits"]) = some (asDecl l) := by
  obtain ⟨a, b, c, d⟩ := f
  cases l <;> cases a <;> kernel_rfl

theorem text_glsl (f : Features) : traitDecl "Glsl" (textWith f ["glsl"]) =
    some ⟨true, [], [.const "NAME" (.ref false (.path ["str"] [])) true]⟩ := by
  obtain ⟨a, b, c, d⟩ := f
  cases a <;> kernel_rfl

theorem text_glslStruct (f : Features) (h : f.std = true) : traitDecl "GlslStruct" (textWith f ["glsl"]) =
    some ⟨true, [.path ["Glsl"] []], [.const "FIELDS" (.ref false (.slice (.path ["GlslField"] []))) true,
      .fn "glsl_definition" .static [] (.path ["String"] []) false]⟩ := by
  obtain ⟨a, b, c, d⟩ := f
  subst h
  kernel_rfl

theorem text_field (f : Features) : structDecl "GlslField" (textWith f ["glsl"]) =
    some [(true, "ty", .ref false (.path ["str"] [])), (true, "name", .ref false (.path ["str"] []))] := by
  obtain ⟨a, b, c, d⟩ := f
  cases a <;> kernel_rfl

theorem text_align (f : Features) : fnDecl "align_offset" (textWith f ["internal"]) =
    some ⟨true, [], [.path ["usize"] [], .path ["usize"] []], .path ["usize"] []⟩ := by
  obtain ⟨a, b, c, d⟩ := f
  kernel_rfl

theorem text_max (f : Features) : fnDecl "max_arr" (textWith f ["internal"]) =
    some ⟨true, ["N"], [.array (.path ["usize"] []) (.var "N")], .path ["usize"] []⟩ := by
  obtain ⟨a, b, c, d⟩ := f
  kernel_rfl

attribute [local irreducible] traitDecl fnDecl structDecl textWith

variable {α : Type} (f : Features) (u : User α) (l : Layout)

theorem at_std : (typingEnv f u).traitAt (Expand.stdTrait l) = some l.traitName := by
  simp only [typingEnv, NameProof.std_trait]; rfl
theorem at_as : (typingEnv f u).traitAt (Expand.asStdTrait l) = some (asTraitName l) := by
  simp only [typingEnv, NameProof.as_trait]; cases l <;> rfl
theorem at_bytemuck {x : String} (h : x ∈ ["Zeroable", "Pod"]) : (typingEnv f u).traitAt (Expand.bytemuckTrait x) = some x := by
  simp only [typingEnv, ((NameProof.bytemuck_trait f).1 x h).1]; rfl

theorem traits_std : (typingEnv f u).traits l.traitName = some stdDecl := by
  cases l
  · exact congrArg (fun x => x.or (outsideDecls.lookup "Std140")) (text_std f .std140)
  · exact congrArg (fun x => x.or (outsideDecls.lookup "Std430")) (text_std f .std430)
theorem traits_as : (typingEnv f u).traits (asTraitName l) = some (asDecl l) := by
  cases l
  · exact congrArg (fun x => x.or (outsideDecls.lookup "AsStd140")) (text_as f .std140)
  · exact congrArg (fun x => x.or (outsideDecls.lookup "AsStd430")) (text_as f .std430)
theorem traits_outside {x : String} {d : TraitDecl} (h : (x, d) ∈ outsideDecls) : (typingEnv f u).traits x = some d := by
  simp only [outsideDecls, List.mem_cons, List.not_mem_nil, or_false, Prod.mk.injEq] at h
  rcases h with ⟨rfl, rfl⟩ | ⟨rfl, rfl⟩ | ⟨rfl, rfl⟩ | ⟨rfl, rfl⟩ <;> rfl

theorem fn_align : (typingEnv f u).fnAt ⟨true, ["crevice", "internal", "align_offset"]⟩ =
    some ⟨true, [], [.path ["usize"] [], .path ["usize"] []], .path ["usize"] []⟩ := by
  simp only [typingEnv, (NameProof.internal_fns f).1]; exact text_align f
theorem fn_max : (typingEnv f u).fnAt ⟨true, ["crevice", "internal", "max_arr"]⟩ =
    some ⟨true, ["N"], [.array (.path ["usize"] []) (.var "N")], .path ["usize"] []⟩ := by
  simp only [typingEnv, (NameProof.internal_fns f).2]; exact text_max f

theorem member_alignment : member (typingEnv f u) l.traitName "ALIGNMENT" = some (.const "ALIGNMENT" (.path ["usize"] []) true) := by
  rw [member, traits_std]; rfl
theorem member_asBytes : member (typingEnv f u) l.traitName "as_bytes" =
    some (.fn "as_bytes" .ref [] (.ref false (.slice (.path ["u8"] []))) false) := by
  rw [member, traits_std]; rfl
theorem member_output : member (typingEnv f u) (asTraitName l) "Output" = some (.type "Output" [.path [l.traitName] []]) := by
  rw [member, traits_as]; cases l <;> rfl
theorem member_as : member (typingEnv f u) (asTraitName l) (Expand.asStdMethod l) =
    some (.fn (Expand.asStdMethod l) .ref [] (.path ["Self", "Output"] []) true) := by
  rw [member, traits_as]; cases l <;> rfl
theorem member_from : member (typingEnv f u) (asTraitName l) (Expand.fromStdMethod l) =
    some (.fn (Expand.fromStdMethod l) .static [.path ["Self", "Output"] []] (.path ["Self"] []) true) := by
  rw [member, traits_as]; cases l <;> rfl
theorem member_zeroed : member (typingEnv f u) "Zeroable" "zeroed" = some (.fn "zeroed" .static [] (.path ["Self"] []) false) := by
  rw [member, traits_outside f u (x := "Zeroable") (List.mem_cons_self ..)]; rfl

end Crevice.TypingProof
