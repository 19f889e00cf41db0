import Verif.Model.Types
/-
Specification: the types crevice documents as convertible, by shape. Used to say exactly when a
program compiles.
-/
namespace Crevice

/-- Math types with an implementation: vectors with 2 to 4 components of any scalar, points with 2
or 3, square `f32`/`f64` matrices of dimension 2 to 4. -/
def MathTy.supported (m : MathTy) : Bool :=
  match m.kind with
  | .vector => 2 ≤ m.dim && m.dim ≤ 4
  | .point => 2 ≤ m.dim && m.dim ≤ 3
  | .matrix => 2 ≤ m.dim && m.dim ≤ 4 && (m.scalar == .f32 || m.scalar == .f64)

/-- The names the derive reserves in a struct with `n` fields: `_pad0`, ..., `_pad<n-1>`. -/
def reservedNames (n : Nat) : List String := (List.range n).map fun i => "_pad" ++ toString i

/-- The name an identifier stands for: in Rust `r#name` and `name` are the same. -/
def plainName (s : String) : String :=
  if ['r', '#'] <+: s.toList then String.ofList (s.toList.drop 2) else s

/-- Types that mean the same in both layouts: scalars and `Bool`. -/
def Ty.neutral : Ty → Bool
  | .scalar _ => true
  | .bool => true
  | .output _ t => Ty.neutral t
  | .user _ t => Ty.neutral t
  | _ => false

/-- The type is, or converts to, a `DynamicUniformStd140`, which cannot be a field of a derived
struct because it does not implement `Debug`. -/
def Ty.isDynamic : Ty → Bool
  | .dynamic _ => true
  | .output _ t => Ty.isDynamic t
  | .user _ t => Ty.isDynamic t
  | _ => false

mutual
/-- Types that can be converted to layout `l`. -/
def Ty.accepted (l : Layout) : Ty → Bool
  | .scalar s => s != .u8
  | .bool => true
  | .math m => m.supported
  | .foreign name => (foreignMath name).isSome
  | .struct _ fs =>
    acceptedFields l fs && decide ((fs.map fun f => plainName f.1).Nodup) &&
      (fs.map fun f => plainName f.1).all fun n => !(reservedNames fs.length).contains n
  | .dynamic t => l == .std140 && Ty.accepted l t
  | .output l' t => (l' == l || Ty.neutral t) && Ty.accepted l t
  | .user _ t => Ty.accepted l t
/-- Field by field. -/
def acceptedFields (l : Layout) : List (String × Ty) → Bool
  | [] => true
  | (_, t) :: r => Ty.accepted l t && !Ty.isDynamic t && acceptedFields l r
end

mutual
/-- Every struct inside has at least one field (GLSL has no empty structs). -/
def Ty.noEmptyStruct : Ty → Bool
  | .struct _ fs => !fs.isEmpty && noEmptyStructFields fs
  | .dynamic t => Ty.noEmptyStruct t
  | .output _ t => Ty.noEmptyStruct t
  | .user _ t => Ty.noEmptyStruct t
  | _ => true
/-- Field by field. -/
def noEmptyStructFields : List (String × Ty) → Bool
  | [] => true
  | (_, t) :: r => Ty.noEmptyStruct t && noEmptyStructFields r
end

mutual
/-- The type contains no scalar at all: it is made of structs without fields. -/
def Ty.scalarFree : Ty → Bool
  | .struct _ fs => scalarFreeFields fs
  | .dynamic t => Ty.scalarFree t
  | .output _ t => Ty.scalarFree t
  | .user _ t => Ty.scalarFree t
  | _ => false
/-- Field by field. -/
def scalarFreeFields : List (String × Ty) → Bool
  | [] => true
  | (_, t) :: r => Ty.scalarFree t && scalarFreeFields r
end

end Crevice
