import Verif.Proof.KernelRfl
import Verif.Model.TextTypes
/-
The expansion of the macros of `src/{std140,std430}/primitives.rs`, `src/util.rs` and `src/imp/*.rs`, row by row.
-/
namespace Crevice.Tables
open RustCode TypeNames

/-- No generics. -/
abbrev none' : Generics := ⟨[], [], []⟩

/-- `const ALIGNMENT: usize = n;` -/
def alignItem (l : Layout) (t : String) (n : Nat) : Item :=
  .impl none' (ty (stdTrait l)) (ty t) [.const "ALIGNMENT" (ty "usize") (some (.num n ""))]

/-- `derive(..)`. -/
def deriveAttr (partialEq : Bool) : List Tok :=
  [.id "derive", .op .lparen, .id "Debug", .op .comma, .id "Clone", .op .comma, .id "Copy"] ++
    (if partialEq then [.op .comma, .id "PartialEq"] else []) ++ [.op .rparen]

/-- The items of a struct of the tables. -/
def primItems (l : Layout) (partialEq : Bool) (name glsl : String) (align : Nat)
    (fields : List (String × RustCode.Ty)) : List Item :=
  [.struct [[.id "allow", .op .lparen, .id "missing_docs", .op .rparen], deriveAttr partialEq,
      [.id "repr", .op .lparen, .id "C", .op .rparen]] name none' fields,
    .impl none' (ty "Zeroable") (ty name) [],
    .impl none' (ty "Pod") (ty name) [],
    alignItem l name align,
    .impl none' (ty "Glsl") (ty name)
      [.const "NAME" (.ref false (ty "str")) (some (.mac "stringify" [.id glsl]))]]

/-- The type of the fields of a vector. -/
def primName : PrimTy → String
  | .scalar s => scalarName s
  | .Bool => "Bool"

/-- A row of `vectors!`. -/
def vecItems (l : Layout) (r : VecRow) : List Item :=
  primItems l (l == .std140) r.name r.glsl r.align (r.fields.map fun f => (f, ty (primName r.prim)))

/-- The type of a field of a matrix. -/
def matField : MatField → RustCode.Ty
  | .vec n => ty n
  | .scalar s => ty (scalarName s)
  | .array s n => .array (ty (scalarName s)) (.num n "")

/-- A row of `matrices!`. -/
def matItems (l : Layout) (r : MatRow) : List Item :=
  primItems l false r.name r.glsl r.align (r.fields.map fun f => (f.1, matField f.2))

/-- `Self::Output` -/
abbrev selfOutput : RustCode.Ty := .path ["Self", "Output"] []

/-- `as_stdN` with the given body. -/
def asFn (l : Layout) (body : Expr) : Fn :=
  ⟨asName l, none', .ref, [], selfOutput, some body⟩

/-- `from_stdN` with the given parameter and body. -/
def fromFn (l : Layout) (x : String) (body : Expr) : Fn :=
  ⟨fromName l, none', .static, [(x, selfOutput)], ty "Self", some body⟩

/-- The beginning of `primitives.rs`. -/
def headItems (l : Layout) : List Item :=
  [.other, .other, .other, .other, alignItem l "f32" 4, alignItem l "f64" 8, alignItem l "i32" 4, alignItem l "u32" 4,
    alignItem l "Bool" 4,
    .impl none' (ty (asTrait l)) (ty "bool")
      [.type "Output" (some (ty "Bool")),
        .fn (asFn l (.block [] (.method (.deref (.var "self")) "into" []))),
        .fn (fromFn l "val" (.block [] (.method (.var "val") "into" [])))]]

/-- `primitives.rs`. -/
def primitivesItems (l : Layout) : List Item :=
  headItems l ++ l.vectors.flatMap (vecItems l) ++ l.matrices.flatMap (matItems l)

/-- Body of `as_stdN`. -/
def easyAs (l : Layout) (stdName : String) (fields : List String) : Expr :=
  .block [] (.structBase (inMod l stdName) fields
    (fields.map fun f => .method (.field (.var "self") f) (asName l) [])
    (.call (.path (.path ["bytemuck", "Zeroable", "zeroed"] [])) []))

/-- Body of `from_stdN`. -/
def easyFrom (l : Layout) (fields : List String) : Expr :=
  .block [] (.struct (ty "Self") fields
    (fields.map fun f => .call (.path (.proj (ty "_") (inMod l (asTrait l)) [fromName l])) [.field (.var "value") f]))

/-- The impl of a layout for a row of `easy_impl!`. -/
def easyConv (l : Layout) (stdName : String) (t : RustCode.Ty) (fields : List String) : Item :=
  .impl none' (inMod l (asTrait l)) t
    [.type "Output" (some (inMod l stdName)), .fn (asFn l (easyAs l stdName fields)),
      .fn (fromFn l "value" (easyFrom l fields))]

/-- The items of a row of `easy_impl!`. -/
def easyItems (r : EasyRow) : List Item :=
  [easyConv .std140 r.stdName (mathRustTy r.ty) r.fields, easyConv .std430 r.stdName (mathRustTy r.ty) r.fields,
    .impl none' (.path ["crate", "glsl", "Glsl"] []) (mathRustTy r.ty)
      [.const "NAME" (.ref false (ty "str")) (some (.path (.path ["crate", "std140", r.stdName, "NAME"] [])))]]

/-- The impl of a layout for a row of `minty_impl!`. -/
def mintyConv (l : Layout) (mint t : RustCode.Ty) : Item :=
  .impl none' (inMod l (asTrait l)) t
    [.type "Output" (some (.proj mint (inMod l (asTrait l)) ["Output"])),
      .fn (asFn l (.block [.bind false "mint" mint (.method (.deref (.var "self")) "into" [])]
        (.method (.var "mint") (asName l) []))),
      .fn (fromFn l "value" (.block [] (.method (.call (.path (.proj mint .unit [fromName l])) [.var "value"]) "into" [])))]

/-- A type of glam or nalgebra by its path: `a::b` or `a::b<c>`. -/
def foreignRustTy (s : String) : RustCode.Ty :=
  let a := s.toList.takeWhile (· != ':')
  let r := s.toList.drop (a.length + 2)
  let b := r.takeWhile (· != '<')
  let c := (r.drop (b.length + 1)).takeWhile (· != '>')
  .path [String.ofList a, String.ofList b] (if c.isEmpty then [] else [ty (String.ofList c)])

/-- The items of a row of `minty_impl!`. -/
def mintyItems (r : MintyRow) : List Item :=
  [mintyConv .std140 (mathRustTy r.mint) (foreignRustTy r.foreign),
    mintyConv .std430 (mathRustTy r.mint) (foreignRustTy r.foreign),
    .impl none' (.path ["crate", "glsl", "Glsl"] []) (foreignRustTy r.foreign)
      [.const "NAME" (.ref false (ty "str")) (some (.path (.proj (mathRustTy r.mint) .unit ["NAME"])))]]

theorem expand_primitives140 : (expandFiles [Source.std140Primitives]).map (List.map undoc) =
    some (primitivesItems .std140) := by
  kernel_rfl

theorem expand_primitives430 : (expandFiles [Source.std430Primitives]).map (List.map undoc) =
    some (primitivesItems .std430) := by
  kernel_rfl

theorem expand_imp :
    (expandFiles [Source.util, Source.impMint, Source.impCgmath, Source.impGlam, Source.impNalgebra]).map
        (List.map undoc) =
      some (easyRows.flatMap easyItems ++ mintyRows.flatMap mintyItems) := by
  kernel_rfl

end Crevice.Tables
