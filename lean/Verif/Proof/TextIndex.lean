import Verif.Proof.Tables
import Verif.Source.Parsed
import Verif.Source.Parsed140
import Verif.Source.Parsed430
/-
The items of the crate, sorted: which names its modules declare and which implementations of the traits there are.
-/
namespace Crevice.Tables
open RustCode RustTypes TypeNames

/-- The modules of the crate, written out. -/
def theModules : List (String × List Item) :=
  [("std140", Parsed.std140Traits ++ Parsed.std140DynamicUniform ++ Parsed.std140Sizer ++ Parsed.std140Writer ++
      primitivesItems .std140),
    ("std430", Parsed.std430Traits ++ Parsed.std430Sizer ++ Parsed.std430Writer ++ primitivesItems .std430),
    ("bool", Parsed.bool),
    ("glsl", Parsed.glsl),
    ("internal", Parsed.internal),
    ("imp", easyRows.flatMap easyItems ++ mintyRows.flatMap mintyItems)]

theorem crateModules_eq : crateModules = theModules := by
  have h1 : expanded [Source.std140Traits] = Parsed.std140Traits := by kernel_rfl
  have h2 : expanded [Source.std140DynamicUniform] = Parsed.std140DynamicUniform := by kernel_rfl
  have h3 : expanded [Source.std140Sizer] = Parsed.std140Sizer := by kernel_rfl
  have h4 : expanded [Source.std140Writer] = Parsed.std140Writer := by kernel_rfl
  have h5 : expanded [Source.std430Traits] = Parsed.std430Traits := by kernel_rfl
  have h6 : expanded [Source.std430Sizer] = Parsed.std430Sizer := by kernel_rfl
  have h7 : expanded [Source.std430Writer] = Parsed.std430Writer := by kernel_rfl
  have h8 : expanded [Source.bool] = Parsed.bool := by kernel_rfl
  have h9 : expanded [Source.glsl] = Parsed.glsl := by kernel_rfl
  have h10 : expanded [Source.internal] = Parsed.internal := by kernel_rfl
  have up : ∀ fs is, (expandFiles fs).map (List.map undoc) = some is → expanded fs = is := by
    intro fs is h
    unfold expanded
    cases he : expandFiles fs with
    | none => rw [he] at h; exact absurd h (by simp)
    | some js => rw [he] at h; simpa using h
  unfold crateModules
  rw [h1, h2, h3, h4, h5, h6, h7, h8, h9, h10, up _ _ expand_primitives140, up _ _ expand_primitives430,
    up _ _ expand_imp]
  rfl

/-- The items of the crate, sorted. -/
def ix : Index := indexItems theModules

/-- The names of the structs of a layout. -/
def primNames (l : Layout) : List String := l.vectors.map (·.name) ++ l.matrices.map (·.name)

/-- The names that the modules declare. -/
def theNames : List (String × List String) :=
  [("std140", ["Std140", "AsStd140", "WriteStd140", "DynamicUniform", "DynamicUniformStd140", "Sizer", "Writer"] ++
      primNames .std140),
    ("std430", ["Std430", "AsStd430", "WriteStd430", "Sizer", "Writer"] ++ primNames .std430),
    ("bool", ["Bool"]),
    ("glsl", ["Glsl", "GlslField", "GlslStruct"]),
    ("internal", ["align_offset", "max", "max_arr"]),
    ("imp", [])]

theorem ix_names : ix.names = theNames := by kernel_rfl

/-- The parameter of `from_stdN` in the implementation for all `T: StdN`. -/
def blanketParam : Layout → String
  | .std140 => "x"
  | .std430 => "value"

/-- `impl<T: StdN> AsStdN for T`. -/
def blanketDef (l : Layout) : ImplDef :=
  { module := mod l, traitArgs := [], params := ["T"]
    bounds := [(ty "T", []), (ty "T", [ty (stdTrait l)])], self := ty "T"
    items := [.type "Output" (some (ty "Self")),
      .fn ⟨asName l, none', .ref, [], ty "Self", some (.block [] (.deref (.var "self")))⟩,
      .fn ⟨fromName l, none', .static, [(blanketParam l, ty "Self")], ty "Self", some (.block [] (.var (blanketParam l)))⟩] }

/-- `impl<T: AsStd140> AsStd140 for DynamicUniform<T>`. -/
def dynamicDef : ImplDef :=
  { module := "std140", traitArgs := [], params := ["T"]
    bounds := [(ty "T", [ty "AsStd140"])], self := .path ["DynamicUniform"] [ty "T"]
    items := [.type "Output" (some (.path ["DynamicUniformStd140"] [.proj (ty "T") (ty "AsStd140") ["Output"]])),
      .fn (asFn .std140 (.block [] (.call (.var "DynamicUniformStd140") [.method (.field (.var "self") "0") "as_std140" []]))),
      .fn (fromFn .std140 "value" (.block [] (.call (.var "DynamicUniform")
        [.call (.path (.proj (ty "T") (ty "AsStd140") ["from_std140"])) [.field (.var "value") "0"]])))] }

/-- An implementation without parameters. -/
def plainDef (m : String) (self : RustCode.Ty) (items : List Assoc) : ImplDef :=
  { module := m, traitArgs := [], params := [], bounds := [], self := self, items := items }

/-- `impl AsStdN for bool`. -/
def boolDef (l : Layout) : ImplDef :=
  plainDef (mod l) (ty "bool") [.type "Output" (some (ty "Bool")),
        .fn (asFn l (.block [] (.method (.deref (.var "self")) "into" []))),
        .fn (fromFn l "val" (.block [] (.method (.var "val") "into" [])))]

/-- The associated items of an implementation by `easy_impl!`. -/
def easyAssoc (l : Layout) (stdName : String) (fields : List String) : List Assoc :=
  [.type "Output" (some (inMod l stdName)), .fn (asFn l (easyAs l stdName fields)),
      .fn (fromFn l "value" (easyFrom l fields))]

/-- A row of `easy_impl!`. -/
def easyDef (l : Layout) (r : EasyRow) : ImplDef :=
  plainDef "imp" (mathRustTy r.ty) (easyAssoc l r.stdName r.fields)

/-- The associated items of an implementation by `minty_impl!`. -/
def mintyAssoc (l : Layout) (mint : RustCode.Ty) : List Assoc :=
  [.type "Output" (some (.proj mint (inMod l (asTrait l)) ["Output"])),
      .fn (asFn l (.block [.bind false "mint" mint (.method (.deref (.var "self")) "into" [])]
        (.method (.var "mint") (asName l) []))),
      .fn (fromFn l "value" (.block [] (.method (.call (.path (.proj mint .unit [fromName l])) [.var "value"]) "into" [])))]

/-- A row of `minty_impl!`. -/
def mintyDef (l : Layout) (r : MintyRow) : ImplDef :=
  plainDef "imp" (foreignRustTy r.foreign) (mintyAssoc l (mathRustTy r.mint))

/-- The implementations of `AsStdN`. -/
def asDefs (l : Layout) : List ImplDef :=
  [blanketDef l] ++ (match l with | .std140 => [dynamicDef] | .std430 => []) ++ [boolDef l] ++
    easyRows.map (easyDef l) ++ mintyRows.map (mintyDef l)

/-- `const ALIGNMENT: usize = n;` -/
def alignDef (l : Layout) (t : String) (n : Nat) : ImplDef :=
  plainDef (mod l) (ty t) [.const "ALIGNMENT" (ty "usize") (some (.num n ""))]

/-- `impl<T: Std140> Std140 for DynamicUniformStd140<T>`. -/
def dynamicStdDef : ImplDef :=
  { module := "std140", traitArgs := [], params := ["T"]
    bounds := [(ty "T", [ty "Std140"])], self := .path ["DynamicUniformStd140"] [ty "T"]
    items := [.const "ALIGNMENT" (ty "usize")
      (some (.call (.var "max") [.num 256 "", .path (.path ["T", "ALIGNMENT"] [])]))] }

/-- The implementations of `StdN`. -/
def stdDefs (l : Layout) : List ImplDef :=
  (match l with | .std140 => [dynamicStdDef] | .std430 => []) ++
    [alignDef l "f32" 4, alignDef l "f64" 8, alignDef l "i32" 4, alignDef l "u32" 4, alignDef l "Bool" 4] ++
    l.vectors.map (fun r => alignDef l r.name r.align) ++ l.matrices.map (fun r => alignDef l r.name r.align)

/-- `unsafe impl<T: Tr> Tr for DynamicUniformStd140<T> {}`. -/
def dynamicPodDef (t : String) : ImplDef :=
  { module := "std140", traitArgs := [], params := ["T"]
    bounds := [(ty "T", [ty t])], self := .path ["DynamicUniformStd140"] [ty "T"], items := [] }

/-- The implementations of `Zeroable` and `Pod`. -/
def podDefs (t : String) : List ImplDef :=
  [dynamicPodDef t] ++ (primNames .std140).map (fun n => plainDef "std140" (ty n) []) ++
    (primNames .std430).map (fun n => plainDef "std430" (ty n) []) ++ [plainDef "bool" (ty "Bool") []]

/-- `const NAME: &'static str = ..;` -/
def nameItems (e : Expr) : List Assoc := [.const "NAME" (.ref false (ty "str")) (some e)]

/-- The implementations of `Glsl` for the structs of a layout. -/
def glslPrimDefs (l : Layout) : List ImplDef :=
  (l.vectors.map (fun r => (r.name, r.glsl)) ++ l.matrices.map (fun r => (r.name, r.glsl))).map fun r =>
    plainDef (mod l) (ty r.1) (nameItems (.mac "stringify" [.id r.2]))

/-- The implementations of `Glsl`. -/
def glslDefs : List ImplDef :=
  glslPrimDefs .std140 ++ glslPrimDefs .std430 ++
    [("f32", "float"), ("f64", "double"), ("i32", "int"), ("u32", "uint")].map (fun r =>
      plainDef "glsl" (ty r.1) (nameItems (.str r.2))) ++
    easyRows.map (fun r => plainDef "imp" (mathRustTy r.ty)
      (nameItems (.path (.path ["crate", "std140", r.stdName, "NAME"] [])))) ++
    mintyRows.map (fun r => plainDef "imp" (foreignRustTy r.foreign)
      (nameItems (.path (.proj (mathRustTy r.mint) .unit ["NAME"]))))

/-- The implementations of `From`. -/
def fromDefs : List ImplDef :=
  [{ plainDef "bool" (ty "Bool") [.fn Parsed.bool5_from] with traitArgs := [ty "bool"] },
    { plainDef "bool" (ty "bool") [.fn Parsed.bool6_from] with traitArgs := [ty "Bool"] }]

/-- The implementations of a trait. -/
def implsOf (t : List String) : List ImplDef := ix.impls t

theorem implsOf_as140 : implsOf ["std140", "AsStd140"] = asDefs .std140 := by kernel_rfl

theorem implsOf_as430 : implsOf ["std430", "AsStd430"] = asDefs .std430 := by kernel_rfl

theorem implsOf_std140 : implsOf ["std140", "Std140"] = stdDefs .std140 := by kernel_rfl

theorem implsOf_std430 : implsOf ["std430", "Std430"] = stdDefs .std430 := by kernel_rfl

theorem implsOf_zeroable : implsOf ["Zeroable"] = podDefs "Zeroable" := by kernel_rfl

theorem implsOf_pod : implsOf ["Pod"] = podDefs "Pod" := by kernel_rfl

theorem implsOf_copy : implsOf ["Copy"] = [] := by kernel_rfl

theorem implsOf_clone : implsOf ["Clone"] = [] := by kernel_rfl

theorem implsOf_debug :
    implsOf ["Debug"] = [plainDef "bool" (ty "Bool") [.fn Parsed.bool7_fmt]] := by kernel_rfl

theorem implsOf_glsl : implsOf ["glsl", "Glsl"] = glslDefs := by kernel_rfl

theorem implsOf_from : implsOf ["From"] = fromDefs := by kernel_rfl

/-- A struct of the tables. -/
def primStruct (l : Layout) (partialEq : Bool) (name : String) (fields : List (String × RustCode.Ty)) :
    List String × StructDef :=
  ([mod l, name], { module := mod l, params := [], fields := fields, reprC := true, transparent := false,
                    derives := ["Debug", "Clone", "Copy"] ++ (if partialEq then ["PartialEq"] else []) })

/-- The structs of the tables of a layout. -/
def primStructs (l : Layout) : List (List String × StructDef) :=
  l.vectors.map (fun r => primStruct l (l == .std140) r.name (r.fields.map fun f => (f, ty (primName r.prim)))) ++
    l.matrices.map (fun r => primStruct l false r.name (r.fields.map fun f => (f.1, matField f.2)))

/-- A struct without attributes. -/
def otherStruct (m name : String) (params : List String) (fields : List (String × RustCode.Ty)) :
    List String × StructDef :=
  ([m, name], { module := m, params := params, fields := fields, reprC := false, transparent := false, derives := [] })

/-- The structs of the crate. -/
def theStructs : List (List String × StructDef) :=
  [otherStruct "std140" "DynamicUniform" ["T"] [("0", ty "T")],
    (["std140", "DynamicUniformStd140"], { module := "std140", params := ["T"], fields := [("0", ty "T")], reprC := false,
                                           transparent := true, derives := ["Clone", "Copy"] }),
    otherStruct "std140" "Sizer" [] [("offset", ty "usize")],
    otherStruct "std140" "Writer" ["W"] [("writer", ty "W"), ("offset", ty "usize")]] ++
    primStructs .std140 ++
    [otherStruct "std430" "Sizer" [] [("offset", ty "usize")],
      otherStruct "std430" "Writer" ["W"] [("writer", ty "W"), ("offset", ty "usize")]] ++
    primStructs .std430 ++
    [(["bool", "Bool"], { module := "bool", params := [], fields := [("0", ty "u32")], reprC := false,
                          transparent := true, derives := ["Clone", "Copy", "Eq", "PartialEq"] }),
      otherStruct "glsl" "GlslField" [] [("ty", .ref false (ty "str")), ("name", .ref false (ty "str"))]]

theorem ix_structs : ix.structs = theStructs := by kernel_rfl

/-- The associated items of the traits. -/
def theOwners : List (String × List String) :=
  [("ALIGNMENT", ["std140", "Std140"]), ("as_bytes", ["std140", "Std140"]), ("Output", ["std140", "AsStd140"]),
    ("as_std140", ["std140", "AsStd140"]), ("std140_size_static", ["std140", "AsStd140"]),
    ("from_std140", ["std140", "AsStd140"]), ("write_std140", ["std140", "WriteStd140"]),
    ("std140_size", ["std140", "WriteStd140"]),
    ("ALIGNMENT", ["std430", "Std430"]), ("as_bytes", ["std430", "Std430"]), ("Output", ["std430", "AsStd430"]),
    ("as_std430", ["std430", "AsStd430"]), ("std430_size_static", ["std430", "AsStd430"]),
    ("from_std430", ["std430", "AsStd430"]), ("write_std430", ["std430", "WriteStd430"]),
    ("std430_size", ["std430", "WriteStd430"]),
    ("NAME", ["glsl", "Glsl"]), ("FIELDS", ["glsl", "GlslStruct"]), ("glsl_definition", ["glsl", "GlslStruct"])]

theorem ix_owners : ix.owners = theOwners := by kernel_rfl

/-- The functions of the crate outside of implementations. -/
def theFns : List (List String × Fn) :=
  [(["internal", "align_offset"], Parsed.internal1_align_offset), (["internal", "max"], Parsed.internal2_max),
    (["internal", "max_arr"], Parsed.internal3_max_arr)]

theorem ix_fns : ix.fns = theFns := by kernel_rfl

/-- The items of the crate, sorted, as tables. -/
def jx : Index :=
  { names := theNames
    structs := theStructs
    owners := theOwners
    fns := theFns
    impls := fun t =>
      if t = ["std140", "AsStd140"] then asDefs .std140
      else if t = ["std430", "AsStd430"] then asDefs .std430
      else if t = ["std140", "Std140"] then stdDefs .std140
      else if t = ["std430", "Std430"] then stdDefs .std430
      else if t = ["Zeroable"] then podDefs "Zeroable"
      else if t = ["Pod"] then podDefs "Pod"
      else if t = ["Copy"] then []
      else if t = ["Clone"] then []
      else if t = ["Debug"] then [plainDef "bool" (ty "Bool") [.fn Parsed.bool7_fmt]]
      else if t = ["glsl", "Glsl"] then glslDefs
      else if t = ["From"] then fromDefs
      else implsOf t }

theorem impls_eq : ix.impls = jx.impls := by
  funext t
  show implsOf t = _
  unfold jx
  dsimp only
  split
  · next h => rw [h, implsOf_as140]
  split
  · next h => rw [h, implsOf_as430]
  split
  · next h => rw [h, implsOf_std140]
  split
  · next h => rw [h, implsOf_std430]
  split
  · next h => rw [h, implsOf_zeroable]
  split
  · next h => rw [h, implsOf_pod]
  split
  · next h => rw [h, implsOf_copy]
  split
  · next h => rw [h, implsOf_clone]
  split
  · next h => rw [h, implsOf_debug]
  split
  · next h => rw [h, implsOf_glsl]
  split
  · next h => rw [h, implsOf_from]
  rfl

theorem index_ext {i j : Index} (h1 : i.names = j.names) (h2 : i.structs = j.structs) (h3 : i.owners = j.owners)
    (h4 : i.fns = j.fns) (h5 : i.impls = j.impls) : i = j := by
  cases i
  cases j
  subst h1 h2 h3 h4 h5
  rfl

theorem ix_eq : indexItems crateModules = jx := by
  rw [crateModules_eq]
  exact index_ext ix_names ix_structs ix_owners ix_fns impls_eq

theorem owner_as (l : Layout) (s : Scope) : ownerOf jx s [] (asName l) = some [mod l, asTrait l] := by
  cases l <;> kernel_rfl

theorem owner_from (l : Layout) (s : Scope) : ownerOf jx s [] (fromName l) = some [mod l, asTrait l] := by
  cases l <;> kernel_rfl

theorem owner_name (s : Scope) (p : List String) : ownerOf jx s p "NAME" = some ["glsl", "Glsl"] := by kernel_rfl

end Crevice.Tables
