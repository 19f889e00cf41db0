import Verif.Model.Tokens
import Verif.Model.Glsl
/-
What rustc makes of the items a derive macro produces: const evaluation, types, and the trait
implementations. The items are syntax trees of `Spec/RustSyntax.lean`; spliced types are given by
their `AsStdN` implementation. Everything the generated code may refer to is here: the functions
of `src/internal.rs`, `core::mem::size_of`, bytemuck's `Zeroable::zeroed`, the traits `StdN` and
`AsStdN`. Anything else is `none`: such a program does not compile, or is outside this model.
-/
namespace Crevice.Expand
open RustSyntax

/-! ### Names the generated code refers to -/

/-- `::crevice::stdN::StdN` (`std140/traits.rs:12`, `std430/traits.rs:12`). -/
def stdTrait (l : Layout) : Path := ⟨true, ["crevice", l.modName, l.traitName]⟩

/-- `::crevice::stdN::AsStdN` (`std140/traits.rs:74`, `std430/traits.rs:74`). -/
def asStdTrait : Layout → Path
  | .std140 => ⟨true, ["crevice", "std140", "AsStd140"]⟩
  | .std430 => ⟨true, ["crevice", "std430", "AsStd430"]⟩

/-- `as_stdN` (`std140/traits.rs:79`). -/
def asStdMethod : Layout → String
  | .std140 => "as_std140"
  | .std430 => "as_std430"

/-- `from_stdN` (`std140/traits.rs:88`). -/
def fromStdMethod : Layout → String
  | .std140 => "from_std140"
  | .std430 => "from_std430"

/-- bytemuck's traits, by the path under which crevice exports them (`src/internal.rs:3`). -/
def bytemuckTrait (name : String) : Path := ⟨true, ["crevice", "internal", "bytemuck", name]⟩

/-! ### Constants and types -/

/-- Values of constant expressions: `usize`, `[usize; N]`. -/
inductive CVal
  | num (n : Nat)
  | arr (ns : List Nat)

/-- As a number. -/
def CVal.toNum : CVal → Option Nat
  | .num n => some n
  | .arr _ => none

/-- Calling a function of `src/internal.rs:7-40`, or a function without arguments of the crate. -/
def applyFn (call : String → Option Nat) (p : Path) (args : List CVal) : Option CVal :=
  if p = ⟨true, ["crevice", "internal", "align_offset"]⟩ then
    match args with
    | [.num a, .num b] => some (.num (alignOffset a b))
    | _ => none
  else if p = ⟨true, ["crevice", "internal", "max_arr"]⟩ then
    match args with
    | [.arr ns] => some (.num (maxArr ns))
    | _ => none
  else
    match p.global, p.segments, args with
    | false, [f], [] => (call f).map .num
    | _, _, _ => none

/-- `<T as AsStdN>::Output`: the implementation the type comes from. -/
def outputOf (l : Layout) : TyExpr Impl → Option Impl
  | .proj (.spliced i) p n => if p = asStdTrait l ∧ n = "Output" then some i else none
  | _ => none

/-- Whether a path is the name `s`. -/
def isName (p : Path) (s : String) : Bool := p = ⟨false, [s]⟩

/-- Whether a type is the path `ss`, without arguments. -/
def isPath {α : Type} : TyExpr α → List String → Bool
  | .path p args, ss => decide (p = ⟨false, ss⟩) && args.isEmpty
  | _, _ => false

/-- A local variable hides the function of the same name. -/
def hidden (vars : List (String × Nat)) (p : Path) : Bool :=
  match p.global, p.segments with
  | false, [x] => (vars.lookup x).isSome
  | _, _ => false

mutual
/-- Constant expressions, given the values of local variables and of the crate's const functions. -/
def evalConst (tg : Target) (l : Layout) (call : String → Option Nat) (vars : List (String × Nat)) :
    Expr Impl → Option CVal
  | .int n suffix => if suffix = "usize" then some (.num n) else none
  | .path p =>
    match p.global, p.segments with
    | false, [x] => (vars.lookup x).map .num
    | _, _ => none
  | .assoc t p n =>
    if p = stdTrait l ∧ n = "ALIGNMENT" then (outputOf l t).map fun i => .num i.alignment else none
  | .call (.generic p t) [] =>
    if p = ⟨true, ["core", "mem", "size_of"]⟩ then
      (evalTy tg l call vars t).map fun t => .num (t.size tg)
    else none
  | .call (.path p) args =>
    if hidden vars p then none
    else (evalConsts tg l call vars args).bind fun vs => applyFn call p vs
  | .add a b =>
    (evalConst tg l call vars a).bind fun x => x.toNum.bind fun x =>
      (evalConst tg l call vars b).bind fun y => y.toNum.map fun y => .num (x + y)
  | .array es =>
    (evalConsts tg l call vars es).bind fun vs => (vs.mapM CVal.toNum).map .arr
  | _ => none
/-- One after the other. -/
def evalConsts (tg : Target) (l : Layout) (call : String → Option Nat) (vars : List (String × Nat)) :
    List (Expr Impl) → Option (List CVal)
  | [] => some []
  | e :: es =>
    (evalConst tg l call vars e).bind fun x =>
      (evalConsts tg l call vars es).map fun xs => x :: xs
/-- Types of fields. -/
def evalTy (tg : Target) (l : Layout) (call : String → Option Nat) (vars : List (String × Nat)) :
    TyExpr Impl → Option RTy
  | .path p args => if isName p "u8" ∧ args = [] then some (.scalar .u8) else none
  | .array t e =>
    (evalTy tg l call vars t).bind fun t =>
      (evalConst tg l call vars e).bind fun n => n.toNum.map fun n => .array t n
  | t => (outputOf l t).map fun i => i.out
end

/-- The `let`s of a function body. -/
def evalLets (tg : Target) (l : Layout) (call : String → Option Nat) :
    List (String × Nat) → List (String × Expr Impl) → Option (List (String × Nat))
  | vars, [] => some vars
  | vars, (x, e) :: r =>
    (evalConst tg l call vars e).bind fun v => v.toNum.bind fun n =>
      evalLets tg l call ((x, n) :: vars) r

/-- The body of a const fn without parameters that returns `usize`. -/
def evalBody (tg : Target) (l : Layout) (call : String → Option Nat) (f : Fn Impl) : Option Nat :=
  match f.const, f.params with
  | true, [] =>
    if isPath f.ret ["usize"] then
      (evalLets tg l call [] f.lets).bind fun vars =>
        (evalConst tg l call vars f.value).bind CVal.toNum
    else none
  | _, _ => none

/-- Calling a const fn by name, with a bound on the depth of calls. -/
def callFn (tg : Target) (l : Layout) (fns : List (String × Fn Impl)) : Nat → String → Option Nat
  | 0, _ => none
  | depth + 1, f => (fns.lookup f).bind fun f => evalBody tg l (callFn tg l fns depth) f

/-! ### Items -/

/-- The functions among the items, by name. -/
def functions (is : List (Item Impl)) : List (String × Fn Impl) :=
  is.filterMap fun i =>
    match i with
    | .fn f => some (f.name, f)
    | _ => none

/-- `struct name`: attributes, parameters and fields. -/
def findStruct (is : List (Item Impl)) (name : String) :
    Option (List (List (Tok Impl)) × List String × List (Field Impl)) :=
  is.findSome? fun i =>
    match i with
    | .struct as _ n gs fs => if n = name then some (as, gs, fs) else none
    | _ => none

/-- `impl<params> trait for name<args>`, with as many arguments as `name` has parameters, all of them
declared; an unsafe trait takes an `unsafe impl`. -/
def findImpl {α : Type} (is : List (Item α)) (unsafety : Bool) (tr : Path) (name : String)
    (arity : Nat) : Option (List (Assoc α)) :=
  is.findSome? fun i =>
    match i with
    | .impl u params (some p) (.path q args) as =>
      if u = unsafety ∧ p = tr ∧ isName q name ∧ args.length = arity ∧ ∀ a ∈ args, a ∈ params then
        some as
      else none
    | _ => none

/-- `type name = ..` of an impl. -/
def assocType (as : List (Assoc Impl)) (name : String) : Option (TyExpr Impl) :=
  as.findSome? fun a =>
    match a with
    | .type n t => if n = name then some t else none
    | _ => none

/-- `const name: .. = ..` of an impl, with a type that is `ok`. -/
def assocConst {α : Type} (as : List (Assoc α)) (name : String) (ok : TyExpr α → Bool) :
    Option (Expr α) :=
  as.findSome? fun a =>
    match a with
    | .const n t e => if n = name ∧ ok t then some e else none
    | _ => none

/-- `fn name` of an impl. -/
def assocFn (as : List (Assoc Impl)) (name : String) : Option (Fn Impl) :=
  as.findSome? fun a =>
    match a with
    | .fn f => if f.name = name then some f else none
    | _ => none

/-- `#[repr(C)]`. -/
def isReprC : List (Tok Impl) → Bool
  | [.ident a, .punct .lparen, .ident b, .punct .rparen] => a = "repr" && b = "C"
  | _ => false

/-- Whether an attribute derives the trait. -/
def derives (name : String) : List (Tok Impl) → Bool
  | .ident a :: .punct .lparen :: r =>
    a = "derive" && r.any fun t =>
      match t with
      | .ident b => b = name
      | _ => false
  | _ => false

/-- Whether the type of a field implements `Debug`. -/
def hasDebug (l : Layout) : TyExpr Impl → Bool
  | .path p _ => isName p "u8"
  | .array t _ => hasDebug l t
  | t => ((outputOf l t).map fun i => i.outDebug).getD false

/-- The struct to which the derive is applied. -/
structure Source where
  name : String
  params : List String
  fields : List (String × Impl)

/-- An initialiser in `as_stdN`: `self.f.as_stdN()`, with the conversion of the type of the field
`f`. -/
def evalAs (l : Layout) (src : Source) (self : RVal) : Expr Impl → Option RVal
  | .method (.field (.path p) f) m [] =>
    if isName p "self" ∧ m = asStdMethod l then
      (self.field f).bind fun x => (src.fields.lookup f).bind fun i => i.asStd x
    else none
  | _ => none

/-- An initialiser of the field `dst` in `from_stdN`: `AsStdN::from_stdN(input.f)`, with the conversion of
the type of the field that is initialised. -/
def evalFrom (l : Layout) (src : Source) (input : RVal) (dst : String) : Expr Impl → Option RVal
  | .call (.path p) [.field (.path q) f] =>
    if p = ⟨true, (asStdTrait l).segments ++ [fromStdMethod l]⟩ ∧ isName q "input" then
      (input.field f).bind fun x => (src.fields.lookup dst).bind fun i => i.fromStd x
    else none
  | _ => none

/-- `fn as_stdN(&self) -> Self::Output { Self::Output { .., ..Zeroable::zeroed() } }`. -/
def runAs (l : Layout) (src : Source) (fs : List (String × RTy)) (f : Fn Impl) (self : RVal) :
    Option RVal :=
  match f.params, f.lets, f.value with
  | [.refSelf], [], .struct p inits (some (.call (.path z) [])) =>
    if p = ⟨false, ["Self", "Output"]⟩ ∧
        z = ⟨true, (bytemuckTrait "Zeroable").segments ++ ["zeroed"]⟩ then
      (inits.mapM fun i => (evalAs l src self i.2).map fun y => (i.1, y)).bind fun inits =>
        structUpdate (fs.map Prod.fst) inits (zeroed (.struct fs))
    else none
  | _, _, _ => none

/-- `fn from_stdN(input: Self::Output) -> Self { Self { .. } }`. -/
def runFrom (l : Layout) (src : Source) (f : Fn Impl) (input : RVal) : Option RVal :=
  match f.params, f.lets, f.value with
  | [.typed x _], [], .struct p inits none =>
    if x = "input" ∧ isName p "Self" then
      (inits.mapM fun i => (evalFrom l src input i.1 i.2).map fun y => (i.1, y)).bind fun inits =>
        structNew (src.fields.map Prod.fst) inits
    else none
  | _, _, _ => none

/-- `fn as_stdN(&self) -> Self::Output`. -/
def asSignature (f : Fn Impl) : Bool :=
  match f.params with
  | [.refSelf] => isPath f.ret ["Self", "Output"]
  | _ => false

/-- `fn from_stdN(value: Self::Output) -> Self`. -/
def fromSignature (f : Fn Impl) : Bool :=
  match f.params with
  | [.typed _ t] => isPath t ["Self", "Output"] && isPath f.ret ["Self"]
  | _ => false

/-- The `AsStdN` implementation that the items give the struct; `none` when they do not compile:

* two functions with the same name; no `impl AsStdN` for the struct, or an incomplete one, or one whose
  methods have another signature;
* an Output that is not a struct among the items, with the right number of generic arguments;
* an Output without `Zeroable`, `Pod`, `StdN`, `Clone` or `Copy`;
* a derive of `Debug` for fields that do not have it; two fields with the same name;
* a constant that cannot be evaluated.

Without `#[repr(C)]` the memory layout would not be determined, which is also `none`. -/
def compile (tg : Target) (l : Layout) (src : Source) (is : List (Item Impl)) : Option Impl :=
  let fns := functions is
  let call := callFn tg l fns fns.length
  if ¬ (fns.map Prod.fst).Nodup then none else
  (findImpl is false (asStdTrait l) src.name src.params.length).bind fun impl =>
  (assocType impl "Output").bind fun output =>
  match output with
  | .path p args =>
    match p.global, p.segments with
    | false, [out] =>
      (findStruct is out).bind fun (attrs, params, fields) =>
      (findImpl is true (bytemuckTrait "Zeroable") out params.length).bind fun _ =>
      (findImpl is true (bytemuckTrait "Pod") out params.length).bind fun _ =>
      (findImpl is true (stdTrait l) out params.length).bind fun std =>
      (assocConst std "ALIGNMENT" (isPath · ["usize"])).bind fun alignment =>
      (assocFn impl (asStdMethod l)).bind fun asFn =>
      (assocFn impl (fromStdMethod l)).bind fun fromFn =>
      (fields.mapM fun f => (evalTy tg l call [] f.ty).map fun t => (f.name, t)).bind fun fs =>
      ((evalConst tg l call [] alignment).bind CVal.toNum).bind fun al =>
        if attrs.any isReprC ∧ attrs.any (derives "Clone") ∧ attrs.any (derives "Copy") ∧
            args.length = params.length ∧ asSignature asFn ∧ fromSignature fromFn ∧
            (fs.map fun f => unraw f.1).Nodup ∧
            (attrs.any (derives "Debug") → ∀ f ∈ fields, hasDebug l f.ty = true) then
          some {
            out := .struct fs
            alignment := al
            outDebug := attrs.any (derives "Debug")
            asStd := runAs l src fs asFn
            fromStd := runFrom l src fromFn }
        else none
    | _, _ => none
  | _ => none

/-! ### `#[derive(GlslStruct)]` -/

/-- `::crevice::glsl::name` (`src/glsl.rs:43,49,61`). -/
def glslItem (name : String) : Path := ⟨true, ["crevice", "glsl", name]⟩

/-- `&'static str`. -/
def isStr : TyExpr Ty → Bool
  | .ref (some a) t => decide (a = "static") && isPath t ["str"]
  | _ => false

/-- `&'static [GlslField]`. -/
def isGlslFields : TyExpr Ty → Bool
  | .ref (some a) (.slice (.path p args)) =>
    decide (a = "static") && decide (p = glslItem "GlslField") && args.isEmpty
  | _ => false

/-- Constant strings: literals and `<T as Glsl>::NAME`. -/
def evalStr : Expr Ty → Option String
  | .str s => some s
  | .assoc (.spliced t) p n => if p = glslItem "Glsl" ∧ n = "NAME" then t.glslName else none
  | _ => none

/-- `GlslField { ty: .., name: .. }` (`src/glsl.rs:49-55`): both fields, in any order. -/
def evalGlslField : Expr Ty → Option GlslField
  | .struct p inits none =>
    if p = glslItem "GlslField" ∧ inits.length = 2 then
      ((inits.lookup "ty").bind evalStr).bind fun ty =>
        ((inits.lookup "name").bind evalStr).map fun name => ⟨ty, name⟩
    else none
  | _ => none

/-- `&[..]`. -/
def evalGlslFields : Expr Ty → Option (List GlslField)
  | .ref (.array es) => es.mapM evalGlslField
  | _ => none

/-- `NAME` and `FIELDS` of the `impl Glsl` and `impl GlslStruct` among the items; both traits are unsafe
(`src/glsl.rs:43-46,61-63`). -/
def compileGlsl (name : String) (arity : Nat) (is : List (Item Ty)) : Option (String × List GlslField) :=
  (findImpl is true (glslItem "Glsl") name arity).bind fun glsl =>
  (findImpl is true (glslItem "GlslStruct") name arity).bind fun glslStruct =>
  ((assocConst glsl "NAME" isStr).bind evalStr).bind fun n =>
  ((assocConst glslStruct "FIELDS" isGlslFields).bind evalGlslFields).map fun fs => (n, fs)

end Crevice.Expand
