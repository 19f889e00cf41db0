import Verif.Spec.Glsl
/-
Specification: the part of the GLSL grammar that structure definitions use (GLSL 4.60, sections 3.6
"Keywords", 3.7 "Identifiers", 4.1.8 "Structures", 9 "Shading Language Grammar") and how the names
in it are resolved. Written without reference to crevice.
-/
namespace Glsl

/-! ### Lexical structure -/

/-- Characters of identifiers and keywords. -/
def isWordChar (c : Char) : Bool :=
  ('a' ≤ c && c ≤ 'z') || ('A' ≤ c && c ≤ 'Z') || ('0' ≤ c && c ≤ '9') || c == '_'

/-- White space. -/
def isSpace (c : Char) : Bool :=
  c == ' ' || c == '\t' || c == '\n' || c == '\r' || c == '\x0b' || c == '\x0c'

/-- Tokens of structure definitions. `word` is an identifier or a keyword. -/
inductive Token
  | word (s : String)
  | lbrace | rbrace | semicolon
  deriving DecidableEq, Repr

/-- The token made of the word characters read so far (latest first). A word must not start with a
digit. -/
def endWord : List Char → Option (List Token)
  | [] => some []
  | w =>
    match w.reverse with
    | c :: r => if '0' ≤ c && c ≤ '9' then none else some [.word (String.ofList (c :: r))]
    | [] => some []

/-- Split a text into tokens; `w` holds the word characters read so far, latest first. Characters
that are not part of structure definitions are an error. -/
def lexFrom : List Char → List Char → Option (List Token)
  | w, [] => endWord w
  | w, c :: r =>
    if isWordChar c then lexFrom (c :: w) r
    else
      (endWord w).bind fun ts =>
        if isSpace c then (lexFrom [] r).map fun us => ts ++ us
        else if c == '{' then (lexFrom [] r).map fun us => ts ++ .lbrace :: us
        else if c == '}' then (lexFrom [] r).map fun us => ts ++ .rbrace :: us
        else if c == ';' then (lexFrom [] r).map fun us => ts ++ .semicolon :: us
        else none

/-- Tokens of a text. -/
def lex (s : String) : Option (List Token) := lexFrom [] s.toList

/-! ### Keywords -/

/-- The built-in types that have a byte layout, with their spelling. -/
def builtinTypes : List (String × Ty) := [
  ("float", .scalar .float), ("double", .scalar .double), ("int", .scalar .int),
  ("uint", .scalar .uint), ("bool", .scalar .bool),
  ("vec2", .vec .float 2), ("vec3", .vec .float 3), ("vec4", .vec .float 4),
  ("dvec2", .vec .double 2), ("dvec3", .vec .double 3), ("dvec4", .vec .double 4),
  ("ivec2", .vec .int 2), ("ivec3", .vec .int 3), ("ivec4", .vec .int 4),
  ("uvec2", .vec .uint 2), ("uvec3", .vec .uint 3), ("uvec4", .vec .uint 4),
  ("bvec2", .vec .bool 2), ("bvec3", .vec .bool 3), ("bvec4", .vec .bool 4),
  ("mat2", .mat .float 2 2), ("mat3", .mat .float 3 3), ("mat4", .mat .float 4 4),
  ("mat2x2", .mat .float 2 2), ("mat2x3", .mat .float 2 3), ("mat2x4", .mat .float 2 4),
  ("mat3x2", .mat .float 3 2), ("mat3x3", .mat .float 3 3), ("mat3x4", .mat .float 3 4),
  ("mat4x2", .mat .float 4 2), ("mat4x3", .mat .float 4 3), ("mat4x4", .mat .float 4 4),
  ("dmat2", .mat .double 2 2), ("dmat3", .mat .double 3 3), ("dmat4", .mat .double 4 4),
  ("dmat2x2", .mat .double 2 2), ("dmat2x3", .mat .double 2 3), ("dmat2x4", .mat .double 2 4),
  ("dmat3x2", .mat .double 3 2), ("dmat3x3", .mat .double 3 3), ("dmat3x4", .mat .double 3 4),
  ("dmat4x2", .mat .double 4 2), ("dmat4x3", .mat .double 4 3), ("dmat4x4", .mat .double 4 4)]

/-- The type a built-in type name stands for. -/
def builtin (s : String) : Option Ty := builtinTypes.lookup s

/-- The other keywords and the words reserved for future use (GLSL 4.60, section 3.6; image and
sampler types included). -/
def otherKeywords : List String := [
  "const", "uniform", "buffer", "shared", "attribute", "varying", "coherent", "volatile",
  "restrict", "readonly", "writeonly", "atomic_uint", "layout", "centroid", "flat", "smooth",
  "noperspective", "patch", "sample", "invariant", "precise", "break", "continue", "do", "for",
  "while", "switch", "case", "default", "if", "else", "subroutine", "in", "out", "inout", "void",
  "true", "false", "lowp", "mediump", "highp", "precision", "discard", "return", "struct",
  "sampler1D", "sampler1DShadow", "sampler1DArray", "sampler1DArrayShadow", "isampler1D",
  "isampler1DArray", "usampler1D", "usampler1DArray", "sampler2D", "sampler2DShadow",
  "sampler2DArray", "sampler2DArrayShadow", "isampler2D", "isampler2DArray", "usampler2D",
  "usampler2DArray", "sampler2DRect", "sampler2DRectShadow", "isampler2DRect", "usampler2DRect",
  "sampler2DMS", "isampler2DMS", "usampler2DMS", "sampler2DMSArray", "isampler2DMSArray",
  "usampler2DMSArray", "sampler3D", "isampler3D", "usampler3D", "samplerCube",
  "samplerCubeShadow", "isamplerCube", "usamplerCube", "samplerCubeArray",
  "samplerCubeArrayShadow", "isamplerCubeArray", "usamplerCubeArray", "samplerBuffer",
  "isamplerBuffer", "usamplerBuffer", "image1D", "iimage1D", "uimage1D", "image1DArray",
  "iimage1DArray", "uimage1DArray", "image2D", "iimage2D", "uimage2D", "image2DArray",
  "iimage2DArray", "uimage2DArray", "image2DRect", "iimage2DRect", "uimage2DRect", "image2DMS",
  "iimage2DMS", "uimage2DMS", "image2DMSArray", "iimage2DMSArray", "uimage2DMSArray", "image3D",
  "iimage3D", "uimage3D", "imageCube", "iimageCube", "uimageCube", "imageCubeArray",
  "iimageCubeArray", "uimageCubeArray", "imageBuffer", "iimageBuffer", "uimageBuffer",
  "common", "partition", "active", "asm", "class", "union", "enum", "typedef", "template", "this",
  "resource", "goto", "inline", "noinline", "public", "static", "extern", "external", "interface",
  "long", "short", "half", "fixed", "unsigned", "superp", "input", "output", "hvec2", "hvec3",
  "hvec4", "fvec2", "fvec3", "fvec4", "filter", "sizeof", "cast", "namespace", "using",
  "sampler3DRect"]

/-- Words that cannot be identifiers. -/
def isKeyword (s : String) : Bool := (builtin s).isSome || otherKeywords.contains s

/-- The spelling of an identifier: a letter or underscore, then letters, digits and underscores. -/
def wellSpelled (s : String) : Bool :=
  match s.toList with
  | [] => false
  | c :: r => isWordChar c && !('0' ≤ c && c ≤ '9') && r.all isWordChar

/-- A user identifier: well spelled, not a keyword and not in the reserved `gl_` namespace. -/
def isIdentifier (s : String) : Bool :=
  wellSpelled s && !isKeyword s && !("gl_".toList.isPrefixOf s.toList)

/-- A type name: a built-in type or a user identifier. -/
def isTypeName (s : String) : Bool := (builtin s).isSome || isIdentifier s

/-- Any other character that does not end a word of a structure definition: letters of any script,
`#`, … -/
def isNameChar (c : Char) : Bool := !(isSpace c || c == '{' || c == '}' || c == ';')

/-- A name written without white space, braces and semicolons. Every Rust identifier is one,
whatever its script and whether raw or not. -/
def isName (s : String) : Bool := !s.toList.isEmpty && s.toList.all isNameChar

/-! ### Grammar -/

/-- A member declaration `type name;`. -/
structure Member where
  ty : String
  name : String
  deriving DecidableEq, Repr

/-- A structure definition `struct name { members };`. -/
structure StructDecl where
  name : String
  members : List Member
  deriving DecidableEq, Repr

/-- `type name;` zero or more times, then `}`. -/
def parseMembers : List Token → Option (List Member × List Token)
  | .rbrace :: r => some ([], r)
  | .word ty :: .word name :: .semicolon :: r =>
    if isTypeName ty && isIdentifier name then
      (parseMembers r).map fun x => (⟨ty, name⟩ :: x.1, x.2)
    else none
  | _ => none

/-- `struct name { members };`. A structure must have a member. -/
def parseStruct : List Token → Option (StructDecl × List Token)
  | .word kw :: .word name :: .lbrace :: r =>
    if kw = "struct" && isIdentifier name then
      match parseMembers r with
      | some (m :: ms, .semicolon :: r') => some (⟨name, m :: ms⟩, r')
      | _ => none
    else none
  | _ => none

/-- A sequence of structure definitions. `fuel` bounds their number. -/
def parseStructs : Nat → List Token → Option (List StructDecl)
  | _, [] => some []
  | 0, _ => none
  | fuel + 1, ts =>
    match parseStruct ts with
    | some (d, r) => (parseStructs fuel r).map fun ds => d :: ds
    | none => none

/-- Parse a shader text that consists of structure definitions. -/
def parse (s : String) : Option (List StructDecl) :=
  (lex s).bind fun ts => parseStructs ts.length ts

/-! ### Name resolution -/

/-- The type a type name stands for, given the structures defined so far. -/
def resolveName (env : List (String × Ty)) (s : String) : Option Ty :=
  match builtin s with
  | some t => some t
  | none => env.lookup s

/-- The members of a structure with their types. Member names must be distinct. -/
def resolveMembers (env : List (String × Ty)) : List Member → Option (List (String × Ty))
  | [] => some []
  | m :: r =>
    (resolveName env m.ty).bind fun t => (resolveMembers env r).map fun ts => (m.name, t) :: ts

/-- Process structure definitions in order: a structure may use those defined before it, and may
not be defined twice. Returns all structures, latest first. -/
def resolveDecls (env : List (String × Ty)) : List StructDecl → Option (List (String × Ty))
  | [] => some env
  | d :: r =>
    if (env.lookup d.name).isNone && decide ((d.members.map Member.name).Nodup) then
      (resolveMembers env d.members).bind fun ms =>
        resolveDecls ((d.name, .struct d.name ms) :: env) r
    else none

/-- The structures a shader text defines. -/
def definitions (s : String) : Option (List (String × Ty)) :=
  (parse s).bind fun ds => resolveDecls [] ds

/-- A shader text made of pieces, each followed by `sep`. -/
def shaderText (sep : String) (texts : List String) : String :=
  texts.foldr (fun t acc => t ++ sep ++ acc) ""

end Glsl
