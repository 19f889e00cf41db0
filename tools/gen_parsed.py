#!/usr/bin/env python3
"""Writes lean/Verif/Source/Parsed*.lean: the syntax trees of the token lists in lean/Verif/Source, as Lean's own run of
`RustCode.parse` prints them, each with the theorem (checked by the kernel) that `parse` returns it."""
import os, re, subprocess, sys
LEAN = os.path.join(os.path.dirname(os.path.abspath(__file__)), '..', 'lean')
MODULES = {'Parsed': (['Internal', 'Bool', 'Glsl'], ['internal', 'bool', 'glsl']),
           'Parsed140': (['Std140'], ['std140Sizer', 'std140Writer', 'std140Traits', 'std140DynamicUniform']),
           'ParsedDerive': (['Derive'], ['deriveLib', 'deriveLayout', 'deriveGlsl']),
           'Parsed430': (['Std430'], ['std430Sizer', 'std430Writer', 'std430Traits'])}
PRINTER = r'''
open RustCode
deriving instance Repr for RustCode.Ty, RustCode.Expr, RustCode.Stmt
deriving instance Repr for RustCode.Generics
deriving instance Repr for RustCode.Fn
deriving instance Repr for RustCode.Assoc
deriving instance Repr for RustCode.Item
def pp {α} [Repr α] (a : α) : String := (repr a).pretty 100
def fnName (file : String) (k : Nat) (f : Fn) : String := s!"{file}{k}_{f.name}"
def assocText (file : String) (k : Nat) : Assoc → String
  | .fn f => s!".fn {fnName file k f}"
  | a => pp a
def assocDefs (file : String) (k : Nat) : Assoc → IO Unit
  | .fn f => IO.println s!"/-- `{f.name}` of item {k}. -/\ndef {fnName file k f} : Fn :=\n{pp f}\n"
  | _ => pure ()
def itemDefs (file : String) (k : Nat) : Item → IO String
  | .fn f => do assocDefs file k (.fn f); return s!".fn {fnName file k f}"
  | .impl g v s as => do
      for a in as do assocDefs file k a
      return s!".impl (\n{pp g}) ({pp v}) ({pp s}) [{", ".intercalate (as.map (assocText file k))}]"
  | .trait n as => do
      for a in as do assocDefs file k a
      return s!".trait \"{n}\" [{", ".intercalate (as.map (assocText file k))}]"
  | i => return pp i
def display (file : String) (ts : List Tok) : IO Unit := do
  match parse ts with
  | none => IO.println "NO PARSE"
  | some is =>
    let mut texts : List String := []
    let mut k := 0
    for i in is do
      texts := texts ++ [← itemDefs file k i]
      k := k + 1
    IO.println s!"/-- The items of `Source.{file}`. -/\ndef {file} : List Item := [\n{",\n".intercalate texts}]\n"
    IO.println s!"/-- They are what the tokens parse to. -/\ntheorem parse_{file} : parse Source.{file} = some {file} := by rfl\n"
'''
for mod, (imports, files) in MODULES.items():
    src = ''.join('import Verif.Source.%s\n' % m for m in imports) + PRINTER + ''.join('#eval display "%s" Source.%s\n' % (f, f) for f in files)
    p = '/tmp/gen_parsed.lean'; open(p, 'w').write(src)
    r = subprocess.run(['lake', 'env', 'lean', p], cwd=LEAN, capture_output=True, text=True)
    if r.returncode or 'NO PARSE' in r.stdout: print(r.stdout[:2000], r.stderr[:2000]); sys.exit(1)
    body = r.stdout.replace('RustCode.Tok.', '.').replace('RustCode.', '')
    body = re.sub(r'\b(Ty|Expr|Stmt|Pat|Receiver|BinOp|Assoc|Item|Kw|Op)\.(?=[a-z])', '.', body)
    out = ''.join('import Verif.Source.%s\n' % m for m in imports)
    out += '/-\nSyntax trees of the source files, written by `tools/gen_parsed.py`.\n-/\nnamespace RustCode.Parsed\nset_option maxRecDepth 100000\n\n' + body + 'end RustCode.Parsed\n'
    open(os.path.join(LEAN, 'Verif', 'Source', mod + '.lean'), 'w').write(out)
