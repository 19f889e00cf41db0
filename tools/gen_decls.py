#!/usr/bin/env python3
"""Write lean/Verif/Proof/DeclTables.lean: what each module of crevice declares (a table that Lean checks against the text).
Needs the Lean project to be built up to Verif.Spec.TextNames."""
import re, subprocess, tempfile, os
SRC = '''import Verif.Spec.TextNames
open Crevice RustCode
def F (b : Bool) : Features := ⟨b, true, true, true⟩
#eval do
  for m in compiledModules (F true) do
    IO.println s!"@@ {(repr m).pretty 1000000}"
    IO.println s!"T {(repr (declsWith (F true) m)).pretty 1000000}"
    IO.println s!"F {(repr (declsWith (F false) m)).pretty 1000000}"
'''
root = os.path.join(os.path.dirname(os.path.abspath(__file__)), "..", "lean")
with tempfile.NamedTemporaryFile("w", suffix=".lean", delete=False) as f:
    f.write(SRC)
out = subprocess.run(["lake", "env", "lean", f.name], cwd=root, capture_output=True, text=True).stdout
os.unlink(f.name)
mods, cur = [], None
for line in out.splitlines():
    if line.startswith("@@ "):
        cur = [line[3:]]; mods.append(cur)
    elif line[:2] in ("T ", "F "):
        s = line[2:].replace("RustCode.ItemKind", "").replace("RustCode.Decl", "")
        s = re.sub(r"\(\.(struct|trait|fn)\)", r".\1", s)
        body = s[1:-1]
        parts, depth, start, q = [], 0, 0, False
        for i, c in enumerate(body):
            if c == '"': q = not q
            if q: continue
            if c in "([": depth += 1
            if c in ")]": depth -= 1
            if c == "," and depth == 0:
                parts.append(body[start:i].strip()); start = i + 1
        if body[start:].strip(): parts.append(body[start:].strip())
        cur.append(parts)
def fmt(parts, ind):
    lines, cur = [], ""
    for i, p in enumerate(parts):
        t = p + ("," if i + 1 < len(parts) else "")
        if cur and len(ind) + len(cur) + 1 + len(t) > 118:
            lines.append(cur); cur = t
        else:
            cur = (cur + " " + t) if cur else t
    if cur: lines.append(cur)
    return "[" + ("\n " + ind).join(lines) + "]"
w = []
w.append('''import Verif.Spec.TextNames
import Verif.Proof.KernelRfl
/-
What each module of crevice declares, written by `tools/gen_decls.py`; each line is checked against the text of the module.
-/
namespace Crevice.NameProof
open RustCode
''')
def name(m):
    return "root" if m == "[]" else "_".join(re.findall(r'"(\w+)"', m))
for m, t, f in mods:
    n = name(m)
    if m == '["imp"]':
        w.append('/-- `%s` -/\ndef decls_imp (f : Features) : List Decl :=\n  .module false "imp_mint" :: ((if f.cgmath then [.module false "imp_cgmath"] else []) ++\n    ((if f.glam then [.module false "imp_glam"] else []) ++ if f.nalgebra then [.module false "imp_nalgebra"] else []))\n' % m)
        w.append('theorem decls_imp_eq (f : Features) : declsWith f %s = decls_imp f := by\n  obtain ⟨s, a, b, c⟩ := f\n  cases a <;> cases b <;> cases c <;> kernel_rfl\n' % m)
        continue
    if t == f:
        w.append('/-- `%s` -/\ndef decls_%s (_ : Features) : List Decl :=\n  %s\n' % (m, n, fmt(t, "  ")))
    else:
        w.append('/-- `%s` -/\ndef decls_%s (f : Features) : List Decl :=\n  if f.std then\n    %s\n  else\n    %s\n' % (m, n, fmt(t, "    "), fmt(f, "    ")))
    proof = '  kernel_rfl' if t == f else '  obtain ⟨s, a, b, c⟩ := f\n  cases s <;> kernel_rfl'
    w.append('theorem decls_%s_eq (f : Features) : declsWith f %s = decls_%s f := by\n%s\n' % (n, m, n, proof))
w.append('/-- What the modules declare. -/\ndef declTable (f : Features) : List String → List Decl')
for m, t, f in mods:
    w.append('  | %s => decls_%s f' % (m, name(m)))
w.append('  | _ => []\n')
w.append('end Crevice.NameProof')
open(os.path.join(root, "Verif/Proof/DeclTables.lean"), "w").write("\n".join(w) + "\n")
