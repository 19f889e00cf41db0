#!/usr/bin/env python3
"""Regenerate /verif/AXIOMS.md: the axioms each property theorem depends on (asked of Lean)."""
import subprocess, re, tempfile, os
SRC = '''import Lean
import Verif
open Lean Elab Command
run_cmd do
  let env ← getEnv
  for (n, _) in env.constants.map₁.toList do
    if let some idx := env.getModuleIdxFor? n then
      let m := env.header.moduleNames[idx.toNat]!
      if (`Verif).isPrefixOf m then
        if let some (.thmInfo _) := env.find? n then
          if !n.isInternal then
            let ax ← collectAxioms n
            IO.println s!"AX {m} {n} : {ax.toList}"
'''
d = tempfile.mkdtemp()
open(d + '/ax.lean', 'w').write(SRC)
r = subprocess.run(['lake', 'env', 'lean', d + '/ax.lean'], cwd='/verif/lean', capture_output=True, text=True)
rows, total, used = [], 0, {}
for line in r.stdout.splitlines():
    m = re.match(r'AX (\S+) (\S+) : \[(.*)\]', line)
    if not m: continue
    total += 1
    ax = sorted(x.strip() for x in m.group(3).split(',') if x.strip())
    for a in ax: used[a] = used.get(a, 0) + 1
    name = m.group(2).split('.')[-1]
    if re.match(r'C\d\d_', name): rows.append((name, m.group(2), ax))
rows.sort()
with open('/verif/AXIOMS.md', 'w') as f:
    f.write('# Axioms\n\nGenerated by `tools/axioms.py` with `Lean.collectAxioms`.\n\n')
    f.write(f'All {total} theorems of the project together use: ' + ', '.join(f'`{a}` ({n})' for a, n in sorted(used.items())) + '.\n\n')
    f.write('| theorem | axioms |\n|---|---|\n')
    for n, full, ax in rows:
        f.write(f'| `{full}` | {", ".join(ax) if ax else "none"} |\n')
print(total, used, len(rows))
