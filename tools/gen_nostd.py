#!/usr/bin/env python3
"""Write lean/Verif/Proof/RunNoStd.lean: the theorems of Run140.lean and Run430.lean about functions that do not need `std`,
for the library without `std`."""
import re, sys
R = '/verif/lean/Verif/Proof/'
def blocks(f):
    s = open(R + f).read()
    out = {}
    for b in re.split(r'\n\n+', s):
        m = re.search(r'^(?:@\[rust\] )?(?:theorem|def|structure) (\S+)', b, re.M)
        if m:
            for piece in re.split(r'\n(?=@\[rust\] theorem)', b):
                m = re.search(r'^(?:@\[rust\] )?(?:theorem|def|structure) (\S+)', piece, re.M)
                if m: out[m.group(1)] = piece
    return out
FREE = ["find_as_std", "find_alignOffset", "find_max", "IsStd", "call_as_std", "isStd_std", "Converts", "converts_conv", "converts_std",
        "call_sizeStatic", "method_asBytes", "sizerVal", "run_add"]
CLIENT = ["exec_sizeStatic", "exec_asBytes", "exec_asStd", "exec_fromStd", "exec_sizerNew", "typeOf_sizer", "exec_sizerLen",
          "exec_sizerAdd"]
DYN = ["ofNat_max", "const_uniform", "converts_uniform_conv", "call_from_uniform"]
def ns(n, f):
    b = blocks(f)
    find = [x for x in FREE if x.startswith("find_")]
    free = [x for x in FREE if not x.startswith("find_")]
    dyn = " ++\n      Parsed.std140DynamicUniform.dropLast" if n == 140 else ""
    s = f'''namespace RustCode.N{n}
open Crevice

/-- The library without `std` with its items in parsed form. -/
def lib : Program :=
  {{ items := Parsed.internal ++ Parsed.std{n}Sizer ++ (Parsed.std{n}Traits.drop 2).take 5{dyn}
    convTraits := ["AsStd{n}"]
    stdTraits := ["Std{n}"]
    convertName := "as_std{n}"
    restoreName := "from_std{n}" }}

theorem library_no_std (f : Features) (hf : f.std = false) : libraryWith f .std{n} = lib := by
  obtain ⟨s, c, g, n⟩ := f
  cases hf
  kernel_rfl

section
variable {{S : Setting}}

'''
    s += "\n".join(b[x] for x in find) + "\n\nend\n\n" + "\n\n".join(b[x] for x in free)
    s += "\n\nsection Client\nvariable {S : Setting}\n\n" + "\n\n".join(b[x] for x in CLIENT) + "\n\n"
    if n == 140:
        d = blocks("RunDynamic.lean")
        s += "\n\n".join(d[x] for x in DYN) + "\n\n"
    s += f"end Client\n\nend RustCode.N{n}\n"
    return s
t = '''import Verif.Proof.Run430
import Verif.Proof.RunDynamic
/-
The functions of `src/std140` and `src/std430` that do not need the feature `std`, executed in the library without it.
Written by `tools/gen_nostd.py` from `Proof/Run140.lean`, `Proof/Run430.lean` and `Proof/RunDynamic.lean`.
-/

''' + ns(140, "Run140.lean") + "\n" + ns(430, "Run430.lean")
p = R + 'RunNoStd.lean'
if "--check" in sys.argv:
    assert open(p).read() == t; print("ok")
else: open(p, 'w').write(t)
