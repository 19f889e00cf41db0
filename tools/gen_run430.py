#!/usr/bin/env python3
"""Write lean/Verif/Proof/Run430.lean from Run140.lean."""
import sys
s=open('/verif/lean/Verif/Proof/Run140.lean').read()
s=s.replace("The functions of `src/std140`, executed. `Proof/Run430.lean` is the same text with 140 replaced by 430.",
 "The functions of `src/std430`, executed. Written by `tools/gen_run430.py` from `Proof/Run140.lean`.")
s=s.replace(" ++\n      Parsed.std140DynamicUniform.dropLast","")
s=s.replace("140","430")
p='/verif/lean/Verif/Proof/Run430.lean'
if "--check" in sys.argv:
    assert open(p).read()==s; print("ok")
else: open(p,'w').write(s)
