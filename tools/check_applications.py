#!/usr/bin/env python3
"""Every theorem of the manifest is applied in an example of lean/Verif/Validate/Apply*.lean."""
import json,glob,re
t=set(x.split('.')[-1] for c in json.load(open('/verif/MANIFEST.json'))['claims'] for x in c['theorems'])
s=''.join(open(f).read() for f in glob.glob('/verif/lean/Verif/Validate/Apply*.lean'))
print('missing:',sorted(x for x in t if not re.search(r'\b'+x+r'\b',s)))
