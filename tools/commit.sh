#!/bin/sh
# regenerate Verif.lean, properties, manifest; build; commit
set -e
cd /verif/lean
find Verif -name '*.lean' | sort | sed 's/\.lean$//; s#/#.#g; s/^/import /' > Verif.lean
lake build > /tmp/build.log 2>&1 || { grep -A8 "error" /tmp/build.log | head -40; exit 1; }
python3 ../tools/gen_props.py
python3 ../tools/gen_manifest.py
python3 ../tools/axioms.py
cd .. && git add -A && git commit -qm "$1" && git log --oneline | head -1
