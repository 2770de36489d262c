#!/bin/sh
# Prints the axioms each theorem of MANIFEST.json depends on.
cd "$(dirname "$0")/../lean" || exit 1
python3 - > /tmp/verif_axioms.lean <<'P'
import json
print("import Verif")
for c in json.load(open('../MANIFEST.json'))['claims']:
    for t in c['theorems']: print("#print axioms", t)
P
lake env lean /tmp/verif_axioms.lean
