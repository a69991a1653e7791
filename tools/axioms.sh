#!/bin/sh
# Prints the axioms of every theorem named in MANIFEST.json to AXIOMS.txt.
cd "$(dirname "$0")/.."
python3 - > /tmp/axioms_check.lean <<'PY'
import json
print('import Verif')
for c in json.load(open('MANIFEST.json'))['claims']:
    for t in c['theorems']:
        print('#print axioms', t)
PY
cd lean && lake env lean /tmp/axioms_check.lean > ../AXIOMS.txt
grep -v -E "propext|Classical.choice|Quot.sound|does not depend" ../AXIOMS.txt || true
