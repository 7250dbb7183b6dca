#!/bin/sh
# Print the axioms of every theorem named in MANIFEST.json.
cd "$(dirname "$0")/../lean" || exit 1
{ echo 'import Verif'
  python3 -c "
import json
seen=set()
for c in json.load(open('../MANIFEST.json'))['claims']:
    for t in c['theorems']:
        if t not in seen:
            seen.add(t); print('#print axioms', t)"
} > /tmp/Axioms.lean
lake env lean /tmp/Axioms.lean
