#!/bin/sh
# Prints the axioms used by every theorem of the manifest (needs a built project).
cd "$(dirname "$0")/../lean" || exit 1
f=$(mktemp /tmp/auditXXXXXX.lean)
{ echo 'import Verif'
  python3 -c "
import json
for c in json.load(open('../MANIFEST.json'))['claims']:
    for t in c['theorems']: print('#print axioms ' + t)"
} > "$f"
lake env lean "$f" | sed 's/.*depends on axioms: //' | sort | uniq -c
rm -f "$f"
