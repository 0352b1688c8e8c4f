#!/bin/bash
# print the axioms every claimed theorem depends on (needs a finished lake build)
cd "$(dirname "$0")/../lean"
f=$(mktemp /tmp/axXXXX.lean)
echo "import Verif" > $f
python3 -c "
import json
for c in json.load(open('../MANIFEST.json'))['claims']:
    for t in c['theorems']: print('#print axioms', t)" >> $f
lake env lean $f
