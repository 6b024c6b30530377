#!/bin/sh
# Writes axioms.txt: the axioms every property theorem depends on.
cd "$(dirname "$0")/../lean" || exit 1
t=$(mktemp /tmp/axXXXX.lean)
echo "import Verif" > "$t"
python3 -c "
import json
for c in json.load(open('../MANIFEST.json'))['claims']:
    for n in c['theorems']: print('#print axioms', n)
" >> "$t"
lake env lean "$t" | tr '\n' ' ' | sed "s/ '\(Verif\)/\n'\1/g; s/  */ /g" > ../axioms.txt
echo >> ../axioms.txt
rm -f "$t"
if grep -n "error" ../axioms.txt | grep "lean:"; then echo "names in MANIFEST.json that do not exist"; exit 1; fi
if grep -o "axioms: \[[^]]*\]" ../axioms.txt | grep -vE "axioms: \[(propext|Classical.choice|Quot.sound|, )*\]"; then
  echo "unexpected axioms"; exit 1
fi
grep -c "" ../axioms.txt
