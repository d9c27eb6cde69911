#!/bin/bash
# Write AXIOMS.txt: the axioms of every theorem named in MANIFEST.json.  Run after `lake build`.
cd "$(dirname "$0")/../lean" || exit 1
f=$(mktemp --suffix=.lean)
python3 - > "$f" <<'P'
import json
print("import Verif")
for c in json.load(open('../MANIFEST.json'))['claims']:
    for t in c['theorems']:
        print(f"#print axioms {t}")
P
lake env lean "$f" | tr '\n' ' ' | sed "s/ '/\n'/g" | sed 's/  */ /g; s/ $//' > ../AXIOMS.txt
echo >> ../AXIOMS.txt
rm "$f"
