#!/bin/sh
# Write AXIOMS.txt: the axioms of every theorem in MANIFEST.json.
root=$(cd "$(dirname "$0")/.." && pwd)
tmp=$(mktemp -d)
python3 - "$root" > "$tmp/A.lean" <<'P'
import json, sys
print("import Verif")
for c in json.load(open(sys.argv[1] + "/MANIFEST.json"))["claims"]:
    for t in c["theorems"]: print("#print axioms", t)
P
cd "$root/lean" && lake env lean "$tmp/A.lean" | tr '\n' ' ' | sed "s/ '/\n'/g" | sed 's/  */ /g' > "$root/AXIOMS.txt"
