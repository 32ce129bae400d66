#!/bin/sh
# Regenerate AXIOMS.md: the axioms that every theorem of MANIFEST.json depends on.
cd "$(dirname "$0")/.." || exit 1
t=$(mktemp -d)
python3 - > "$t/a.lean" <<'PY'
import json
print("import Verif")
for c in json.load(open("MANIFEST.json"))["claims"]:
    for n in c["theorems"]:
        print("#print axioms " + n)
PY
(cd lean && lake env lean "$t/a.lean") > "$t/out" 2>&1
python3 - "$t/out" > AXIOMS.md <<'PY'
import re, sys, collections
txt = re.sub(r"\s+", " ", open(sys.argv[1]).read())
by = collections.OrderedDict()
for n, a in re.findall(r"'([^']+(?:'[^' ]*)?)' (does not depend on any axioms|depends on axioms: \[[^\]]*\])", txt):
    k = "none" if a.startswith("does") else a[len("depends on axioms: ["):-1]
    by.setdefault(k, []).append(n)
print("# Axioms used by the theorems of MANIFEST.json\n")
print("Output of `#print axioms`, regenerated by `tools/axioms.sh`.\n")
for k in sorted(by):
    print("## %s (%d theorems)\n" % (k, len(by[k])))
    print(", ".join("`%s`" % n.replace("Pizza.", "") for n in by[k]) + "\n")
PY
rm -r "$t"
