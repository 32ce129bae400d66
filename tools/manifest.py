"""Regenerate MANIFEST.json from the theorem names in lean/Verif/Props and tools/notes.json."""
import glob, json, os, re
root = os.path.dirname(os.path.dirname(os.path.abspath(__file__)))
ids = [json.loads(l)["id"] for l in open(root + "/properties.jsonl") if l.strip()]
notes = json.load(open(root + "/tools/notes.json"))
thms = {i: [] for i in ids}
for f in sorted(glob.glob(root + "/lean/Verif/Props/*.lean")):
    for m in re.finditer(r"^theorem (C\d\d+)_(\S+)", open(f).read(), re.M):
        thms[m.group(1)].append("Pizza.%s_%s" % (m.group(1), m.group(2)))
claims = []
for i in ids:
    ts = thms[i]
    if not ts:
        if i in notes and notes[i].get("status") == "not_applicable":
            claims.append({"property": i, "status": "not_applicable", "theorems": [], "note": notes[i]["note"]})
        continue
    st = "partial" if any(re.search(r"_(partial|fails)(_|$)", t) for t in ts) else "proved"
    n = notes.get(i, {})
    claims.append({"property": i, "status": n.get("status", st), "theorems": ts, "note": n.get("note", "")})
json.dump({"claims": claims}, open(root + "/MANIFEST.json", "w"), indent=1)
from collections import Counter
print(Counter(c["status"] for c in claims), "missing:", [i for i in ids if i not in {c["property"] for c in claims}])
