"""Regenerates MANIFEST.json from the theorem names in lean/Verif/Props (run from anywhere)."""
import glob, json, os, re
root = os.path.dirname(os.path.dirname(os.path.abspath(__file__)))
props = [json.loads(l) for l in open(os.path.join(root, "properties.jsonl")) if l.strip()]
notes = json.load(open(os.path.join(root, "tools", "notes.json")))
thms = {}
for f in sorted(glob.glob(os.path.join(root, "lean/Verif/Props/**/*.lean"), recursive=True)):
    for m in re.finditer(r"^theorem (C\d+)_(\S+)", open(f).read(), re.M):
        thms.setdefault(m.group(1), []).append(f"PySwitch.Props.{m.group(1)}_{m.group(2)}")
claims = []
for p in props:
    t = thms.get(p["id"], [])
    if not t:
        print("no theorem:", p["id"])
        continue
    status = "partial" if any(x.endswith("_partial") for x in t) else "proved"
    claims.append({"property": p["id"], "status": status, "theorems": t, "note": notes.get(p["id"], "")})
json.dump({"claims": claims}, open(os.path.join(root, "MANIFEST.json"), "w"), indent=1, ensure_ascii=False)
print(len(claims), "claims,", sum(c["status"] == "proved" for c in claims), "proved")
