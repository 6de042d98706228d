"""Regenerate MANIFEST.json from the theorem names in lean/Verif/Props and the notes in tools/notes.json."""
import json, os, re, sys
root = os.path.dirname(os.path.dirname(os.path.abspath(__file__)))
props = [json.loads(l)["id"] for l in open(f"{root}/properties.jsonl")]
notes = json.load(open(f"{root}/tools/notes.json"))
found = {}
pdir = f"{root}/lean/Verif/Props"
for f in sorted(os.listdir(pdir)):
    for m in re.finditer(r"^theorem ((C\d+)_\w+'?)", open(f"{pdir}/{f}").read(), re.M):
        found.setdefault(m.group(2), []).append("Ptera." + m.group(1))
claims = []
for p in props:
    ths = found.get(p, [])
    if not ths and p not in notes:
        continue
    n = notes.get(p, {})
    status = n.get("status") or ("partial" if any(t.endswith("_partial") for t in ths) else "proved")
    claims.append({"property": p, "status": status, "theorems": ths, "note": n.get("note", "")})
json.dump({"claims": claims}, open(f"{root}/MANIFEST.json", "w"), indent=1)
print(len(claims), "claims", sum(len(c["theorems"]) for c in claims), "theorems; missing:",
      [p for p in props if p not in found])
unk = [p for p in found if p not in props]
if unk: print("UNKNOWN", unk)
