"""Regenerate MANIFEST.json and lean/Verif.lean from the theorem names in lean/Verif/Props.

Every theorem named Cnn_... in Verif/Props belongs to property Cnn; tools/notes.json overrides
status and note.
"""
import json, os, re
root = os.path.dirname(os.path.dirname(os.path.abspath(__file__)))
props = [json.loads(l) for l in open(os.path.join(root, "properties.jsonl"))]
notes = json.load(open(os.path.join(root, "tools", "notes.json")))
thms = {}
pdir = os.path.join(root, "lean", "Verif", "Props")
for fn in sorted(os.listdir(pdir)):
    for line in open(os.path.join(pdir, fn)):
        m = re.match(r"theorem (C\d\d\d?)(_\w*'*)", line)
        if m:
            thms.setdefault(m.group(1), []).append("Cddm." + m.group(1) + m.group(2))
claims = []
for p in props:
    i = p["id"]
    if i not in thms and i not in notes:
        continue
    t = thms.get(i, [])
    status, note = notes.get(i, ["partial" if any(x.endswith("_partial") for x in t) else "proved",
                                 p["title"] + ": all parts of the statement, see the theorems."])
    claims.append({"property": i, "status": status, "theorems": t, "note": note})
json.dump({"claims": claims}, open(os.path.join(root, "MANIFEST.json"), "w"), indent=1)
mods = []
for d, _, fs in os.walk(os.path.join(root, "lean", "Verif")):
    for f in fs:
        if f.endswith(".lean"):
            mods.append(os.path.relpath(os.path.join(d, f), os.path.join(root, "lean"))[:-5].replace("/", "."))
open(os.path.join(root, "lean", "Verif.lean"), "w").write("".join("import %s\n" % m for m in sorted(mods)))
print(len(claims), "claims,", sum(len(c["theorems"]) for c in claims), "theorems; missing:",
      [p["id"] for p in props if p["id"] not in {c["property"] for c in claims}])
