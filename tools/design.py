"""Put DESIGN.md and AXIOMS.md together.

DESIGN.md from design.head.md, plan.json, design.tail.md, properties.jsonl and MANIFEST.json.
AXIOMS.md from `#print axioms` of every theorem of MANIFEST.json (needs a finished `lake build`).
"""
import json, os, re, subprocess, tempfile
root = os.path.dirname(os.path.dirname(os.path.abspath(__file__)))
rd = lambda *p: open(os.path.join(root, *p)).read()
props = [json.loads(l) for l in rd("properties.jsonl").splitlines()]
claims = {c["property"]: c for c in json.loads(rd("MANIFEST.json"))["claims"]}
plan = json.loads(rd("tools", "plan.json"))
out = [rd("tools", "design.head.md")]
for p in props:
    i = p["id"]
    c = claims[i]
    s = "* **%s %s** (%s; `%s`) -- %s" % (i, p["title"], c["status"], "`, `".join(p["anchors"]), plan[i])
    if not c["note"].endswith("all parts of the statement, see the theorems.") and c["note"]:
        s += "  *Note:* " + c["note"]
    out.append(s + "\n")
out.append(rd("tools", "design.tail.md"))
open(os.path.join(root, "DESIGN.md"), "w").write("".join(out))
with tempfile.TemporaryDirectory() as d:
    f = os.path.join(d, "Ax.lean")
    open(f, "w").write("import Verif\n" + "".join("#print axioms %s\n" % t for i in claims for t in claims[i]["theorems"]))
    r = subprocess.run(["lake", "env", "lean", f], cwd=os.path.join(root, "lean"), capture_output=True, text=True).stdout
ax = {}
for m in re.finditer(r"'([^']+'?)' (does not depend on any axioms|depends on axioms: \[([^\]]*)\])", r):
    ax[m.group(1)] = re.sub(r"\s+", " ", m.group(3) or "none")
missing = [t for i in claims for t in claims[i]["theorems"] if t not in ax]
bad = [t for t in ax if set(ax[t].split(", ")) - {"none", "propext", "Classical.choice", "Quot.sound"}]
with open(os.path.join(root, "AXIOMS.md"), "w") as o:
    o.write("# Axioms of the property theorems\n\nFrom `#print axioms`, written by `tools/design.py`.\n\n| Theorem | Axioms |\n|---|---|\n")
    for i in claims:
        for t in claims[i]["theorems"]:
            o.write("| `%s` | %s |\n" % (t, ax.get(t, "?")))
print("DESIGN.md", len(props), "properties; AXIOMS.md", len(ax), "theorems; missing", missing, "bad", bad)
