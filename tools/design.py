#!/usr/bin/env python3
"""Regenerate the part of DESIGN.md behind the line GENERATED from the comments of the theorems.

tools/axioms.json holds, for each theorem, the axioms printed by `#print axioms`; run with
the argument `axioms` to renew it (the project must be built).
"""
import glob, json, os, re, subprocess, sys
root = os.path.dirname(os.path.dirname(os.path.abspath(__file__)))
man = json.load(open(os.path.join(root, "MANIFEST.json")))["claims"]
props = {}
for l in open(os.path.join(root, "properties.jsonl")):
    p = json.loads(l)
    props[p["id"]] = p
axfile = os.path.join(root, "tools/axioms.json")
if "axioms" in sys.argv[1:]:
    src = "import Verif\n" + "".join("#print axioms %s\n" % t for c in man for t in c["theorems"])
    open("/tmp/axioms.lean", "w").write(src)
    out = subprocess.run(["lake", "env", "lean", "/tmp/axioms.lean"], cwd=os.path.join(root, "lean"), capture_output=True, text=True).stdout
    ax = {}
    for m in re.finditer(r"'([^']+)' (does not depend on any axioms|depends on axioms: \[([^\]]*)\])", out):
        ax[m.group(1)] = sorted(a.strip() for a in (m.group(3) or "").split(",") if a.strip())
    missing = [t for c in man for t in c["theorems"] if t not in ax]
    assert not missing, missing[:10]
    json.dump(ax, open(axfile, "w"), indent=0, sort_keys=True)
ax = json.load(open(axfile))
docs, where, mods = {}, {}, {}
for f in sorted(glob.glob(os.path.join(root, "lean/Verif/Props/**/*.lean"), recursive=True)):
    s = open(f).read()
    name = os.path.relpath(f, os.path.join(root, "lean/Verif"))
    mods[name] = [m for m in re.findall(r"^import Verif\.(Model\.\w+)", s, re.M)]
    for m in re.finditer(r"(?:/--((?:(?!-/).)*?)-/\s*)?(?:set_option [^\n]* in\s*|open [^\n]* in\s*)?^theorem (c\d\d+_\w+)", s, re.M | re.S):
        docs[m.group(2)] = " ".join((m.group(1) or "").split())
        where[m.group(2)] = name
short = {"propext": "p", "Classical.choice": "c", "Quot.sound": "q"}
out = []
for c in man:
    p = props[c["property"]]
    files = sorted({where[t.split(".")[-1]] for t in c["theorems"]})
    out.append("### %s %s (%s)\n" % (c["property"], p["title"], c["status"]))
    out.append("Proofs: " + ", ".join("`%s`" % f for f in files) + ".\n")
    if c["note"]:
        out.append(c["note"] + "\n")
    for t in c["theorems"]:
        a = ax.get(t)
        d = re.sub(r"\*\*C\d+\*\*:?\s*", "", docs.get(t.split(".")[-1], "")).replace("**", "")
        out.append("* `%s` [%s] %s" % (t[len("SeisMIC."):], "?" if a is None else " ".join(short[x] for x in a) or "none", d))
    out.append("")
fn = os.path.join(root, "DESIGN.md")
s = open(fn).read()
i = s.index("<!-- GENERATED -->")
open(fn, "w").write(s[:i] + "<!-- GENERATED -->\n\n" + "\n".join(out))
print(len(man), "properties,", len(ax), "theorems with axioms,", [t for t in docs if not docs[t]])
