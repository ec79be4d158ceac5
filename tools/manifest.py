#!/usr/bin/env python3
"""Regenerate MANIFEST.json from the theorems in lean/Verif/Props.

The theorem cNN_... belongs to property CNN. A property with a theorem named
..._violated or ..._partial is "partial", unless tools/notes.json overrides it.
"""
import glob, json, os, re
root = os.path.dirname(os.path.dirname(os.path.abspath(__file__)))
notes = json.load(open(os.path.join(root, "tools", "notes.json")))
props = [json.loads(l) for l in open(os.path.join(root, "properties.jsonl"))]
thms = {}
docs = {}
for f in sorted(glob.glob(os.path.join(root, "lean/Verif/Props/**/*.lean"), recursive=True)):
    s = open(f).read()
    for m in re.finditer(r"/--((?:(?!-/).)*)-/\s*(?:open \w+ in\s*)?theorem (c\d\d+_\w+_violated)", s, re.S):
        docs[m.group(2)] = re.sub(r"\s+", " ", m.group(1)).replace("**", "").strip()
    space = []
    for m in re.finditer(r"^(?:namespace (\S+)|end (\S+)|theorem (c(\d\d+)_\w+))", s, re.M):
        if m.group(1):
            space.append(m.group(1))
        elif m.group(2):
            if space and space[-1] == m.group(2):
                space.pop()
        else:
            thms.setdefault("C" + m.group(4), []).append(".".join(space + [m.group(3)]))
claims = []
for p in props:
    i = p["id"]
    t = thms.pop(i, [])
    n = notes.get(i, {})
    if not t and "status" not in n:
        print("no theorem yet:", i)
        continue
    if not t:
        st = n["status"]
    elif any(x.endswith("_violated") or x.endswith("_partial") for x in t):
        st = "partial"
    else:
        st = "proved"
    st = n.get("status", st)
    note = n.get("note", "")
    if not note:
        bad = [docs[x.split(".")[-1]] for x in t if x.split(".")[-1] in docs]
        note = ("The code does not satisfy the full statement. " + " ".join(bad)) if bad else ""
    if not note and st == "proved":
        note = "The full statement is proved of the model."
    claims.append({"property": i, "status": st, "theorems": t, "note": note})
assert not thms, thms
json.dump({"claims": claims}, open(os.path.join(root, "MANIFEST.json"), "w"), indent=1)
from collections import Counter
print(Counter(c["status"] for c in claims))
