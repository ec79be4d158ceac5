#!/usr/bin/env python3
"""Append properties (JSON lines on stdin) to properties.jsonl; an existing id is replaced."""
import json, os, sys
root = os.path.dirname(os.path.dirname(os.path.abspath(__file__)))
fn = os.path.join(root, "properties.jsonl")
props = [json.loads(l) for l in open(fn)]
for l in sys.stdin:
    if not l.strip():
        continue
    p = json.loads(l)
    assert set(p) == {"id", "title", "statement", "quantifier", "why_tests_cant", "anchors"}, p
    props = [q for q in props if q["id"] != p["id"]] + [p]
props.sort(key=lambda p: int(p["id"][1:]))
open(fn, "w").write("".join(json.dumps(p) + "\n" for p in props))
