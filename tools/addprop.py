#!/usr/bin/env python3
"""Append or replace properties: reads JSON lines on stdin; "note" goes to notes.json."""
import json, os, sys
root = os.path.dirname(os.path.dirname(os.path.abspath(__file__)))
L = [json.loads(l) for l in open(root + "/properties.jsonl") if l.strip()]
notes = json.load(open(root + "/tools/notes.json"))
for line in sys.stdin:
    if not line.strip():
        continue
    o = json.loads(line)
    if "note" in o:
        notes[o["id"]] = o.pop("note")
    if len(o) == 1:
        continue
    for i, p in enumerate(L):
        if p["id"] == o["id"]:
            p.update(o)
            break
    else:
        L.append(o)
open(root + "/properties.jsonl", "w").write("".join(json.dumps(o) + "\n" for o in L))
json.dump(notes, open(root + "/tools/notes.json", "w"), indent=1, sort_keys=True)
