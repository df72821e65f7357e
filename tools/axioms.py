#!/usr/bin/env python3
"""Write AXIOMS.md: the axioms of every theorem of MANIFEST.json, as Lean reports them."""
import json, os, re, subprocess
root = os.path.dirname(os.path.dirname(os.path.abspath(__file__)))
claims = json.load(open(root + "/MANIFEST.json"))["claims"]
names = [t for c in claims for t in c["theorems"]]
src = "import Verif\n" + "".join("#print axioms %s\n" % n for n in names)
out = subprocess.run(["lake", "env", "lean", "--stdin"], input=src, text=True, capture_output=True, cwd=root + "/lean").stdout
out = re.sub(r"\n\s+", " ", out)
found = {}
for m in re.finditer(r"'(\S+)' depends on axioms: \[([^\]]*)\]", out):
    found[m.group(1)] = m.group(2)
for m in re.finditer(r"'(\S+)' does not depend on any axioms", out):
    found[m.group(1)] = "none"
missing = [n for n in names if n not in found]
assert not missing, missing
with open(root + "/AXIOMS.md", "w") as f:
    f.write("# Axioms\n\nWhat `#print axioms` reports for the theorems of `MANIFEST.json`; written by `tools/axioms.py`.\n\n")
    f.write("| property | theorem | axioms |\n|---|---|---|\n")
    for c in claims:
        for t in c["theorems"]:
            f.write("| %s | `%s` | %s |\n" % (c["property"], t.replace("NC.Props.", ""), found[t]))
print(len(names), sorted(set(x for v in found.values() for x in v.split(", "))))
