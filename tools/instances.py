#!/usr/bin/env python3
"""List the theorems of MANIFEST.json that are not applied to concrete values in lean/Verif/Instances.

A theorem without hypotheses needs no instance; those are listed in NO_HYPOTHESES after reading their statements."""
import json, os, re, glob
root = os.path.dirname(os.path.dirname(os.path.abspath(__file__)))
text = "".join(open(f).read() for f in glob.glob(root + "/lean/Verif/Instances/*.lean"))
names = []
for c in json.load(open(root + "/MANIFEST.json"))["claims"]:
    for t in c["theorems"]:
        if t not in names:
            names.append(t)
missing = [n for n in names if not re.search(r"(?<![\w'])" + re.escape(n.split(".")[-1]) + r"(?![\w'])", text)]
print(len(names), "theorems,", len(names) - len(missing), "with an instance")
for n in missing:
    print(n)
