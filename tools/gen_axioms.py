#!/usr/bin/env python3
"""Writes AXIOMS.md: what `#print axioms` says of every theorem named in MANIFEST.json (needs a built project)."""
import json, os, re, subprocess, tempfile, collections
root = os.path.dirname(os.path.dirname(os.path.abspath(__file__)))
names = sorted({t for c in json.load(open(root + "/MANIFEST.json"))["claims"] for t in c["theorems"]})
with tempfile.NamedTemporaryFile("w", suffix=".lean", delete=False) as f:
    f.write("import Verif\n" + "".join("#print axioms %s\n" % n for n in names))
out = subprocess.run(["lake", "env", "lean", f.name], cwd=root + "/lean", capture_output=True, text=True).stdout
out = re.sub(r"\s+", " ", out)
res = {}
for m in re.finditer(r"'([^ ]+)' (depends on axioms: \[([^\]]*)\]|does not depend on any axioms)", out):
    res[m.group(1)] = m.group(3) or "none"
groups = collections.defaultdict(list)
for n in names:
    groups[res[n]].append(n)
with open(root + "/AXIOMS.md", "w") as f:
    f.write("# Axioms of every theorem in MANIFEST.json\n\nOutput of `#print axioms`, collected by "
            "`tools/gen_axioms.py`; %d theorems.\n" % len(names))
    for k in sorted(groups, key=lambda k: -len(groups[k])):
        f.write("\n## %s (%d)\n\n" % (k, len(groups[k])) + "".join("* `%s`\n" % n for n in groups[k]))
print({k: len(v) for k, v in groups.items()})
