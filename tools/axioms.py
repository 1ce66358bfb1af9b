"""Write AXIOMS.txt: the axioms every theorem named in MANIFEST.json depends on.

Run after `lake build`:  python3 tools/axioms.py
"""
import json, os, re, subprocess, tempfile
root = os.path.dirname(os.path.dirname(os.path.abspath(__file__)))
names = []
for c in json.load(open(root + "/MANIFEST.json"))["claims"]:
    for t in c["theorems"]:
        if t not in names:
            names.append(t)
with tempfile.NamedTemporaryFile("w", suffix=".lean", delete=False) as f:
    f.write("import Verif\nopen Verif\n" + "".join(f"#print axioms {n}\n" for n in names))
out = subprocess.run(["lake", "env", "lean", f.name], cwd=root + "/lean", capture_output=True, text=True).stdout
os.unlink(f.name)
groups = {}
for m in re.finditer(r"'([^']+?'?)' (?:depends on axioms: \[([^\]]*)\]|does not depend on any axioms)", out):
    groups.setdefault(re.sub(r"\s+", " ", m.group(2) or "none"), []).append(m.group(1))
n = sum(len(v) for v in groups.values())
assert n == len(names), (n, len(names))
with open(root + "/AXIOMS.txt", "w") as f:
    f.write(f"Output of #print axioms for the {n} theorems named in MANIFEST.json, by set of axioms.\n")
    for k in sorted(groups, key=lambda k: len(groups[k])):
        f.write(f"\n[{k}] ({len(groups[k])})\n" + "".join(f"  {t}\n" for t in groups[k]))
