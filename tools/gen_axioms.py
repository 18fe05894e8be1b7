"""Write AXIOMS.md: the axioms of every theorem named in MANIFEST.json, as printed by Lean. Run after `lake build`."""
import json, os, re, subprocess
here = os.path.dirname(os.path.abspath(__file__))
root = os.path.abspath(os.path.join(here, ".."))
claims = json.load(open(os.path.join(root, "MANIFEST.json")))["claims"]
names = []
for c in claims:
    for t in c["theorems"]:
        if t not in names:
            names.append(t)
src = "import Verif\n" + "".join("#print axioms %s\n" % n for n in names)
path = "/tmp/AxiomsCheck.lean"
open(path, "w").write(src)
out = subprocess.run(["lake", "env", "lean", path], cwd=os.path.join(root, "lean"), capture_output=True, text=True).stdout
out = re.sub(r",\n\s+", ", ", out)
groups = {}
for line in out.splitlines():
    m = re.match(r"'(.*)' depends on axioms: \[(.*)\]", line)
    if m:
        key = ", ".join(sorted(x.strip() for x in m.group(2).split(",")))
        groups.setdefault(key, []).append(m.group(1))
        continue
    m = re.match(r"'(.*)' does not depend on any axioms", line)
    if m:
        groups.setdefault("none", []).append(m.group(1))
assert sum(map(len, groups.values())) == len(names), out[:2000]
with open(os.path.join(root, "AXIOMS.md"), "w") as f:
    f.write("# Axioms of the claimed theorems\n\nMade by `tools/gen_axioms.py` from `#print axioms`.\n")
    for k in sorted(groups):
        f.write("\n## %s\n\n%s\n" % (k, ", ".join("`%s`" % n for n in groups[k])))
print({k: len(v) for k, v in groups.items()})
