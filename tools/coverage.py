"""List the non-test functions of /repo whose lines no model definition cites."""
import os, re, sys
repo = sys.argv[1] if len(sys.argv) > 1 else "/repo"
here = os.path.dirname(os.path.abspath(__file__))
lean = os.path.join(here, "..", "lean", "Verif")
text = ""
for d, _, fs in os.walk(lean):
    for f in fs:
        if f.endswith(".lean"):
            text += open(os.path.join(d, f)).read() + "\n"
cites = {}
# "file.rs:12-34, 56, 78-90"
for m in re.finditer(r"([a-z_0-9]+)\.rs[:`\s(]*((?:\d+(?:-\d+)?)(?:(?:,|\s+and|\s)\s*(?:`[^`]*`[,\s]*)?\d+(?:-\d+)?)*)", text):
    for a in re.finditer(r"(\d+)(?:-(\d+))?", m.group(2)):
        lo = int(a.group(1)); hi = int(a.group(2) or lo)
        cites.setdefault(m.group(1), []).append((lo, hi))
miss = tot = 0
for d, _, fs in sorted(os.walk(repo)):
    if "/target" in d or "/.git" in d: continue
    for f in sorted(fs):
        if not f.endswith(".rs"): continue
        path = os.path.join(d, f)
        lines = open(path).read().split("\n")
        end = len(lines)
        for i, l in enumerate(lines):
            if re.match(r"\s*#\[cfg\(test\)\]", l) or re.match(r"\s*mod tests? \{", l):
                end = i; break
        for i, l in enumerate(lines[:end]):
            if re.match(r"\s*//", l): continue
            m = re.match(r"\s*(pub(\([a-z]+\))? )?(const )?(unsafe )?fn (\w+)", l)
            if m:
                tot += 1
                c = cites.get(f[:-3], [])
                if not any(lo <= i + 1 <= hi or lo <= i + 2 <= hi for lo, hi in c):
                    miss += 1
                    print("%s:%d %s" % (os.path.relpath(path, repo), i + 1, l.strip()))
print(miss, "of", tot)
