#!/usr/bin/env python3
"""Try wrong programs against the theorems.

Usage: seed.py BATCH.json OUT.jsonl

Each entry of the batch edits one model definition in a scratch copy (outside the repository). The scratch copy is
rebuilt; every theorem whose proof breaks is replaced by `sorry`; then the axioms of all manifest theorems are printed.
A manifest theorem that now depends on `sorry` (or no longer exists) counts as failed.
"""
import json, os, re, shutil, subprocess, sys

ROOT = os.environ.get("SEED_ROOT") or os.path.join(os.path.dirname(os.path.abspath(__file__)), "..")
SCR = "/tmp/seed/lean"

DECL = re.compile(r"^(theorem|lemma|def|abbrev|example|instance|structure|inductive|@\[simp\] theorem|private theorem|namespace|end|section|open|variable|/--|/-!|set_option|noncomputable def)")

def fresh():
    subprocess.run(["rm", "-rf", SCR], check=True)
    subprocess.run(["cp", "-a", os.path.join(ROOT, "lean"), SCR], check=True)

def build():
    p = subprocess.run(["lake", "build"], cwd=SCR, capture_output=True, text=True)
    return p.returncode, p.stdout + p.stderr

def sorry_decl(path, line):
    """Replace the proof of the declaration around `line` (1-based) by sorry. Returns its name."""
    L = open(path).read().split("\n")
    i = line - 1
    if L[i].startswith("/--"):  # errors of a whole declaration are reported at its comment
        while i < len(L) - 1 and not re.match(r"^(theorem|example|def|private theorem|@\[)", L[i]):
            i += 1
    while i >= 0 and not re.match(r"^(theorem|lemma|example|@\[simp\] theorem|private theorem|def|abbrev|instance|noncomputable def|@\[.*\] theorem)", L[i]):
        i -= 1
    if i < 0:
        return None
    j = i + 1
    while j < len(L) and not DECL.match(L[j]):
        j += 1
    text = "\n".join(L[i:j])
    head = L[i].split()
    name = head[head.index("theorem") + 1] if "theorem" in head else head[0] + ":" + str(i + 1)
    if L[i].startswith("example"):
        L[i:j] = ["example : True := trivial"] + [""] * (j - i - 1)
    elif "theorem" in head or head[0] == "lemma":
        depth, k, pos = 0, 0, None
        while k < len(text):
            c = text[k]
            if c in "([{⟨":
                depth += 1
            elif c in ")]}⟩":
                depth -= 1
            elif depth == 0 and text.startswith(":=", k) and not re.search(r"let \w+ $", text[:k]):
                pos = k
                break
            elif depth == 0 and text.startswith("\n  | ", k):
                pos = k
                break
            k += 1
        if pos is None:
            return None
        new = text[:pos].rstrip() + " := by sorry"
        n = text.count("\n") - new.count("\n")
        L[i:j] = (new + "\n" * n).split("\n")
    else:
        return "DEF " + name
    open(path, "w").write("\n".join(L))
    return name

def run(entry):
    fresh()
    path = os.path.join(SCR, entry["file"])
    s = open(path).read()
    if s.count(entry["old"]) != 1:
        return {"error": "edit matches %d times" % s.count(entry["old"])}
    open(path, "w").write(s.replace(entry["old"], entry["new"]))
    broken = []
    for _ in range(12):
        code, out = build()
        if code == 0:
            break
        errs = sorted(set((m.group(1), int(m.group(2))) for m in re.finditer(r"error: (Verif/[\w/]+\.lean):(\d+):", out)))
        if not errs:
            return {"error": "build failed: " + out[-400:]}
        done = set()
        for f, l in reversed(errs):
            n = sorry_decl(os.path.join(SCR, f), l)
            if n is None or n.startswith("DEF"):
                return {"error": "cannot neutralise %s:%d (%s)" % (f, l, n)}
            if (f, n) not in done:
                done.add((f, n))
                broken.append(n)
    else:
        return {"error": "did not converge", "broken": broken}
    man = json.load(open(os.path.join(ROOT, "MANIFEST.json")))
    names = [t for c in man["claims"] for t in c["theorems"]]
    q = "import Verif\n" + "\n".join("#print axioms %s" % t for t in names)
    open(os.path.join(SCR, "Q.lean"), "w").write(q)
    p = subprocess.run(["lake", "env", "lean", "Q.lean"], cwd=SCR, capture_output=True, text=True)
    failed = []
    for blk in re.findall(r"'([\w.']+)' depends on axioms: \[([^\]]*)\]", p.stdout):
        if "sorryAx" in blk[1]:
            failed.append(blk[0])
    os.remove(os.path.join(SCR, "Q.lean"))
    return {"broken": broken, "failed": failed}

def main():
    batch = json.load(open(sys.argv[1]))
    with open(sys.argv[2], "a") as out:
        for e in batch:
            r = run(e)
            e2 = dict(e)
            e2.update(r)
            claim = e["claim"].split(":")[0].split(" ")[0]
            if "failed" in r:
                e2["caught"] = any(("." + claim + "_") in t for t in r["failed"])
            out.write(json.dumps(e2) + "\n")
            out.flush()
            print(e["definition"], "|", e["claim"], "|", e2.get("caught", e2.get("error")), len(r.get("failed", [])), flush=True)

main()
