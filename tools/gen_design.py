"""Fill the results table of DESIGN.md from properties.jsonl and MANIFEST.json."""
import json, os
here = os.path.dirname(os.path.abspath(__file__))
root = os.path.join(here, "..")
props = {p["id"]: p for p in map(json.loads, open(os.path.join(root, "properties.jsonl")))}
claims = json.load(open(os.path.join(root, "MANIFEST.json")))["claims"]
rows = ["| id | property | status | remarks |", "|---|---|---|---|"]
for c in claims:
    rows.append("| %s | %s | %s | %s |" % (c["property"], props[c["property"]]["title"], c["status"], c["note"]))
text = open(os.path.join(here, "DESIGN.in.md")).read().replace("RESULTS\n", "\n".join(rows) + "\n")
open(os.path.join(root, "DESIGN.md"), "w").write(text)
