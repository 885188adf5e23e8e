"""Rewrite the per-property section of DESIGN.md from properties.jsonl and tools/plan.json
("what is modelled | how it is proved")."""
import json
path = "/verif/DESIGN.md"
s = open(path).read()
head = s[:s.index("## Per-property plan")].rstrip()
plan = json.load(open("/verif/tools/plan.json"))
out = ["## Per-property plan", "", "Each entry: what is modelled; how it is proved.", ""]
for l in open("/verif/properties.jsonl"):
    r = json.loads(l)
    m, p = plan[str(int(r["id"][1:]))].split(" | ", 1)
    out.append(f"- **{r['id']}** {r['title']}. Modelled: {m}. Proof: {p}.")
open(path, "w").write(head + "\n\n" + "\n".join(out) + "\n")
