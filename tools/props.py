"""Update or append entries of properties.jsonl: reads a JSON list of (partial) objects on stdin."""
import json, sys
path = "/verif/properties.jsonl"
rows = [json.loads(l) for l in open(path)]
idx = {r["id"]: r for r in rows}
for u in json.load(sys.stdin):
    if u["id"] in idx:
        idx[u["id"]].update(u)
    else:
        for k in ("title", "statement", "quantifier", "why_tests_cant", "anchors"):
            assert k in u, (u["id"], k)
        rows.append(u); idx[u["id"]] = u
rows.sort(key=lambda r: int(r["id"][1:]))
open(path, "w").write("".join(json.dumps(r, ensure_ascii=False) + "\n" for r in rows))
