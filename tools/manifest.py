"""Regenerates MANIFEST.json: the theorems named Cxx_... in lean/Verif/Props."""
import json, re, glob, os
here = os.path.dirname(os.path.dirname(os.path.abspath(__file__)))
notes = json.load(open(os.path.join(here, "tools", "notes.json")))
thms = {}
for f in sorted(glob.glob(os.path.join(here, "lean/Verif/Props/*.lean"))):
    ns = []
    for line in open(f):
        m = re.match(r"^namespace\s+(\S+)", line)
        if m: ns.append(m.group(1))
        m = re.match(r"^end\s+(\S+)", line)
        if m and ns and ns[-1] == m.group(1): ns.pop()
        m = re.match(r"^(?:@\[[^\]]*\]\s*)?theorem\s+(C\d\d+_\S+)", line)
        if m:
            thms.setdefault(m.group(1).split("_")[0], []).append(".".join(ns + [m.group(1)]))
claims = []
for line in open(os.path.join(here, "properties.jsonl")):
    i = json.loads(line)["id"]
    n = notes.get(i, {})
    t = thms.get(i, [])
    if not t and n.get("status") != "not_applicable": continue
    st = n.get("status") or ("partial" if any(x.endswith("_partial") for x in t) else "proved")
    claims.append({"property": i, "status": st, "theorems": t, "note": n.get("note", "")})
json.dump({"claims": claims}, open(os.path.join(here, "MANIFEST.json"), "w"), indent=1, ensure_ascii=False)
print(len(claims), "claims", sum(len(c["theorems"]) for c in claims), "theorems")
