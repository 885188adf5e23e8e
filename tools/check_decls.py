"""Compare the PARAMS declarations in /repo (parsed as text) with lean/Verif/Decls.lean."""
import ast, glob, os, re, sys
REPO = os.environ.get("REPO", "/repo") + "/src/pygmm"
LEAN = os.path.join(os.path.dirname(__file__), "../lean/Verif/Decls.lean")
src = open(LEAN).read()
defs = {}
for m in re.finditer(r"def (\w+) : List Param :=\n\s*\[(.*?)\]\n\n", src, re.S):
    body = re.sub(r"\s+", " ", m[2])
    items = []
    for t in re.finditer(r'(numP|catP|boolP) "(\w+)" (true|false)((?:(?!, (?:numP|catP|boolP) ).)*)', body):
        kind, name, req, rest = t.groups()
        toks = re.findall(r'\[[^\]]*\]|\(some [^)]*\)|\(\.\w+ [^)]*\)|none', rest)
        lo = hi = default = None; opts = None
        def val(s):
            m = re.match(r'\(some ([\d.]+)\)', s)
            if m: return float(m[1])
            m = re.match(r'\(\.num ([\d.]+)\)', s)
            if m: return float(m[1])
            m = re.match(r'\(\.str "([^"]*)"\)', s)
            if m: return m[1]
            m = re.match(r'\(\.bool (\w+)\)', s)
            if m: return m[1] == "true"
            assert s == "none", s
        if kind == "numP":
            v = [val(x) for x in toks] + [None] * 3
            lo, hi, default = v[:3]
        elif kind == "catP":
            opts = re.findall(r'"([^"]*)"', toks[0])
            default = val(toks[1]) if len(toks) > 1 else None
        else:
            opts = [True, False]; default = val(toks[0]) if toks else None
        items.append((name, req == "true", lo, hi, opts, default))
    defs[m[1]] = items
names = dict(re.findall(r'\("(\w+)", (\w+)\)', src))
bad = 0; seen = set()
for f in sorted(glob.glob(REPO + "/*.py")):
    for node in ast.parse(open(f).read()).body:
        if not isinstance(node, ast.ClassDef): continue
        for st in node.body:
            tgt = st.targets[0] if isinstance(st, ast.Assign) else getattr(st, "target", None)
            if getattr(tgt, "id", None) != "PARAMS": continue
            if not st.value.elts: continue
            got = []
            for call in st.value.elts:
                kind = call.func.attr if isinstance(call.func, ast.Attribute) else call.func.id
                pos = [ast.literal_eval(a) for a in call.args]
                kw = {k.arg: ast.literal_eval(k.value) for k in call.keywords}
                sig = (["name","required","min_","max_","default"] if kind == "NumericParameter"
                       else ["name","required","options","default"])
                d = dict(zip(sig, pos)); d.update(kw)
                num = lambda x: float(x) if isinstance(x, (int, float)) and not isinstance(x, bool) else x
                got.append((d["name"], d.get("required", False), num(d.get("min_")), num(d.get("max_")),
                            d.get("options"), num(d.get("default"))))
            seen.add(node.name)
            want = defs.get(names.get(node.name))
            if got != want:
                bad += 1; print("DIFF", node.name); print(" repo", got); print(" lean", want)
if set(names) - seen: print("not found in repo:", set(names) - seen); bad += 1
if seen - set(names): print("not in Decls.all:", seen - set(names)); bad += 1
print(len(seen), "classes compared,", bad, "differences"); sys.exit(bad != 0)
