#!/usr/bin/env python3
"""Run the formal model in floating point and compare it with the project's own expected values.

The definitions of lean/Verif (not the theorems) are copied to a scratch directory with the exact real
numbers replaced by doubles, and evaluated on the cases of /repo/tests/data.  This executes the *model*,
never the code in /repo.  It is a test of the model's fidelity and no part of any proof.

usage: tools/conform.py [scratch directory]
"""
import re, os, struct, sys, subprocess

ROOT = os.path.dirname(os.path.dirname(os.path.abspath(__file__)))
LEAN = os.path.join(ROOT, "lean")

PRELUDE = r'''
notation "ℝ" => Float
notation "ℚ" => Float
notation "ℕ" => Nat
notation "ℤ" => Int
axiom floatEq {a b : Float} : a = b
axiom floatNe {a b : Float} : ¬ a = b
instance : DecidableEq Float := fun a b => if a == b then isTrue floatEq else isFalse floatNe
instance : HPow Float Nat Float := ⟨fun a n => Float.pow a n.toFloat⟩

structure F where
  val : Float
  okb : Bool
namespace F
@[reducible] def ok (x : F) : Prop := x.okb = true
instance : Coe Float F := ⟨fun x => ⟨x, true⟩⟩
def ofReal (x : Float) : F := ⟨x, true⟩
def ofRat (x : Float) : F := ⟨x, true⟩
def nan : F := ⟨0.0 / 0.0, false⟩
instance (n : Nat) : OfNat F n := ⟨⟨n.toFloat, true⟩⟩
instance : OfScientific F := ⟨fun m s e => ⟨OfScientific.ofScientific m s e, true⟩⟩
instance : Inhabited F := ⟨nan⟩
instance : Add F := ⟨fun a b => ⟨a.val + b.val, a.okb && b.okb⟩⟩
instance : Sub F := ⟨fun a b => ⟨a.val - b.val, a.okb && b.okb⟩⟩
instance : Mul F := ⟨fun a b => ⟨a.val * b.val, a.okb && b.okb⟩⟩
instance : Neg F := ⟨fun a => ⟨-a.val, a.okb⟩⟩
instance : Div F := ⟨fun a b => ⟨a.val / b.val, a.okb && b.okb && b.val != 0⟩⟩
instance : HPow F Nat F := ⟨fun a n => ⟨Float.pow a.val n.toFloat, a.okb⟩⟩
instance : HPow F F F :=
  ⟨fun a b => ⟨Float.pow a.val b.val, a.okb && b.okb && (0 < a.val || (a.val == 0 && 0 < b.val))⟩⟩
def log (a : F) : F := ⟨Float.log a.val, a.okb && 0 < a.val⟩
def log10 (a : F) : F := ⟨Float.log10 a.val, a.okb && 0 < a.val⟩
def exp (a : F) : F := ⟨Float.exp a.val, a.okb⟩
def sqrt (a : F) : F := ⟨Float.sqrt a.val, a.okb && 0 ≤ a.val⟩
def cosh (a : F) : F := ⟨Float.cosh a.val, a.okb⟩
def tanh (a : F) : F := ⟨Float.tanh a.val, a.okb⟩
def cos (a : F) : F := ⟨Float.cos a.val, a.okb⟩
def sin (a : F) : F := ⟨Float.sin a.val, a.okb⟩
def tan (a : F) : F := ⟨Float.tan a.val, a.okb⟩
def piF : Float := 3.141592653589793
def pi : F := ⟨piF, true⟩
def radians (a : F) : F := ⟨a.val * (piF / 180), a.okb⟩
def abs (a : F) : F := ⟨Float.abs a.val, a.okb⟩
def min (a b : F) : F := ⟨if a.val ≤ b.val then a.val else b.val, a.okb && b.okb⟩
def max (a b : F) : F := ⟨if a.val ≤ b.val then b.val else a.val, a.okb && b.okb⟩
def clip (x lo hi : F) : F := min (max x lo) hi
def iteLe (a b x y : F) : F := let z := if a.val ≤ b.val then x else y; ⟨z.val, a.okb && b.okb && z.okb⟩
def iteLt (a b x y : F) : F := let z := if a.val < b.val then x else y; ⟨z.val, a.okb && b.okb && z.okb⟩
def iteEq (a b x y : F) : F := let z := if a.val == b.val then x else y; ⟨z.val, a.okb && b.okb && z.okb⟩
def sum : List F → F
  | [] => 0
  | a :: l => a + sum l
end F
'''

KEEP = ("def", "structure", "inductive", "instance", "abbrev", "namespace", "section", "end", "open", "variable",
        "class", "deriving", "mutual")
DROP = ("theorem", "lemma", "example", "attribute", "macro", "syntax", "set_option", "local", "scoped", "private",
        "initialize", "register_simp_attr", "elab")


def blocks(src):
    """top-level commands: (keyword, text)"""
    src = re.sub(r"/-.*?-/", "", src, flags=re.S)      # comments and docstrings
    src = re.sub(r"--[^\n]*", "", src)
    out, cur = [], []
    for l in src.split("\n"):
        if l and not l[0].isspace() and re.match(r"[A-Za-z@#]", l):
            if cur:
                out.append("\n".join(cur))
            cur = [l]
        elif cur:
            cur.append(l)
    if cur:
        out.append("\n".join(cur))
    return out


def convert(src):
    res = []
    for b in blocks(src):
        b = re.sub(r"^@\[[^\]]*\]\s*", "", b)
        b = b.replace("noncomputable section", "section")
        b = re.sub(r"^((?:private|noncomputable|protected)\s+)+", "", b)
        if not b.strip():
            continue
        w = re.match(r"\S+", b).group(0)
        if w == "import":
            continue
        if b.startswith("open ") and b.rstrip().endswith(" in"):
            continue
        if b.startswith("open "):
            b = re.sub(r"\b(Filter|Topology|Classical)\b", "", b)
            if b.strip() == "open":
                continue
        if w not in KEEP:
            continue
        m = re.match(r"def (\S+)", b)
        if m and m.group(1) in NO_DEFS:
            continue
        b = b.replace(" := by\n  classical exact", " :=")
        res.append(b.rstrip())
    return "\n\n".join(res)


def deps(mod, seen, order):
    if mod in seen:
        return
    seen.add(mod)
    p = os.path.join(LEAN, mod.replace(".", "/") + ".lean")
    src = open(p).read()
    for m in re.findall(r"^import (Verif\S*)", src, re.M):
        deps(m, seen, order)
    order.append((mod, src))


PATCHES = [
    ("  | bool (b : Bool)\n  | str (s : String)\n\ninductive Lit",
     "  | bool (b : Bool)\n  | str (s : String)\nderiving DecidableEq\n\ninductive Lit"),
    ("def IsClose (a b : ℝ) (atol : ℝ := 1e-8) : Prop := |a - b| ≤ atol + 1e-5 * |b|",
     """def IsClose (a b : ℝ) (atol : ℝ := 1e-8) : Prop := Float.abs (a - b) ≤ atol + 1e-5 * Float.abs b
instance (a b c : ℝ) : Decidable (IsClose a b c) := by unfold IsClose; infer_instance"""),
    ("∃ t ∈ thresholds, IsClose (t : ℝ) energy 1e-3", "(thresholds.any fun t => IsClose (t : ℝ) energy 1e-3)"),
    # matrix algebra: linear systems solved by elimination
    ("def mean (ok : Prop) (p : Point) (u : List Point) : F :=\n  ⟨p.lnPsa + row12 p u ⬝ᵥ ((covar22 u)⁻¹.mulVec (resids u)), ok⟩",
     """def solve (a : List (List Float)) (b : List Float) : List Float := Id.run do
  let n := b.length
  let mut m : Array (Array Float) := ((a.zip b).map fun (r, x) => (r ++ [x]).toArray).toArray
  for k in [0:n] do
    let piv := m[k]![k]!
    m := m.modify k fun r => r.map (· / piv)
    for i in [0:n] do
      if i ≠ k then
        let f := m[i]![k]!
        let rk := m[k]!
        m := m.modify i fun r => (Array.range (n+1)).map fun j => r[j]! - f * rk[j]!
  return (List.range n).map fun i => m[i]![n]!
def dot (a b : List Float) : Float := ((a.zip b).map fun (x, y) => x * y).foldl (· + ·) 0
def inv22 (u : List Point) (x : Fin u.length → Float) : List Float :=
  solve (u.map fun p => u.map fun q => (covar p q).val) (List.ofFn x)
def mean (p : Point) (u : List Point) : F :=
  ⟨p.lnPsa + dot (List.ofFn (row12 p u)) (inv22 u (resids u)), true⟩"""),
    ("def std (ok : Prop) (p : Point) (u : List Point) : F :=\n  F.sqrt ⟨(covar p p).val - row12 p u ⬝ᵥ ((covar22 u)⁻¹.mulVec (col21 p u)), ok⟩",
     """def std (p : Point) (u : List Point) : F :=
  F.sqrt ⟨(covar p p).val - dot (List.ofFn (row12 p u)) (inv22 u (col21 p u)), true⟩"""),
    ("mean (allOk l) p", "mean p"), ("std (allOk l) p", "std p"),
    ("def isIn (v : Val) (l : List Lit) : Prop := ∃ o ∈ l, v.pyEq o.toVal",
     """instance (a b : Val) : Decidable (a.pyEq b) := by
  unfold pyEq; split <;> infer_instance
def isIn (v : Val) (l : List Lit) : Prop := (l.any fun o => v.pyEq o.toVal) = true
instance (v : Val) (l : List Lit) : Decidable (v.isIn l) := by unfold isIn; infer_instance"""),
]
NO_DEFS = {"Passes", "allOk", "covar22", "calcCmsv"}

SKIP = {"Verif.Num", "Verif.Attr", "Verif.Bounds"}


def build(mods, patches=()):
    order, seen = [], set()
    for m in mods:
        deps(m, seen, order)
    parts = [PRELUDE]
    for mod, src in order:
        if mod in SKIP or mod.startswith("Verif.Props."):
            continue
        parts.append("-- " + mod + "\n" + convert(src))
    text = "\n\n".join(parts)
    text = text.replace("Real.log", "Float.log").replace("Real.exp", "Float.exp")
    for a, b in PATCHES + list(patches):
        assert a in text, a
        text = text.replace(a, b)
    return text



# ---------------------------------------------------------------- cases

HARNESS = """
open Lean in
def runPy {α : Type} (p : Py α) (k : α → List (String × List F)) : String :=
  match p.res with
  | .error _ => "ERROR"
  | .ok a => String.intercalate ";" ((k a).map fun (n, l) =>
      n ++ "=" ++ String.intercalate "," (l.map fun x => if x.okb then toString x.val.toBits else "undefined"))
def one (p : Py F) : List F := match p.res with | .ok a => [a] | .error _ => [F.nan]
def many (p : Py (List F)) : List F := match p.res with | .ok a => a | .error _ => [F.nan]
def gmmOut (C : GmmClass) (o : GmmOut) (ts : List Float) : List (String × List F) :=
  [("spec_accels", if ts.isEmpty then many (Gmm.specAccels C o) else ts.map fun t => (one (Gmm.interpSpecAccels C o t)).getD 0 F.nan),
   ("ln_stds", if ts.isEmpty then many (Gmm.lnStds C o) else ts.map fun t => (one (Gmm.interpLnStds C o t)).getD 0 F.nan),
   ("pga", one (Gmm.pga C o)), ("pgv", one (Gmm.pgv C o)), ("ln_std_pga", one (Gmm.lnStdPga C o)), ("ln_std_pgv", one (Gmm.lnStdPgv C o))]
"""


def val(v):
    if v is None:
        return ".none"
    if isinstance(v, bool):
        return f"(.bool {'true' if v else 'false'})"
    if isinstance(v, str):
        return f'(.str "{v}")'
    return f"(.num {flt(v)})"


def flt(v):
    v = float(v)
    r = repr(v)
    return f"({r})" if v < 0 else r


def scen(p):
    return "⟨[" + ", ".join(f'("{k}", {val(v)})' for k, v in p.items()) + "], []⟩"


def fl(l):
    return "[" + ", ".join(flt(x) for x in l) + "]"


def cases(data):
    """(name, Lean expression of type String, {key: expected list}, rtol, atol)"""
    import json, gzip, csv
    J = lambda f: json.load(gzip.open(f"{data}/{f}", "rt") if f.endswith("gz") else open(f"{data}/{f}"))
    lst = lambda x: x if isinstance(x, list) else [x]
    # NGA-West2
    for i, t in enumerate(J("ngaw2_tests.json.gz")):
        for m, acc in [("ASK14", "a.out.gmm"), ("BSSA14", "a.out.gmm"), ("CB14", "a.out.gmm"), ("CY14", "a.out.gmm"), ("I14", "a.out")]:
            e = t["results"][m]
            exp = {k: lst(e[k]) for k in ("spec_accels", "ln_stds", "pga", "pgv", "ln_std_pga", "ln_std_pgv")
                   if e.get(k) is not None}
            if m == "I14":
                exp.pop("pgv", None)          # NotImplementedError in the code
            yield (f"ngaw2[{i}] {m}", f"runPy ({m}.cls.new {scen(t['params'])}) fun a => gmmOut GmmClass.{m.lower()} {acc} {fl(e['periods'])}",
                   exp, 1e-2, 0)
    for i, t in enumerate(J("asb14_tests.json.gz")):
        for dist, e in t["results"]:
            p = dict(t["params"]); p[dist] = p.pop("dist")
            yield (f"asb14[{i}] {dist}", f"runPy (AKB14.cls.new {scen(p)}) fun a => gmmOut GmmClass.akb14 a.out {fl(e['periods'])}",
                   {k: lst(e[k]) for k in ("spec_accels", "pga", "pgv")}, 1e-2, 0)
    for i, t in enumerate(J("abrahamson_gregor_addo_2016.json.gz")):
        yield (f"aga16[{i}]", f"runPy ((AGA16.cls .default 0 1).new {scen(t['params'])}) fun a => gmmOut GmmClass.aga16 a.out.gmm []",
               {k: lst(t["results"][k]) for k in ("spec_accels", "ln_stds", "pga", "ln_std_pga")}, 2e-2, 0)
    for i, t in enumerate(J("coppersmith_bommer_2014.json.gz")):
        yield (f"coppersmith[{i}]", f"runPy ((CoppersmithBommer.cls 1).new {scen(t['params'])}) fun a => gmmOut GmmClass.coppersmith a.out []",
               {k: lst(t["results"][k]) for k in ("spec_accels", "ln_stds")}, 2e-2, 0)
    g = 9.80665
    for i, t in enumerate(J("dbc14_tests.json.gz")):
        e = t["results"]
        yield (f"dbc14[{i}]", f"runPy (DBC14.cls.new {scen(t['params'])}) fun a => gmmOut GmmClass.dbc14 a.out {fl(e['periods'])}",
               {"spec_accels": [x / g for x in e["spec_accels"]], "pga": [e["pga"] / g], "pgv": [e["pgv"] / 0.01]}, 1e-2, 0)
    for i, t in enumerate(J("gulerce_abrahamson_2011.json.gz")):
        yield (f"ga11[{i}]", f'runPy (GA11.cls.new {scen(t["params"])}) fun a => [("ratio", a.out.lnRatio.map F.exp), ("ln_std", a.out.lnStd)]',
               {k: t["output"][k] for k in ("ratio", "ln_std")}, 5e-3, 1e-3)
    for i, t in enumerate(J("pinilla_ramos_et_al_2023.json.gz")["test_cases"]):
        x, e = t["inputs"], t["expected"]
        if isinstance(x["mag"], list):
            continue
        s = scen({"mag": x["mag"], "dist_rup": x["rrup"], "v_s30": x["vs30"]})
        k = 'fun o => [("duration", [o.median]), ("duration_plus_sigma", [o.plus]), ("duration_minus_sigma", [o.minus])]'
        if x["energy"] == 0.75:
            ex = f"runPy (PR23.cls.new {s}) fun a => ({k}) a.out"
        else:
            ex = f"runPy (PR23.cls.new {s} >>= fun m => PR23.durationForEnergy m {flt(x['energy'])}) ({k})"
        yield (f"pr23[{i}]", ex, {q: lst(e[q])[:1] for q in ("duration", "duration_plus_sigma", "duration_minus_sigma")}, 1e-6, 1e-8)
    rows = list(csv.DictReader(gzip.open(f"{data}/pinilla_ramos_et_al_2024.csv.gz", "rt")))
    for i, r in enumerate(rows[::7]):
        s = scen({"mag": float(r["mag"]), "dist_rup": float(r["dist_rup"]), "v_s30": float(r["v_s30"]),
                  "region": r["region"], "event_type": r["event_type"]})
        th = r["energy_threshold"]
        mm = "PR24.d575Median m" if th == "D5-75" else f'PR24.d5xMedian m "{th}"'
        ss = "PR24.d575Sigma m" if th == "D5-75" else f'PR24.d5xSigma m "{th}"'
        yield (f"pr24[{7*i}]", f'runPy (PR24.cls.new {s}) fun m => [("median", one ({mm})), ("sigma", one ({ss}))]',
               {"median": [float(r["median"])], "sigma": [float(r["sigma"])]}, 1e-10, 0)
    for i, t in enumerate(J("as96.json")):
        # `stds` is [0, 1]: ln_dur + std * std_err, rows are stds
        flat = [x for row in t["durs"] for x in row]
        yield (f"as96[{i}]", f"""runPy (AS96.cls.new {scen(t['scenario'])}) fun a =>
          [("durs", match (AS96.interpFull (a.out.lnDur.getD 0 F.nan) [] (.list ({fl(t['nias'])}.map some)) (.list {fl(t['stds'])})).2 with
            | .ok (.rows l) => l.flatten | .ok (.flat l) => l | .error _ => [])]""",
               {"durs": flat}, 1e-2, 1e-4)
    bj = J("baker_jayaram_2008.json")
    for i, c in enumerate(bj["cases_correl"]):
        yield (f"bj08 correl[{i}]", f'runPy (pure () : Py Unit) fun _ => [("correls", {fl(c["periods"])}.map fun t => BJ08.correl t {flt(c["period_cond"])})]',
               {"correls": c["correls"]}, 5e-3, 5e-3)
    import math
    pts = lambda m: "[" + ", ".join(f"⟨{flt(a)}, {flt(math.log(b))}, {flt(c)}⟩" for a, b, c in zip(m["periods"], m["psas"], m["ln_stds"])) + "]"
    for i, c in enumerate(bj["cases_cms"]):
        yield (f"bj08 cms[{i}]", f"""runPy (BJ08.calcCms {pts(bj['model'])} {flt(c['period_cond'])} {flt(math.log(c['psa_cond']))}) fun l =>
          [("psas_cms", l.map fun x => F.exp x.1), ("ln_stds_cms", l.map fun x => x.2)]""",
               {k: c[k] for k in ("psas_cms", "ln_stds_cms")}, 5e-4, 1e-4)
    k17 = J("kishida_2017.json")
    for i, c in enumerate(k17["cases"]):
        m = k17["model"]
        ps = "[" + ", ".join(
            "{ period := %s, lnPsa := %s, lnStd := %s, cond := %s : Kishida.Point }" % (
                flt(T), flt(math.log(a)), flt(sd), f"some {flt(math.log(tg))}" if T in c["periods_cond"] else "none")
            for T, a, sd, tg in zip(m["periods"], m["psas"], m["ln_stds"], m["psas_target"])) + "]"
        yield (f"kishida[{i}]", f"""runPy (pure (Kishida.entries {ps}) : Py (List Kishida.Entry)) fun l =>
          let l := l.mergeSort fun a b => decide (a.1 ≤ b.1)
          [("psas_cmsv", l.map fun x => F.exp x.2.1), ("ln_stds_cmsv", l.map fun x => x.2.2)]""",
               {k: c[k] for k in ("psas_cmsv", "ln_stds_cmsv")}, 5e-4, 1e-4)
    import glob
    for f in sorted(glob.glob(f"{data}/BA19-*.csv")):
        rows = list(csv.reader(open(f)))
        for i in range(len(rows[0]) - 1):
            p = {r[0]: (r[i + 1] if r[0] == "mechanism" else float(r[i + 1])) for r in rows[:6]}
            yield (f"ba19 {p['mag']} {p['v_s30']}", f'runPy (BA19.cls.new {scen(p)}) fun a => [("eas", a.out.lnEas.map F.exp), ("freqs", BA19.freqs.map fun x => F.ofReal x)]',
                   {"eas": [float(r[i + 1]) / (g * 100) for r in rows[8:]], "freqs": [float(r[0]) for r in rows[8:]]}, 5e-3, 0)
    est = [("CB14.calcDepth25 (.num 600) (.str \"japan\") .none", 0.1844427, 1e-6),
           ("CB14.calcDepth25 (.num 600) (.str \"california\") .none", 0.7952589, 1e-6),
           ("pure (CY14.calcDepth10 600 false)", 0.1259, 1e-3), ("pure (CY14.calcDepth10 600 true)", 0.0331, 5e-3),
           ("pure (CY14.calcDepthTor 6 false)", 2.2587685, 1e-7), ("pure (CY14.calcDepthTor 6 true)", 6.3447262, 1e-7),
           ("pure (ASK14.calcDepth10 600 false)", 0.1424470, 1e-5), ("pure (ASK14.calcDepthTor 6)", 4.2545455, 1e-7),
           ("pure (ASK14.calcWidth 6 50)", 8.9125094, 1e-7)]
    for e, x, tol in est:
        yield (e, f'runPy ({e} : Py F) fun x => [("x", [x])]', {"x": [x]}, tol, 0)


MODS = ["AKB14", "ASK14", "BSSA14", "CB14", "CY14", "I14", "AGA16", "GA11", "DBC14", "PR23", "PR24", "Durations", "BA19",
        "BJ08", "Kishida", "Estimators", "AS96Stds"]


def main(scratch):
    os.makedirs(scratch, exist_ok=True)
    cs = list(cases("/repo/tests/data"))
    text = build(["Verif.Models." + m for m in MODS]) + HARNESS
    for i in range(len(cs)):
        text += f"\ndef case{i} : String := {cs[i][1]}\n"
    for k in range(0, len(cs), 50):
        text += f"\ndef block{k} : IO Unit := do\n" + "\n".join(f"  IO.println case{i}" for i in range(k, min(k + 50, len(cs)))) + "\n"
    text += "\ndef main : IO Unit := do\n" + "\n".join(f"  block{k}" for k in range(0, len(cs), 50)) + "\n"
    f = os.path.join(scratch, "Conform.lean")
    open(f, "w").write(text)
    r = subprocess.run(["lean", "--run", f], capture_output=True, text=True)
    out = r.stdout.split("\n")
    if r.returncode or len(out) < len(cs):
        print((r.stdout + r.stderr)[:3000]); sys.exit(1)
    bad = 0; n = 0; worst = {}
    for (name, _, exp, rtol, atol), line in zip(cs, out):
        got = dict(x.split("=") for x in line.split(";")) if line != "ERROR" else {}
        for k, e in exp.items():
            a = [float("nan") if x in ("undefined", "") else struct.unpack("<d", int(x).to_bytes(8, "little"))[0] for x in got.get(k, "").split(",")]
            n += len(e)
            if len(a) != len(e):
                print("FAIL", name, k, "length", len(a), len(e)); bad += 1; continue
            ds = [abs(x - y) / (atol + rtol * abs(y)) if (atol + rtol * abs(y)) else (0 if x == y else 9e9) for x, y in zip(a, e)]
            w = max((d if d == d else 9e9) for d in ds)
            fam = re.split(r"[\[ ]", name)[0] + " " + k
            worst[fam] = max(worst.get(fam, 0), w)
            if w > 1:
                j = [i for i, d in enumerate(ds) if not d <= 1][0]
                print("FAIL", name, k, "index", j, "model", a[j], "expected", e[j], "(%d of %d)" % (sum(not d <= 1 for d in ds), len(ds))); bad += 1
    print(f"{len(cs)} cases, {n} values, {bad} failures")
    for k, v in worst.items():
        print("  %-40s %.3g of the tolerance" % (k, v))


if __name__ == "__main__":
    main(sys.argv[1] if len(sys.argv) > 1 else "/tmp/conform")
