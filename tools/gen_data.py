"""Generates lean/Verif/Data/*.lean from /repo/src/pygmm/data/*.csv.

Every number of the csv becomes the same decimal literal (an exact rational) in
Lean; an empty cell becomes `none`.  Usage: python3 tools/gen_data.py
"""
import os, re
from decimal import Decimal
SRC = "/repo/src/pygmm/data/"
OUT = os.path.join(os.path.dirname(os.path.dirname(os.path.abspath(__file__))), "lean/Verif/Data")

# lean module, structure, [(lean table name, file, skip_header)], source of the load call
TABLES = [
 ("ASK14", "ASK14.Row", [("table", "abrahamson_silva_kamai_2014.csv", 2)], "abrahamson_silva_kamai_2014.py line 32"),
 ("CB14", "CB14.Row", [("table", "campbell_bozorgnia_2014.csv", 2)], "campbell_bozorgnia_2014.py line 29"),
 ("CY14", "CY14.Row", [("table", "chiou_youngs_2014.csv", 2)], "chiou_youngs_2014.py line 34"),
 ("BSSA14", "BSSA14.Row", [("table", "boore_stewart_seyhan_atkinson-2014.csv", 2)], "boore_stewart_seyhan_atkinson_2014.py line 80"),
 ("AKB14", "AKB14.Row", [("jb", "akkar-sandikkaya-bommer-2014-dist_jb.csv", 2), ("hyp", "akkar-sandikkaya-bommer-2014-dist_hyp.csv", 2), ("epi", "akkar-sandikkaya-bommer-2014-dist_epi.csv", 2)], "akkar_sandikkaya_bommer_2014.py line 44"),
 ("AB06", "AB06.Row", [("bc", "atkinson_boore_2006-bc.csv", 2), ("rock", "atkinson_boore_2006-rock.csv", 2)], "atkinson_boore_2006.py lines 28-29"),
 ("AB06Site", "AB06.SiteRow", [("site", "atkinson_boore_2006-site.csv", 2)], "atkinson_boore_2006.py line 34"),
 ("AB06SF", "AB06.SfRow", [("sf", "atkinson_boore_2006-sf.csv", 2)], "atkinson_boore_2006.py line 35"),
 ("BA18", "BA18.Row", [("table", "bayless_abrahamson_2018.csv", 3)], "bayless_abrahamson_2018.py line 25"),
 ("BA19", "BA19.Row", [("table", "bayless_abrahamson_2019.csv", 2)], "bayless_abrahamson_2019.py line 32"),
 ("C03", "C03.Row", [("table", "campbell_2003.csv", 1)], "campbell_2003.py line 29"),
 ("TP05", "TP05.Row", [("table", "tavakoli_pezeshk_2005.csv", 1)], "tavakoli_pezeshk_2005.py line 30"),
 ("Pea11", "Pea11.Row", [("table", "pezeshk_zandieh_tavakoli_2011.csv", 1)], "pezeshk_zandieh_tavakoli_2011.py line 30"),
 ("AGA16", "AGA16.Row", [("table", "abrahamson_gregor_addo_2016.csv", 1)], "abrahamson_gregor_addo_2016.py line 30"),
 ("CB14H", "CoppersmithBommer.Row", [("table", "coppersmith_bommer_2014.csv", 1)], "coppersmith_bommer_2014.py line 30"),
 ("GA11", "GA11.Row", [("table", "gulerce_abrahamson_2011-coefficients.csv", 2)], "gulerce_abrahamson_2011.py line 31"),
 ("I14", "I14.Row", [("small", "idriss_2014-small.csv", 2), ("large", "idriss_2014-large.csv", 2)], "idriss_2014.py lines 31-32"),
]

def lit(x):
    x = x.strip()
    m = re.fullmatch(r"([+-]?)(\d*)\.?(\d*)(?:[eE]([+-]?\d+))?", x)
    assert m and (m.group(2) or m.group(3)), x
    s, i, f, e = m.group(1), m.group(2) or "0", m.group(3), m.group(4)
    i = i.lstrip("0") or "0"
    f = f.rstrip("0")
    t = i + ("." + f if f else "")
    if e and int(e) != 0: t += "e" + str(int(e))
    assert Decimal(t) == abs(Decimal(x)), (x, t)
    if Decimal(t) == 0: return "0"
    return ("-" if s == "-" else "") + t

def load(name, skip):
    L = open(SRC + name, encoding="utf-8-sig").read().splitlines()[skip:]
    h = [c.strip() for c in L[0].lstrip("#").split(",")]
    rows = [l.split(",") for l in L[1:] if l.strip()]
    for r in rows: assert len(r) == len(h), (name, r)
    return h, rows

def main():
    os.makedirs(OUT, exist_ok=True)
    for mod, struct, tabs, src in TABLES:
        loaded = [(t, f, *load(f, s)) for t, f, s in tabs]
        cols = loaded[0][2]
        assert all(l[2] == cols for l in loaded), mod
        opt = {i for i in range(len(cols)) for l in loaded for r in l[3] if not r[i].strip()}
        ns, st = struct.rsplit(".", 1)
        o = ["import Mathlib.Data.Rat.Defs", "import Mathlib.Algebra.Order.Ring.Rat", "import Mathlib.Tactic.NormNum", "",
             f"/-! Generated by tools/gen_data.py from {', '.join('src/pygmm/data/' + f for _, f, _ in tabs)}",
             f"(loaded in src/pygmm/{src}).  Do not edit. -/", "", f"namespace {ns}", "",
             f"/-- one row of {', '.join(f for _, f, _ in tabs)}: the columns of the file, in order -/",
             f"structure {st} where"]
        for i, c in enumerate(cols):
            o.append(f"  {c} : {'Option ℚ' if i in opt else 'ℚ'}")
        o.append("")
        for t, f, _, rows in loaded:
            # split in chunks to keep single terms small
            n = 40
            chunks = [rows[k:k + n] for k in range(0, len(rows), n)]
            names = []
            for k, ch in enumerate(chunks):
                nm = t if len(chunks) == 1 else f"{t}{k}"
                names.append(nm)
                o.append(f"/-- src/pygmm/data/{f}" + ("" if len(chunks) == 1 else f", part {k + 1} of {len(chunks)}") + " -/")
                o.append(f"def {nm} : List {st} := [")
                for j, r in enumerate(ch):
                    cells = [("none" if not x.strip() else f"some ({lit(x)})") if i in opt else lit(x) for i, x in enumerate(r)]
                    o.append("  ⟨" + ", ".join(cells) + "⟩" + ("," if j + 1 < len(ch) else ""))
                o.append("]"); o.append("")
            if len(chunks) > 1:
                o.append(f"/-- src/pygmm/data/{f}, all rows -/")
                o.append(f"def {t} : List {st} := " + " ++ ".join(names)); o.append("")
        o.append(f"end {ns}")
        open(os.path.join(OUT, mod + ".lean"), "w").write("\n".join(o) + "\n")
        print(mod, [(t, len(r)) for t, _, _, r in loaded])

def dbc14():
    import json
    d = json.load(open(SRC + "derras_bard_cotton_2014.json"), parse_float=str, parse_int=str)
    mm = d["min_max"]
    keys = ["log10_dist_jb", "mag", "log10_v_s30", "depth_hyp", "mechanism"]
    o = ["import Mathlib.Data.Rat.Defs", "import Mathlib.Algebra.Order.Ring.Rat", "import Mathlib.Tactic.NormNum", "",
         "/-! Generated by tools/gen_data.py from src/pygmm/data/derras_bard_cotton_2014.json",
         "(loaded in src/pygmm/derras_bard_cotton_2014.py lines 27-33).  Do not edit. -/", "", "namespace DBC14", "",
         "/-- `min_max` of the five inputs, in the order of `keys` (line 62): " + ", ".join(keys) + " -/",
         "def inputLimits : List (ℚ × ℚ) := [" + ", ".join(f"({lit(mm[k][0])}, {lit(mm[k][1])})" for k in keys) + "]", "",
         "/-- `b_1` -/", "def b1 : List ℚ := [" + ", ".join(lit(x) for x in d["b_1"]) + "]", "",
         "/-- `w_1`: one row of weights per hidden neuron -/",
         "def w1 : List (List ℚ) := [" + ",\n  ".join("[" + ", ".join(lit(x) for x in r) + "]" for r in d["w_1"]) + "]", "",
         "/-- the output layer, one row per period: `period`, `b_2`, `w_2`, `min_max.log10_resp`, `log10_std.total` -/",
         "structure Row where", "  period : ℚ", "  b2 : ℚ", "  w2 : List ℚ", "  respMin : ℚ", "  respMax : ℚ", "  stdTotal : ℚ", "",
         "/-- all 64 outputs -/", "def table : List Row := ["]
    n = len(d["period"])
    assert all(len(x) == n for x in (d["b_2"], d["w_2"], mm["log10_resp"], d["log10_std"]["total"]))
    for i in range(n):
        o.append("  ⟨" + ", ".join([lit(d["period"][i]), lit(d["b_2"][i]), "[" + ", ".join(lit(x) for x in d["w_2"][i]) + "]",
            lit(mm["log10_resp"][i][0]), lit(mm["log10_resp"][i][1]), lit(d["log10_std"]["total"][i])]) + "⟩" + ("," if i + 1 < n else ""))
    o += ["]", "", "end DBC14"]
    open(os.path.join(OUT, "DBC14.lean"), "w").write("\n".join(o) + "\n")

main()
dbc14()
