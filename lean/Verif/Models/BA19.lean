import Verif.Models.Estimators
import Verif.Argmin
import Verif.Fill
import Verif.Decls
import Verif.Data.BA19

/-! # Bayless & Abrahamson (2019): src/pygmm/bayless_abrahamson_2019.py -/

namespace BA19
noncomputable section

/-- a coefficient of the file; an empty cell is read as NaN -/
def co : Option ℚ → F
  | some q => F.ofRat q
  | none => F.nan

/-- line 29: `V_REF` -/
def vRef : F := 760

/-- lines 36-37: `IDX_5Hz`, `IDX_MAX` -/
def idx5Hz : ℕ := 170
@[inherit_doc idx5Hz]
def idxMax : ℕ := 238

/-- the inputs of the formulas; `ns` is the outcome of `s.mechanism == "NS"` -/
structure In where
  rup : F
  mag : F
  v : F
  tor : F
  z1 : F
  ns : Bool

/-- lines 97-101: `f_M` -/
def fM (c : Row) (s : In) : F :=
  co c.c1 + co c.c2 * (s.mag - 6)
    + ((co c.c2 - co c.c3) / co c.cn) * F.log (1 + F.exp (co c.cn * (co c.cM - s.mag)))

/-- lines 103-108: `f_P` -/
def fP (c : Row) (s : In) : F :=
  co c.c4 * F.log (s.rup + co c.c5 * F.cosh (co c.c6 * F.max (s.mag - co c.chm) 0))
    + (-0.5 - co c.c4) * F.log (F.sqrt (s.rup ^ 2 + 50 ^ 2))
    + co c.c7 * s.rup

/-- lines 110-112: `f_Ztor + f_NM` -/
def fTorNM (c : Row) (s : In) : F :=
  co c.c9 * F.min s.tor 20 + (if s.ns then co c.c10 else 0)

/-- lines 114-116: `c11` for the velocity -/
def c11 (c : Row) (v : F) : F :=
  F.iteLe v 200 (co c.c11a) (F.iteLe v 300 (co c.c11b) (F.iteLe v 500 (co c.c11c) (co c.c11d)))

/-- lines 117-119: `f_Z1` -/
def fZ1 (c : Row) (v z1 : F) : F :=
  c11 c v * F.log ((F.min z1 2 + 0.01) / (calcDepth10 v + 0.01))

/-- lines 97-121: `ln_eas` without the site term, for the velocity and the basin depth of
lines 86-87 or 92-93 -/
def lnBase (c : Row) (s : In) (v z1 : F) : F :=
  fM c s + fP c s + fTorNM c s + fZ1 c v z1

/-- lines 84-89, 97-121: `_calc_ln_eas(None)` -/
def lnRef (s : In) : F :=
  match table[idx5Hz]? with
  | some c => lnBase c s vRef (calcDepth10 vRef)
  | none => F.nan

/-- lines 95, 141: `COEFF[: (IDX_MAX + 1)]` -/
def usable : List Row := table.take (idxMax + 1)

/-- lines 143-152: one entry of `f_nl` before it is flattened -/
def nlRaw (v ref : F) (c : Row) : F :=
  let iR := F.exp (1.238 + 0.846 * ref)
  let f2 := F.ofRat c.f4 * (F.exp (F.ofRat c.f5 * (F.min v vRef - 360))
    - F.exp (F.ofRat c.f5 * (vRef - 360)))
  f2 * F.log ((iR + F.ofRat c.f3) / F.ofRat c.f3)

/-- the entry of an array that `np.argmin` selects; it takes every entry to be a number -/
def atArgmin (l : List F) : F := ⟨(l.getD (argmin l) F.nan).val, ∀ x ∈ l, x.ok⟩

/-- lines 156-157: entries after the position of the minimum are replaced by it -/
def flatten (l : List F) : List F :=
  l.mapIdx fun k x => if k ≤ argmin l then x else atArgmin l

/-- lines 158-160: `np.convolve(f_nl, np.ones(7) / 7, mode="same")`: entry `k` is the sum of the
seventh parts of the entries `k - 3` to `k + 3`, where those outside count as zero -/
def smooth (l : List F) : List F :=
  (List.range l.length).map fun k => F.sum ((List.range 7).map fun j =>
    if k + j < 3 then 0 else l.getD (k + j - 3) 0 * (1 / 7))

/-- lines 156-162: flattened, smoothed, and the last seven entries set to the entry at the
position of the minimum -/
def shape (l : List F) : List F :=
  let g := smooth (flatten l)
  g.mapIdx fun k x => if k + 7 < l.length then x else g.getD (argmin l) F.nan

/-- lines 138-166: the nonlinear part of `_calc_site_response` -/
def fNl (v ref : F) : List F := shape (usable.map (nlRaw v ref))

/-- line 145: the linear part -/
def fSl (c : Row) (v : F) : F := co c.c8 * F.log (F.min v 1000 / 1000)

/-- line 128 -/
def kappa (v : F) : F := F.exp (-0.4 * F.log (v / 760) - 3.5)

/-- lines 97-125: `ln_eas` on the usable frequencies -/
def lnUsable (s : In) : List F :=
  List.zipWith (fun c nl => lnBase c s s.v s.z1 + (fSl c s.v + nl)) usable (fNl s.v (lnRef s))

/-- lines 129-133: the entry of `np.log(dimin)` for a frequency; `freq_max` is
`FREQS[IDX_MAX]` -/
def lnDimin (v : F) (freqMax : ℚ) (c : Row) : F :=
  F.log (F.exp (-F.pi * kappa v * (F.ofRat c.freq_hz - F.ofRat freqMax)))

/-- lines 84-136: `_calc_ln_eas(ln_eas_ref)` -/
def lnEas (s : In) : List F :=
  let u := lnUsable s
  let freqMax := ((table.map (·.freq_hz)).getD idxMax 0)
  u ++ (table.drop (idxMax + 1)).map fun c => u.getD idxMax F.nan + lnDimin s.v freqMax c

/-- line 173-174: `interp(left, right)` -/
def stdTerm (mag : F) (left right : ℚ) : F :=
  F.clip (F.ofRat left + (F.ofRat right - F.ofRat left) / 2 * (mag - 4)) (F.ofRat left) (F.ofRat right)

/-- lines 168-181: `_calc_ln_std`, one frequency -/
def lnStd (mag : F) (c : Row) : F :=
  F.sqrt (stdTerm mag c.s1 c.s2 ^ 2 + stdTerm mag c.s3 c.s4 ^ 2 + stdTerm mag c.s5 c.s6 ^ 2
    + co c.c1a ^ 2)

/-- what the constructor leaves (lines 52-55); `eas` (line 67) is the exponential -/
structure Out where
  lnEas : List F
  lnStd : List F

/-- the outputs for given inputs -/
def out (s : In) : Out := ⟨lnEas s, table.map (lnStd s.mag)⟩

/-- lines 57-59: the property `freqs` -/
def freqs : List ℚ := table.map (·.freq_hz)

/-- line 78 -/
def estDepth10 (s : Scenario) : Py F := do
  let v ← s.num "v_s30"
  pure (calcDepth10 v)

/-- the class (lines 13-55, 73-78) -/
def cls : ModelClass Out where
  params := Decls.ba19
  fill := fillItem "depth_1_0" estDepth10
  compute := fun s => do
    let mag ← s.num "mag"
    let rup ← s.num "dist_rup"
    let v ← s.num "v_s30"
    let tor ← s.num "depth_tor"
    let z1 ← s.num "depth_1_0"
    let mech ← s.getAttr "mechanism"
    pure (out ⟨rup, mag, v, tor, z1, mech.isStr "NS"⟩)

end
end BA19
