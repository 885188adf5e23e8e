import Verif.Models.Estimators
import Verif.Fill
import Verif.Decls
import Verif.Data.ASK14

/-! # Abrahamson, Silva & Kamai (2014): src/pygmm/abrahamson_silva_kamai_2014.py -/

namespace ASK14
noncomputable section

/-- `s.mechanism` as the formulas distinguish it (lines 118-125) -/
inductive Mech
  | rs | ns | other
deriving DecidableEq

/-- `s.region` as the formulas distinguish it (lines 135-151, 235, 325) -/
inductive Reg
  | taiwan | china | japan | other
deriving DecidableEq

/-- mechanism of a scenario value -/
def mechOf (v : Val) : Mech := if v.isStr "RS" then .rs else if v.isStr "NS" then .ns else .other

/-- region of a scenario value -/
def regOf (v : Val) : Reg :=
  if v.isStr "taiwan" then .taiwan else if v.isStr "china" then .china
  else if v.isStr "japan" then .japan else .other

/-- the inputs of the formulas; `z1` is `s.depth_1_0`, `y0` is `s.dist_y0`; `x` is read only on
the hanging wall -/
structure In where
  mag : F
  rup : F
  jb : F
  x : F
  y0 : Option F
  dip : F
  width : F
  tor : F
  z1 : Option F
  crjb : F
  v : F
  mech : Mech
  reg : Reg
  hw : Bool
  aftershock : Bool
  measured : Bool

/-- line 26 -/
def vRef : F := 1180

/-- lines 349-351 -/
def dist (c : Row) (m r : F) : F :=
  F.sqrt (r ^ 2 + (c.c4 - ((c.c4 : F) - 1) * F.clip (5 - m) 0 1) ^ 2)

/-- lines 343-379: `_calc_f1`.  The masked in-place additions to the copy of `a1` are, row by
row, a choice between three sums. -/
def f1 (c : Row) (m r : F) : F :=
  F.iteLe m c.m2
    (c.a1 + (c.a4 * ((c.m2 : F) - c.m1) + c.a8 * (8.5 - (c.m2 : F)) ^ 2 + c.a6 * (m - c.m2) +
      c.a7 * (m - c.m2) ^ 2 + (c.a2 + c.a3 * ((c.m2 : F) - c.m1)) * F.log (dist c m r) + c.a17 * r))
    (c.a1 + (c.a8 * (8.5 - m) ^ 2 + (c.a2 + c.a3 * (m - c.m1)) * F.log (dist c m r) + c.a17 * r) +
      F.iteLe m c.m1 (c.a4 * (m - c.m1)) (c.a5 * (m - c.m1)))

/-- line 387 -/
def t1 (dip : F) : F := F.min (90 - dip) 60 / 45

/-- lines 389-395 -/
def t2 (m : F) : F :=
  F.iteLe m 5.5 0 (F.iteLt m 6.5 (1 + 0.2 * (m - 6.5) - (1 - 0.2) * (m - 6.5) ^ 2)
    (1 + 0.2 * (m - 6.5)))

/-- lines 398-408 -/
def t3 (x width dip : F) : F :=
  let r1 := width * F.cos (F.radians dip)
  let r2 := 3 * r1
  F.iteLt x r1 (0.25 + 1.5 * (x / r1) + -0.75 * (x / r1) ^ 2)
    (F.iteLt x r2 (1 - (x - r1) / (r2 - r1)) 0)

/-- line 410 -/
def t4 (tor : F) : F := F.clip (1 - tor ^ 2 / 100) 0 1

/-- lines 412-416 -/
def t5 (x jb : F) (y0 : Option F) : F :=
  match y0 with
  | none => F.clip (1 - jb / 30) 0 1
  | some y => F.clip (1 - (y - x * F.tan (F.radians 20)) / 5) 0 1

/-- lines 381-420: `_calc_f4` -/
def f4 (c : Row) (i : In) : F :=
  c.a13 * t1 i.dip * t2 i.mag * t3 i.x i.width i.dip * t4 i.tor * t5 i.x i.jb i.y0

/-- line 116 -/
def f6 (c : Row) (tor : F) : F := c.a15 * F.clip (tor / 20) 0 1

/-- lines 118-125: `f7 + f8` -/
def fMech (c : Row) (m : F) (mech : Mech) : F :=
  match mech with
  | .rs => c.a11 * F.clip (m - 4) 0 1 + 0
  | .ns => 0 + c.a12 * F.clip (m - 4) 0 1
  | .other => 0 + 0

/-- lines 130-133 -/
def f11 (c : Row) (i : In) : F :=
  if i.aftershock then c.a14 * F.clip (1 - (i.crjb - 5) / 10) 0 1 else 0

/-- lines 136 and 187: `v_1` -/
def v1 (c : Row) : F :=
  F.exp (-0.35 * F.log (F.clip c.period 0.5 3 / 0.5) + F.log 1500)

/-- lines 137 and 189 -/
def ratio (c : Row) (v : F) : F := F.min v (v1 c) / c.v_lin

/-- lines 142-148: linear interpolation, constant outside the nodes -/
def f13 (c : Row) (v : F) : F :=
  npInterpF [(150, c.a36), (250, c.a37), (350, c.a38), (450, c.a39), (600, c.a40), (850, c.a41),
    (1150, c.a42)] v

/-- lines 135-151 -/
def freg (c : Row) (v r : F) (reg : Reg) : F :=
  match reg with
  | .taiwan => c.a31 * F.log (ratio c v) + c.a25 * r
  | .china => c.a28 * r
  | .japan => f13 c v + c.a29 * r
  | .other => 0

/-- lines 191-198: the linear site model, overwritten by the nonlinear one where the ratio is
below one -/
def f5 (c : Row) (ref v : F) : F :=
  F.iteLt (ratio c v) 1
    (c.a10 * F.log (ratio c v) - c.b * F.log (ref + c.c) + c.b * F.log (ref + c.c * ratio c v ^ (c.n : F)))
    ((c.a10 + (c.b : F) * c.n) * F.log (ratio c v))

/-- lines 208-214 -/
def basinSlope (c : Row) (v : F) : F :=
  npInterpF [(150, c.a43), (250, c.a44), (400, c.a45), (700, c.a46)] v

/-- lines 200-215 -/
def f10 (c : Row) (v : F) (z1 : Option F) (japan : Bool) : F :=
  match z1 with
  | none => 0
  | some z => F.iteEq v vRef 0
      (basinSlope c v * F.log ((z + 0.01) / (calcDepth10 v japan + 0.01)))

/-- lines 155-217: `calc_site_term`, for one row -/
def siteTerm (c : Row) (ref v : F) (z1 : Option F) (japan : Bool) : F :=
  f5 c ref v + f10 c v z1 japan

/-- lines 85-153: `_calc_ln_resp(v_s30, resp_ref)`, for one row -/
def lnRespAt (c : Row) (i : In) (v ref : F) : F :=
  f1 c i.mag i.rup + (if i.hw then f4 c i else 0) + f6 c i.tor + fMech c i.mag i.mech + f11 c i +
    freg c v i.rup i.reg + siteTerm c ref v i.z1 (i.reg = .japan)

/-- line 80: the response at the reference velocity, computed with `np.nan` as reference -/
def refMotion (c : Row) (i : In) : F := F.exp (lnRespAt c i vRef F.nan)

/-- line 82 -/
def lnResp (c : Row) (i : In) : F := lnRespAt c i i.v (refMotion c i)

/-- lines 235-242 -/
def phiAl (c : Row) (i : In) : F :=
  if i.reg = .japan then c.s5 + ((c.s6 : F) - c.s5) * F.clip ((i.rup - 30) / 50) 0 1
  else if i.measured then c.s1m + ((c.s2m : F) - c.s1m) * F.clip ((i.mag - 4) / 2) 0 1
  else c.s1e + ((c.s2e : F) - c.s1e) * F.clip ((i.mag - 4) / 2) 0 1

/-- lines 244-245 -/
def tauB (c : Row) (i : In) : F := c.s3 + ((c.s4 : F) - c.s3) * F.clip ((i.mag - 5) / 2) 0 1

/-- lines 248-249 -/
def phiB (c : Row) (i : In) : F := F.sqrt (F.max (phiAl c i ^ 2 - 0.4 ^ 2) 0)

/-- lines 253-256 -/
def deriv (c : Row) (i : In) : F :=
  F.iteLe c.v_lin i.v 0
    (-c.b * refMotion c i / (refMotion c i + c.c) +
      c.b * refMotion c i / (refMotion c i + c.c * (i.v / c.v_lin) ^ (c.n : F)))

/-- line 257 -/
def tau (c : Row) (i : In) : F := tauB c i * (1 + deriv c i)

/-- line 258 -/
def phi (c : Row) (i : In) : F := F.sqrt (phiB c i ^ 2 * (1 + deriv c i) ^ 2 + 0.4 ^ 2)

/-- line 260 -/
def lnStd (c : Row) (i : In) : F := F.sqrt (phi c i ^ 2 + tau c i ^ 2)

/-- what the constructor leaves (lines 82-83) -/
structure Out where
  gmm : GmmOut
  tau : List F
  phi : List F

/-- lines 76-83 -/
def out (i : In) : Out :=
  ⟨⟨table.map fun c => lnResp c i, some (table.map fun c => lnStd c i)⟩,
   table.map fun c => tau c i, table.map fun c => phi c i⟩

/-- line 71 -/
def estWidth (s : Scenario) : Py F := do
  let m ← s.num "mag"
  let dip ← s.num "dip"
  pure (calcWidth m dip)

/-- line 74 -/
def estDepthTor (s : Scenario) : Py F := do
  let m ← s.num "mag"
  pure (calcDepthTor m)

/-- lines 66-74: `_check_inputs` after `super()._check_inputs()` -/
def fill (s : Scenario) : Py Scenario := do
  let s ← fillItem "width" estWidth s
  fillItem "depth_tor" estDepthTor s

/-- `s.dist_x` is used only by `_calc_f4` (lines 109-111, 403-415), where `None` raises
`TypeError` in the comparison -/
def readX (hw : Bool) (s : Scenario) : Py F := if hw then s.num "dist_x" else pure 0

/-- the class -/
def cls : ModelClass Out where
  params := Decls.ask14
  fill := fill
  compute := fun s => do
    let mag ← s.num "mag"
    let rup ← s.num "dist_rup"
    let hw ← s.getAttr "on_hanging_wall"
    let dip ← s.num "dip"
    let width ← s.num "width"
    let x ← readX hw.truthy s
    let tor ← s.num "depth_tor"
    let y0 ← s.optNum "dist_y0"
    let jb ← s.num "dist_jb"
    let mech ← s.getAttr "mechanism"
    let z1 ← s.optNum "depth_1_0"
    let aft ← s.getAttr "is_aftershock"
    let crjb ← s.num "dist_crjb"
    let reg ← s.getAttr "region"
    let v ← s.num "v_s30"
    let src ← s.getAttr "vs_source"
    pure (out ⟨mag, rup, jb, x, y0, dip, width, tor, z1, crjb, v, mechOf mech, regOf reg, hw.truthy,
      aft.truthy, src.isStr "measured"⟩)

end
end ASK14
