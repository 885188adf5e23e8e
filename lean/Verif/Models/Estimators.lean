import Verif.Compute
import Verif.Interp

/-! # Default estimators of depths and widths
(chiou_youngs_2014.py, abrahamson_silva_kamai_2014.py, campbell_bozorgnia_2014.py,
bayless_abrahamson_2019.py) -/

noncomputable section

/-- the common form of the three `calc_depth_1_0` functions:
`exp(slope * log((v**p + r**p) / (1360**p + r**p))) / 1000` -/
def depth10 (slope vRef : F) (power : ℕ) (v : F) : F :=
  F.exp (slope * F.log ((v ^ power + vRef ^ power) / (1360 ^ power + vRef ^ power))) / 1000

namespace CY14

/-- chiou_youngs_2014.py lines 291-325: `calc_depth_1_0`, by `region in ["japan"]` -/
def calcDepth10 (v : F) (japan : Bool) : F :=
  if japan then depth10 (-5.23 / 2) 412.39 2 v else depth10 (-7.15 / 4) 570.94 4 v

/-- chiou_youngs_2014.py lines 328-349: `calc_depth_tor`, by `mechanism == "RS"` -/
def calcDepthTor (mag : F) (reverse : Bool) : F :=
  (F.max (if reverse then 2.704 - 1.226 * F.max (mag - 5.849) 0
    else 2.673 - 1.136 * F.max (mag - 4.970) 0) 0) ^ 2

end CY14

namespace ASK14

/-- abrahamson_silva_kamai_2014.py lines 300-341: `calc_depth_1_0` -/
def calcDepth10 (v : F) (japan : Bool) : F :=
  if japan then depth10 (-5.23 / 2) 412 2 v else depth10 (-7.67 / 4) 610 4 v

/-- abrahamson_silva_kamai_2014.py lines 284-297: `calc_depth_tor` -/
def calcDepthTor (mag : F) : F := npInterpF [(5, 7.8), (7.2, 0)] mag

/-- abrahamson_silva_kamai_2014.py lines 264-281: `calc_width` -/
def calcWidth (mag dip : F) : F :=
  F.min (18 / F.sin (F.radians dip)) ((10 : F) ^ (-1.75 + 0.45 * mag))

end ASK14

namespace BA19

/-- bayless_abrahamson_2019.py lines 184-208: `calc_depth_1_0` -/
def calcDepth10 (v : F) : F := depth10 (-7.67 / 4) 610 4 v

end BA19

namespace CB14

/-- campbell_bozorgnia_2014.py lines 365-374: the two regressions of `calc_depth_2_5` -/
def depth25OfVs (v : F) (japan : Bool) : F :=
  if japan then F.exp (5.359 - 1.102 * F.log v) else F.exp (7.089 - 1.144 * F.log v)

/-- campbell_bozorgnia_2014.py lines 380-389 -/
def depth25OfZ1 (z : F) (japan : Bool) : F :=
  if japan then F.exp (0.408 - 1.745 * F.log z) else F.exp (1.392 - 1.798 * F.log z)

/-- campbell_bozorgnia_2014.py lines 334-398: `calc_depth_2_5` (`if v_s30:` and
`elif depth_1_0:` test the Python truth value) -/
def calcDepth25 (v region z : Val) : Py F :=
  if v.truthy then do
    let x ← v.toF
    pure (depth25OfVs x (region.isStr "japan"))
  else if z.truthy then do
    let x ← z.toF
    pure (depth25OfZ1 x (region.isStr "japan"))
  else Py.raise .notImplemented

/-- campbell_bozorgnia_2014.py lines 401-433: `calc_depth_hyp`.  The logarithm of a negative extent
is nan, which the builtin `min(a, nan)` ignores (`nan < a` is false); that of an empty one is `-inf`,
so that `np.exp(ln_dZ)` is 0. -/
def calcDepthHyp (mag dip tor bor : F) : F :=
  let a := F.min (-4.317 + 0.984 * mag) 2.325 + F.min (0.0445 * (dip - 40)) 0
  F.iteLt 0 (bor - tor) (tor + F.exp (F.min a (F.log (0.9 * (bor - tor)))))
    (F.iteLt (bor - tor) 0 (tor + F.exp a) tor)

/-- campbell_bozorgnia_2014.py lines 436-464: `calc_width` -/
def calcWidth (mag dip tor bot : F) : F :=
  F.min (F.sqrt ((10 : F) ^ ((mag - 4.07) / 0.98))) ((bot - tor) / F.sin (F.radians dip))

/-- campbell_bozorgnia_2014.py lines 467-484: `calc_depth_bor` -/
def calcDepthBor (tor dip width : F) : F := tor + width * F.sin (F.radians dip)

end CB14

end
