import Verif.Models.Estimators
import Verif.Fill
import Verif.Decls
import Verif.Data.CY14

/-! # Chiou & Youngs (2014): src/pygmm/chiou_youngs_2014.py -/

namespace CY14
noncomputable section

/-- `s.mechanism` as the formulas distinguish it (lines 84-89) -/
inductive Mech
  | rs | ns | other
deriving DecidableEq

/-- `s.region` as the formulas distinguish it (lines 109-114, 192, 238) -/
inductive Reg
  | japan | italy | china | other
deriving DecidableEq

/-- mechanism of a scenario value -/
def mechOf (v : Val) : Mech := if v.isStr "RS" then .rs else if v.isStr "NS" then .ns else .other

/-- region of a scenario value -/
def regOf (v : Val) : Reg :=
  if v.isStr "japan" then .japan else if v.isStr "italy" then .italy
  else if v.isStr "china" then .china else .other

/-- the inputs of the formulas; `z1` is `s.depth_1_0` -/
structure In where
  mag : F
  rup : F
  jb : F
  x : F
  dip : F
  tor : F
  z1 : F
  dpp : F
  v : F
  mech : Mech
  reg : Reg
  hw : Bool
  measured : Bool

/-- line 81 -/
def coshMag (m : F) : F := F.cosh (2 * F.max (m - 4.5) 0)

/-- lines 84-89: style of faulting -/
def fFlt (c : Row) (m : F) (mech : Mech) : F :=
  match mech with
  | .rs => c.c_1a + c.c_1c / coshMag m
  | .ns => c.c_1b + c.c_1d / coshMag m
  | .other => 0

/-- lines 92-93: magnitude scaling -/
def fMag (c : Row) (m : F) : F :=
  c.c_2 * (m - 6) + ((c.c_2 : F) - c.c_3) / c.c_n * F.log (1 + F.exp (c.c_n * ((c.c_m : F) - m)))

/-- lines 96-97: depth to the top of the rupture, relative to the average -/
def fTor (c : Row) (m tor : F) (mech : Mech) : F :=
  (c.c_7 + c.c_7b / coshMag m) * (tor - calcDepthTor m (mech = .rs))

/-- line 100: dip -/
def fDip (c : Row) (m dip : F) : F :=
  (c.c_11 + c.c_11b / coshMag m) * F.cos (F.radians dip) ^ 2

/-- lines 103-106: distance -/
def fDist (c : Row) (m r : F) : F :=
  c.c_4 * F.log (r + c.c_5 * F.cosh (c.c_6 * F.max (m - c.c_hm) 0)) +
    ((c.c_4a : F) - c.c_4) * F.log (F.sqrt (r ^ 2 + (c.c_rb : F) ^ 2))

/-- lines 109-114: regional scaling of the anelastic term -/
def scale (c : Row) (m : F) (reg : Reg) : F :=
  match reg with
  | .japan => F.iteLt 6 m (F.iteLt m 6.9 c.gamma_ji 1) 1
  | .italy => F.iteLt 6 m (F.iteLt m 6.9 c.gamma_ji 1) 1
  | .china => c.gamma_c
  | .other => 1

/-- lines 115-119: anelastic attenuation -/
def fAtn (c : Row) (m r : F) (reg : Reg) : F :=
  scale c m reg * (c.c_gamma1 + c.c_gamma2 / F.cosh (F.max (m - c.c_gamma3) 0)) * r

/-- lines 122-128: directivity -/
def fDir (c : Row) (m r dpp : F) : F :=
  c.c_8 * F.max (1 - F.max (r - 40) 0 / 30) 0 * F.min (F.max (m - 5.5) 0 / 0.8) 1 *
    F.exp (-c.c_8a * (m - c.c_8b) ^ 2) * dpp

/-- lines 131-137: hanging wall -/
def fHng (c : Row) (i : In) : F :=
  if i.hw then
    c.c_9 * F.cos (F.radians i.dip) * (c.c_9a + (1 - c.c_9a) * F.tanh (i.x / c.c_9b)) *
      (1 - F.sqrt (i.jb ^ 2 + i.tor ^ 2) / (i.rup + 1))
  else 0

/-- lines 69-139: `_calc_ln_resp_ref` -/
def lnRef (c : Row) (i : In) : F :=
  c.c_1 + fFlt c i.mag i.mech + fMag c i.mag + fTor c i.mag i.tor i.mech + fDip c i.mag i.dip +
    fDist c i.mag i.rup + fAtn c i.mag i.rup i.reg + fDir c i.mag i.rup i.dpp + fHng c i

/-- the coefficient of the nonlinear terms (lines 206-211 and 246-251) -/
def bNl (c : Row) (v : F) : F :=
  c.phi_2 * (F.exp (c.phi_3 * (F.min v 1130 - 360)) - F.exp (c.phi_3 * (1130 - 360)))

/-- lines 163-218: `calc_site_term`, for one row; `resp` is the reference motion (not its
logarithm, whatever the docstring says) -/
def siteTerm (c : Row) (resp v z1 : F) (japan : Bool) : F :=
  let phi1 : F := if japan then c.phi_1jp else c.phi_1
  let phi5 : F := if japan then c.phi_5jp else c.phi_5
  let phi6 : F := if japan then c.phi_6jp else c.phi_6
  let diff := 1000 * (z1 - calcDepth10 v japan)
  phi1 * F.min (F.log (v / 1130)) 0 +
    bNl c v * F.log ((F.exp (F.log resp) + c.phi_4) / c.phi_4) +
    phi5 * (1 - F.exp (-diff / phi6))

/-- lines 163-218: `calc_site_term`, over the table -/
def calcSiteTerm (resp : List F) (v z1 : F) (region : Val) : List F :=
  List.zipWith (fun c y => siteTerm c y v z1 (region.isStr "japan")) table resp

/-- lines 141-161 -/
def lnResp (c : Row) (i : In) : F :=
  lnRef c i + siteTerm c (F.exp (lnRef c i)) i.v i.z1 (i.reg = .japan)

/-- line 243 -/
def clippedMag (m : F) : F := F.clip m 5 6.5 - 5

/-- line 244 -/
def tauMag (c : Row) (m : F) : F := c.tau_1 + ((c.tau_2 : F) - c.tau_1) / 1.5 * clippedMag m

/-- lines 246-253 -/
def nl0 (c : Row) (i : In) : F :=
  bNl c i.v * (F.exp (lnRef c i) / (F.exp (lnRef c i) + c.phi_4))

/-- lines 255-258: `phi_nl` -/
def phi (c : Row) (i : In) : F :=
  let sigma2 : F := if i.reg = .japan then c.sigma_2jp else c.sigma_2
  let flag : F := if i.measured then 1 else 0
  (c.sigma_1 + (sigma2 - c.sigma_1) / 1.5 * clippedMag i.mag) *
    F.sqrt (c.sigma_3 * (1 - flag) + 0.7 * flag + (1 + nl0 c i) ^ 2)

/-- line 261, second result -/
def tau (c : Row) (i : In) : F := F.sqrt ((1 + nl0 c i) ^ 2 * tauMag c i.mag ^ 2)

/-- line 260 -/
def lnStd (c : Row) (i : In) : F :=
  F.sqrt ((1 + nl0 c i) ^ 2 * tauMag c i.mag ^ 2 + phi c i ^ 2)

/-- what the constructor leaves (lines 62-67) -/
structure Out where
  gmm : GmmOut
  tau : List F
  phi : List F

/-- lines 62-67 -/
def out (i : In) : Out :=
  ⟨⟨table.map fun c => lnResp c i, some (table.map fun c => lnStd c i)⟩,
   table.map fun c => tau c i, table.map fun c => phi c i⟩

open Classical in
/-- lines 268-281: the notice about the magnitude; `not (lo <= nan <= hi)` is true -/
def magNotice (s : Scenario) : Py Unit := do
  let mech ← s.getAttr "mechanism"
  let v ← s.getAttr "mag"
  let low ← v.lt 3.5
  let high ← v.gt (if mech.isStr "RS" || mech.isStr "NS" then 8 else 8.5)
  if low || high || v = .nan then Py.warn (.notice "mag") else pure ()

/-- lines 283-284 -/
def estDepthTor (s : Scenario) : Py F := do
  let m ← s.num "mag"
  let mech ← s.getAttr "mechanism"
  pure (calcDepthTor m (mech.isStr "RS"))

/-- lines 286-288 -/
def estDepth10 (s : Scenario) : Py F := do
  let v ← s.num "v_s30"
  let r ← s.getAttr "region"
  pure (calcDepth10 v (r.isStr "japan"))

/-- lines 263-288: `_check_inputs` after `super()._check_inputs()` -/
def fill (s : Scenario) : Py Scenario := do
  magNotice s
  let s ← fillGet "depth_tor" estDepthTor s
  fillGet "depth_1_0" estDepth10 s

/-- the class -/
def cls : ModelClass Out where
  params := Decls.cy14
  fill := fill
  compute := fun s => do
    let mag ← s.num "mag"
    let rup ← s.num "dist_rup"
    let jb ← s.num "dist_jb"
    let x ← s.num "dist_x"
    let dip ← s.num "dip"
    let tor ← s.num "depth_tor"
    let z1 ← s.num "depth_1_0"
    let dpp ← s.num "dpp_centered"
    let v ← s.num "v_s30"
    let mech ← s.getAttr "mechanism"
    let reg ← s.getAttr "region"
    let hw ← s.getAttr "on_hanging_wall"
    let src ← s.getAttr "vs_source"
    pure (out ⟨mag, rup, jb, x, dip, tor, z1, dpp, v, mechOf mech, regOf reg, hw.truthy,
      src.isStr "measured"⟩)

end
end CY14
