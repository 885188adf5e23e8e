import Verif.Models.Estimators
import Verif.Fill
import Verif.Decls
import Verif.Data.CB14

/-! # Campbell & Bozorgnia (2014): src/pygmm/campbell_bozorgnia_2014.py -/

namespace CB14
noncomputable section

/-- `s.mechanism` as the formulas distinguish it -/
inductive Mech
  | rs | ns | other
deriving DecidableEq

/-- `s.region` as the formulas distinguish it (lines 189-194, 248, 367) -/
inductive Reg
  | japan | italy | other
deriving DecidableEq

/-- mechanism of a scenario value -/
def mechOf (v : Val) : Mech := if v.isStr "RS" then .rs else if v.isStr "NS" then .ns else .other

/-- region of a scenario value; the comparison with the list `["china"]` (line 191) is never
true -/
def regOf (v : Val) : Reg :=
  if v.isStr "japan" then .japan else if v.isStr "italy" then .italy else .other

/-- the inputs of the formulas -/
structure In where
  mag : F
  rup : F
  jb : F
  x : F
  dip : F
  width : F
  tor : F
  hyp : F
  z25 : F
  v : F
  mech : Mech
  reg : Reg

/-- lines 131-137: magnitude term (the loop stops at the first threshold not exceeded) -/
def fMag (c : Row) (m : F) : F :=
  c.c_0 + c.c_1 * m + F.iteLt 4.5 m (c.c_2 * (m - 4.5) +
    F.iteLt 5.5 m (c.c_3 * (m - 5.5) + F.iteLt 6.5 m (c.c_4 * (m - 6.5)) 0) 0) 0

/-- line 140: geometric attenuation -/
def fDis (c : Row) (m r : F) : F :=
  (c.c_5 + c.c_6 * m) * F.log (F.sqrt (r ^ 2 + (c.c_7 : F) ^ 2))

/-- lines 142-149: style of faulting -/
def fFlt (c : Row) (m : F) (mech : Mech) : F :=
  match mech with
  | .rs => c.c_8 * F.clip (m - 4.5) 0 1
  | .ns => c.c_9 * F.clip (m - 4.5) 0 1
  | .other => 0

/-- lines 152-161: `f_hngRx` -/
def fHngRx (c : Row) (m x dip width : F) : F :=
  let r1 := width * F.cos (F.radians dip)
  let r2 := 62 * m - 350
  F.iteLt x 0 0 (F.iteLe x r1
    (c.h_1 + c.h_2 * (x / r1) + c.h_3 * (x / r1) ^ 2)
    (F.max 0 (c.h_4 + c.h_5 * ((x - r1) / (r2 - r1)) + c.h_6 * ((x - r1) / (r2 - r1)) ^ 2)))

/-- lines 163-166 -/
def fHngRrup (r jb : F) : F := F.iteEq r 0 1 ((r - jb) / r)

/-- lines 168-171 -/
def fHngM (c : Row) (m : F) : F :=
  F.iteLe m 5.5 0 (F.min (m - 5.5) 1 * (1 + c.a_2 * (m - 6.5)))

/-- line 173 -/
def fHngZ (tor : F) : F := F.iteLt 16.66 tor 0 (1 - 0.06 * tor)

/-- lines 151-176: hanging-wall term -/
def fHng (c : Row) (i : In) : F :=
  c.c_10 * fHngRx c i.mag i.x i.dip i.width * fHngRrup i.rup i.jb * fHngM c i.mag * fHngZ i.tor
    * ((90 - i.dip) / 45)

/-- lines 234-246: site response.  `pga` is `none` for the reference pass with
`pga_ref = nan`: then the nonlinear branch is `nan`. -/
def fSite (c : Row) (pga : Option F) (v : F) : F :=
  let r := v / c.k_1
  F.iteLe v c.k_1
    (match pga with
      | none => F.nan
      | some p => c.c_11 * F.log r + c.k_2 * (F.log (p + 1.88 * r ^ (1.18 : F)) - F.log (p + 1.88)))
    ((c.c_11 + c.k_2 * 1.18) * F.log r)

/-- lines 248-255: the correction for Japan -/
def fSiteJp (c : Row) (v : F) : F :=
  let r := v / c.k_1
  F.iteLe v 200 ((c.c_12 + c.k_2 * 1.18) * (F.log r - F.log (200 / c.k_1)))
    ((c.c_13 + c.k_2 * 1.18) * F.log r)

/-- lines 264-273: basin response -/
def fSed (c : Row) (z : F) (japan : Bool) : F :=
  F.iteLe z 1 (c.c_14 * (z - 1) + (if japan then c.c_15 * (z - 1) else 0))
    (F.iteLe z 3 0 (c.c_16 * c.k_3 * F.exp (-0.75) * (1 - F.exp (-0.25 * (z - 3)))))

/-- lines 202-275: `calc_site_term`, one row; the reference pass replaces the depth by the
estimate for its velocity (lines 258-260).  Simplification: the second pass is `some p`; were
`p` itself `nan` (its reference pass undefined), the code would use the estimate there too,
and the model calls the nonlinear rows undefined and keeps the scenario's depth. -/
def siteTerm (c : Row) (pga : Option F) (v z25 : F) (japan : Bool) : F :=
  fSite c pga v + (if japan then fSiteJp c v else 0) +
    fSed c (match pga with | none => depth25OfVs v japan | some _ => z25) japan

/-- lines 180-183: hypocentral depth term -/
def fHyp (c : Row) (m hyp : F) : F :=
  F.clip (hyp - 7) 0 13 * (c.c_17 + (c.c_18 - c.c_17) * F.clip (m - 5.5) 0 1)

/-- line 186: dip term -/
def fDip (c : Row) (m dip : F) : F := c.c_19 * dip * F.clip (5.5 - m) 0 1

/-- lines 188-196: anelastic attenuation -/
def fAtn (c : Row) (r : F) (reg : Reg) : F :=
  (c.c_20 + (match reg with
    | .japan => (c.dc_20jp : F)
    | .italy => (c.dc_20jp : F)
    | .other => (c.dc_20ca : F))) * F.max (r - 80) 0

/-- lines 110-199: `_calc_ln_resp`, one row -/
def lnResp (c : Row) (i : In) (pga : Option F) (v : F) : F :=
  fMag c i.mag + fDis c i.mag i.rup + fFlt c i.mag i.mech + fHng c i +
    siteTerm c pga v i.z25 (i.reg = .japan) + fHyp c i.mag i.hyp + fDip c i.mag i.dip +
    fAtn c i.rup i.reg

/-- line 106 -/
def pgaRef (i : In) : F :=
  F.exp ((table.map fun c => lnResp c i none 1100).getD 21 F.nan)

/-- `COEFF[INDEX_PGA]` (line 39): the row before the last -/
def pgaRow : Row := table.getD 21 ⟨0,0,0,0,0,0,0,0,0,0,0,0,0,0,0,0,0,0,0,0,0,0,0,0,0,0,0,0,0,0,0,0,0,0,0,0,0,0,0,0,0,0,0,0,0,0⟩

/-- line 295 -/
def tauY (c : Row) (m : F) : F := c.tau_2 + (c.tau_1 - c.tau_2) * F.clip (5.5 - m) 0 1
/-- line 296 -/
def phiY (c : Row) (m : F) : F := c.phi_2 + (c.phi_1 - c.phi_2) * F.clip (5.5 - m) 0 1

/-- lines 298-308: `alpha` -/
def alpha (c : Row) (p v : F) : F :=
  F.iteLt v c.k_1
    (c.k_2 * p * (1 / (p + 1.88 * (v / c.k_1) ^ (1.18 : F)) - 1 / (p + 1.88))) 0

/-- lines 310-315 -/
def tau (c : Row) (m p v : F) : F :=
  let a := alpha c p v
  let tP := tauY pgaRow m
  F.sqrt (tauY c m ^ 2 + a ^ 2 * tP ^ 2 + 2 * a * c.rho_lnPGAlnY * tauY c m * tP)

/-- lines 317-327 -/
def phi (c : Row) (m p v : F) : F :=
  let a := alpha c p v
  let phP := phiY pgaRow m
  let phPB := F.sqrt (phP ^ 2 - (pgaRow.phi_lnAF : F) ^ 2)
  let phB := F.sqrt (phiY c m ^ 2 - (c.phi_lnAF : F) ^ 2)
  F.sqrt (phB ^ 2 + (c.phi_lnAF : F) ^ 2 + a ^ 2 * (phP ^ 2 - (pgaRow.phi_lnAF : F) ^ 2)
    + 2 * a * c.rho_lnPGAlnY * phB * phPB)

/-- line 329 -/
def lnStd (c : Row) (m p v : F) : F := F.sqrt (phi c m p v ^ 2 + tau c m p v ^ 2)

/-- what the constructor leaves (lines 106-108) -/
structure Out where
  gmm : GmmOut
  tau : List F
  phi : List F

/-- lines 106-108 -/
def out (i : In) : Out :=
  ⟨⟨table.map fun c => lnResp c i (some (pgaRef i)) i.v,
    some (table.map fun c => lnStd c i.mag (pgaRef i) i.v)⟩,
   table.map fun c => tau c i.mag (pgaRef i) i.v,
   table.map fun c => phi c i.mag (pgaRef i) i.v⟩

/-- lines 70-78: the notice for one mechanism -/
def magNotice (mech : String) (limit : ℝ) (s : Scenario) : Py Unit := do
  let m ← s.getAttr "mechanism"
  if m.isStr mech then do
    let v ← s.getAttr "mag"
    let big ← v.gt limit
    if big then Py.warn (.notice mech) else pure ()
  else pure ()

/-- lines 79-80 -/
def estDepth25 (s : Scenario) : Py F := do
  let v ← s.getAttr "v_s30"
  let r ← s.getAttr "region"
  let z ← s.getAttr "depth_1_0"
  calcDepth25 v r z

/-- lines 82-83 -/
def estDepthTor (s : Scenario) : Py F := do
  let m ← s.num "mag"
  let mech ← s.getAttr "mechanism"
  pure (CY14.calcDepthTor m (mech.isStr "RS"))

/-- lines 85-88 -/
def estWidth (s : Scenario) : Py F := do
  let m ← s.num "mag"
  let dip ← s.num "dip"
  let tor ← s.num "depth_tor"
  let bot ← s.num "depth_bot"
  pure (calcWidth m dip tor bot)

/-- lines 90-91 -/
def estDepthBor (s : Scenario) : Py F := do
  let tor ← s.num "depth_tor"
  let dip ← s.num "dip"
  let w ← s.num "width"
  pure (calcDepthBor tor dip w)

/-- lines 93-96 -/
def estDepthHyp (s : Scenario) : Py F := do
  let m ← s.num "mag"
  let dip ← s.num "dip"
  let tor ← s.num "depth_tor"
  let bor ← s.num "depth_bor"
  pure (calcDepthHyp m dip tor bor)

/-- lines 65-96: `_check_inputs` after `super()._check_inputs()` -/
def fill (s : Scenario) : Py Scenario := do
  magNotice "SS" 8.5 s
  magNotice "RS" 8 s
  magNotice "NS" 7.5 s
  let s ← fillAttr "depth_2_5" estDepth25 s
  let s ← fillAttr "depth_tor" estDepthTor s
  let s ← fillAttr "width" estWidth s
  let s ← fillAttr "depth_bor" estDepthBor s
  fillAttr "depth_hyp" estDepthHyp s

/-- the class -/
def cls : ModelClass Out where
  params := Decls.cb14
  fill := fill
  compute := fun s => do
    let mag ← s.num "mag"
    let rup ← s.num "dist_rup"
    let jb ← s.num "dist_jb"
    let x ← s.num "dist_x"
    let dip ← s.num "dip"
    let width ← s.num "width"
    let tor ← s.num "depth_tor"
    let hyp ← s.num "depth_hyp"
    let z25 ← s.num "depth_2_5"
    let v ← s.num "v_s30"
    let mech ← s.getAttr "mechanism"
    let reg ← s.getAttr "region"
    pure (out ⟨mag, rup, jb, x, dip, width, tor, hyp, z25, v, mechOf mech, regOf reg⟩)

end
end CB14
