import Verif.Models.Estimators
import Verif.Fill
import Verif.Decls
import Verif.Data.BSSA14

/-! # Boore, Stewart, Seyhan & Atkinson (2014):
src/pygmm/boore_stewart_seyhan_atkinson_2014.py -/

namespace BSSA14
noncomputable section

/-- `s.mechanism` as lines 173-181 distinguish it -/
inductive Mech
  | ss | ns | rs | other
deriving DecidableEq

/-- `s.region` as lines 189-195 distinguish it: `["china", "turkey"]`, `["italy", "japan"]`,
anything else -/
inductive Reg
  | chinaTurkey | italyJapan | other
deriving DecidableEq

/-- lines 173-181 -/
def mechOf (v : Val) : Mech :=
  if v.isStr "SS" then .ss else if v.isStr "NS" then .ns else if v.isStr "RS" then .rs else .other

/-- lines 189-195 -/
def regOf (v : Val) : Reg :=
  if v.isStr "china" || v.isStr "turkey" then .chinaTurkey
  else if v.isStr "italy" || v.isStr "japan" then .italyJapan else .other

/-- the inputs of the formulas; `japanBasin` is the outcome of `region in ["japan"]` inside
`CY14.calc_depth_1_0`, which receives `s.depth_1_0` as `region` (line 208) -/
structure In where
  mag : F
  jb : F
  v : F
  z1 : Option F
  mech : Mech
  reg : Reg
  japanBasin : Bool

/-- lines 173-181: `event`, before the magnitude terms -/
def event0 (c : Row) : Mech → F
  | .ss => c.e_1
  | .ns => c.e_2
  | .rs => c.e_3
  | .other => c.e_0

/-- lines 173-185: the event term.  The masked in-place additions to the copy are, row by row, a
choice between two sums. -/
def event (c : Row) (m : F) (mech : Mech) : F :=
  event0 c mech + F.iteLe m c.M_h (c.e_4 * (m - c.M_h) + c.e_5 * (m - c.M_h) ^ 2) (c.e_6 * (m - c.M_h))

/-- lines 189-195 -/
def dc3 (c : Row) : Reg → ℚ
  | .chinaTurkey => c.dc_3ct
  | .italyJapan => c.dc_3ij
  | .other => c.dc_3global

/-- line 197 -/
def dist (c : Row) (r : F) : F := F.sqrt (r ^ 2 + (c.h : F) ^ 2)

/-- lines 198-200 -/
def path (c : Row) (m r : F) (reg : Reg) : F :=
  (c.c_1 + c.c_2 * (m - c.M_ref)) * F.log (dist c r / c.R_ref) +
    ((c.c_3 : F) + dc3 c reg) * (dist c r - c.R_ref)

/-- line 247 -/
def fLin (c : Row) (v : F) : F := c.c * F.log (F.min v c.V_c / c.V_ref)

/-- lines 250-252 -/
def f2 (c : Row) (v : F) : F :=
  c.f_4 * (F.exp (c.f_5 * (F.min v 760 - 360)) - F.exp (c.f_5 * (760 - 360)))

/-- line 253 -/
def fNl (c : Row) (pga v : F) : F := c.f_1 + f2 c v * F.log ((pga + c.f_3) / c.f_3)

/-- lines 256-268; below 0.65 s (and for PGA and PGV) the term stays zero -/
def fDz1 (c : Row) (v : F) (z1 : Option F) (japan : Bool) : F :=
  let delta : F := match z1 with
    | some z => z - F.exp (F.log (CY14.calcDepth10 v japan))
    | none => 0
  if 0.65 ≤ c.period then F.min (c.f_6 * delta) c.f_7 else 0

/-- lines 215-272: `calc_site_term`, for one row -/
def siteTerm (c : Row) (pga v : F) (z1 : Option F) (japan : Bool) : F :=
  fLin c v + fNl c pga v + fDz1 c v z1 japan

/-- lines 153-212: `_calc_ln_resp`, for one row.  `none` is the reference pass with
`pga_ref = nan`: no site term.  (In the second pass `pga_ref` would be `nan` too if the first
pass were undefined; then the event and path terms are undefined as well.) -/
def lnResp (c : Row) (i : In) : Option F → F
  | none => event c i.mag i.mech + path c i.mag i.jb i.reg + 0
  | some p => event c i.mag i.mech + path c i.mag i.jb i.reg + siteTerm c p i.v i.z1 i.japanBasin

/-- line 123: the reference PGA, from row `INDEX_PGA = 1` -/
def pgaRef (i : In) : F := F.exp ((table.map fun c => lnResp c i none).getD 1 F.nan)

/-- line 287 -/
def tau (c : Row) (i : In) : F := c.tau_1 + ((c.tau_2 : F) - c.tau_1) * (F.clip i.mag 4.5 5.5 - 4.5)

/-- lines 288-299 -/
def phi (c : Row) (i : In) : F :=
  c.phi_1 + ((c.phi_2 : F) - c.phi_1) * (F.clip i.mag 4.5 5.5 - 4.5)
    - c.dphi_V * F.clip (F.log (c.V_2 / i.v) / F.log ((c.V_2 : F) / c.V_1)) 0 1
    + c.dphi_R * F.clip (F.log (F.max i.jb 0.1 / c.R_1) / F.log ((c.R_2 : F) / c.R_1)) 0 1

/-- line 301 -/
def lnStd (c : Row) (i : In) : F := F.sqrt (phi c i ^ 2 + tau c i ^ 2)

/-- what the constructor leaves (lines 123-125) -/
structure Out where
  gmm : GmmOut
  tau : List F
  phi : List F

/-- lines 123-125 -/
def out (i : In) : Out :=
  ⟨⟨table.map fun c => lnResp c i (some (pgaRef i)), some (table.map fun c => lnStd c i)⟩,
   table.map fun c => tau c i, table.map fun c => phi c i⟩

open Classical in
/-- the notice when `not (lo <= mag <= hi)` -/
def notice (lo hi : ℝ) (v : Val) : Py Unit := do
  let low ← v.lt lo
  let high ← v.gt hi
  if low || high || v = .nan then Py.warn (.notice "mag") else pure ()

/-- lines 131-151 -/
def magNotice (s : Scenario) : Py Unit := do
  let mech ← s.getAttr "mechanism"
  let v ← s.getAttr "mag"
  if mech.isStr "SS" then notice 3 8.5 v
  else if mech.isStr "NS" then notice 3 7 v else pure ()

/-- the class; `_check_inputs` (lines 127-151) only adds the notices -/
def cls : ModelClass Out where
  params := Decls.bssa14
  fill := fun s => do
    magNotice s
    pure s
  compute := fun s => do
    let mech ← s.getAttr "mechanism"
    let mag ← s.num "mag"
    let reg ← s.getAttr "region"
    let jb ← s.num "dist_jb"
    let v ← s.num "v_s30"
    let z1 ← s.optNum "depth_1_0"
    let z ← s.getAttr "depth_1_0"
    pure (out ⟨mag, jb, v, z1, mechOf mech, regOf reg, z.isStr "japan"⟩)

end
end BSSA14
