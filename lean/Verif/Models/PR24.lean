import Verif.Models.PR23

/-! # Pinilla-Ramos et al. (2024): src/pygmm/pinilla_ramos_et_al_2024.py -/

namespace PR24
noncomputable section

/-- the event types of lines 103, 132, 149 -/
inductive Kind
  | interface | slab
deriving DecidableEq

/-- the regions of line 108 -/
inductive Region
  | japan | newZealand | southAmerica | taiwan
deriving DecidableEq

/-- lines 95-110: `_validate_region_event_type`, with the strings it lets through -/
def validate (et rg : Val) : Py (Kind × Region) :=
  if et.isStr "interface" ∧ rg.isStr "Taiwan" then Py.raise (.valueError "Taiwan")
  else if ¬ (et.isStr "interface" ∨ et.isStr "slab") then Py.raise (.valueError "event_type")
  else
    let k : Kind := if et.isStr "interface" then .interface else .slab
    if rg.isStr "Japan" then pure (k, .japan)
    else if rg.isStr "New Zealand" then pure (k, .newZealand)
    else if rg.isStr "South America" then pure (k, .southAmerica)
    else if rg.isStr "Taiwan" then pure (k, .taiwan)
    else Py.raise (.valueError "region")

/-- the inputs of the formulas -/
structure In where
  mag : F
  rup : F
  v : F
  kind : Kind
  region : Region

/-- lines 128, 134-141, 151-160: `c3_base`, `c4_1` (interface events in Taiwan keep the initial
zeros; construction refuses them) -/
def regional : Kind → Region → ℚ × ℚ
  | .interface, .japan => (0.03, -2.485)
  | .interface, .newZealand => (0.024, -2.420)
  | .interface, .southAmerica => (0.024, -2.248)
  | .interface, .taiwan => (0, 0)
  | .slab, .japan => (0.046, -1.480)
  | .slab, .newZealand => (0.032, -1.252)
  | .slab, .southAmerica => (0.042, -1.510)
  | .slab, .taiwan => (0.038, -1.151)

/-- lines 134, 151: `c3_1`, `c3_12` -/
def pathCoeff : Kind → ℚ × ℚ
  | .interface => (0.031, 0.029)
  | .slab => (0.013, 0.020)

/-- lines 134, 146-147, 151, 162-171: `source_component` -/
def source (s : In) : F :=
  match s.kind with
  | .interface => 5.268 * (10 : F) ^ ((s.mag - 7.0) * 0.275)
  | .slab =>
    F.iteLt s.mag 6.0 (0.340 * (10 : F) ^ ((s.mag - 4.250) * 0.5))
      (0.340 * (10 : F) ^ ((6.0 - 4.250) * 0.5 : F) + 2.770 * (s.mag - 6.0) / (8.5 - 6.0))

/-- line 174: `site_component` -/
def site (s : In) : F := (regional s.kind s.region).2 * F.log (s.v / 3100)

/-- lines 177-180: `path_component` -/
def path (s : In) : F :=
  F.iteLt s.rup 250 ((pathCoeff s.kind).1 * s.rup)
    ((pathCoeff s.kind).2 * (s.rup - 250) + 250 * (pathCoeff s.kind).1)

/-- lines 112-185: `_calc_d575_median` -/
def median75 (s : In) : F := source s + site s + path s + s.rup * (regional s.kind s.region).1

/-- lines 265-268: `a0, a1, a2, b1, b2, c1` -/
def sigmaCoeff : Kind → ℚ × ℚ × ℚ × ℚ × ℚ × ℚ
  | .interface => (0.3107, -0.0393, 0.0062, -0.0519, 0.0041, 0.0028)
  | .slab => (0.3035, -0.0188, 0.004, -0.0288, 0.0019, 0.0038)

/-- lines 251-276: `_calc_d575_sigma` -/
def sigma75 (s : In) : F :=
  let (a0, a1, a2, b1, b2, c1) := sigmaCoeff s.kind
  a0 + a1 * s.rup / 100 + a2 * (s.rup / 100) ^ 2 + b1 * s.mag + b2 * s.mag ^ 2 + F.log s.v * c1

/-- one entry of the arrays of lines 60-81 and 297-622 -/
structure Row where
  energy : ℚ
  cMedian : ℚ
  a0 : ℚ
  m1 : ℚ
  r1 : ℚ
  v1 : ℚ
  rho : ℚ
  sigmaC : ℚ
deriving DecidableEq

/-- lines 60-81, 297-458 -/
def tableInterface : List Row :=
  [⟨0.10, 0.04020966, 0.00733073, 0.00014309, 0.00240356, 0.00547392, -0.04461951, 0.01395505⟩,
   ⟨0.15, 0.08388851, 0.0082492, 0.00117448, 0.00495213, 0.01140383, 0.06461454, 0.02371422⟩,
   ⟨0.20, 0.13077859, 0.00374054, 0.00259631, 0.00759418, 0.01633181, 0.14724378, 0.03224683⟩,
   ⟨0.25, 0.1815641, -0.00437519, 0.00410708, 0.0103042, 0.02028365, 0.20758114, 0.03982668⟩,
   ⟨0.30, 0.23651304, -0.01719855, 0.00587722, 0.01287056, 0.023049, 0.2514994, 0.04629945⟩,
   ⟨0.35, 0.29491758, -0.03221052, 0.00790171, 0.01498933, 0.02498088, 0.28656202, 0.05151767⟩,
   ⟨0.40, 0.35754282, -0.04872026, 0.01010809, 0.01646171, 0.02612515, 0.31098974, 0.05540747⟩,
   ⟨0.45, 0.42528554, -0.06537968, 0.01227336, 0.01716948, 0.02645767, 0.33129013, 0.05772215⟩,
   ⟨0.50, 0.4974965, -0.0775099, 0.01365048, 0.01753574, 0.02556579, 0.34623991, 0.05816558⟩,
   ⟨0.55, 0.57657072, -0.08107197, 0.01360863, 0.01709783, 0.02366726, 0.3543134, 0.05630814⟩,
   ⟨0.60, 0.66322614, -0.07769041, 0.01233418, 0.01588001, 0.02005288, 0.3577682, 0.05154701⟩,
   ⟨0.65, 0.76042762, -0.06689982, 0.00990628, 0.01298844, 0.01446657, 0.3535797, 0.04259618⟩,
   ⟨0.70, 0.87127838, -0.04362409, 0.00596924, 0.00821674, 0.00779351, 0.33183304, 0.02792395⟩,
   ⟨0.75, 1.0, 0.0, 0.0, 0.0, 0.0, 0.0, 0.0⟩,
   ⟨0.80, 1.156691, 0.07075031, -0.00864832, -0.01349763, -0.00992416, -0.38333019, 0.04378463⟩,
   ⟨0.85, 1.35981923, 0.19400743, -0.02218093, -0.03821902, -0.02254522, -0.44116537, 0.1063117⟩,
   ⟨0.90, 1.64806185, 0.40879893, -0.04374555, -0.08847199, -0.04507584, -0.4875535, 0.2196963⟩,
   ⟨0.95, 2.14387062, 0.85474174, -0.07625391, -0.21293647, -0.07641776, -0.53284828, 0.48117887⟩]

/-- lines 60-81, 461-622 -/
def tableSlab : List Row :=
  [⟨0.10, 0.03784117, -0.02602886, 0.0052392, 0.00226879, 0.00409751, 0.23703883, 0.01952566⟩,
   ⟨0.15, 0.08352235, -0.01820382, 0.00598378, 0.00419625, 0.01193314, 0.2062694, 0.02989091⟩,
   ⟨0.20, 0.13083025, -0.0179457, 0.00764049, 0.00701796, 0.01968596, 0.26652301, 0.03838868⟩,
   ⟨0.25, 0.18030833, -0.02417655, 0.00998344, 0.01021163, 0.02664136, 0.33081508, 0.04680806⟩,
   ⟨0.30, 0.23239066, -0.03142039, 0.01243448, 0.0129733, 0.03281428, 0.38018048, 0.05476812⟩,
   ⟨0.35, 0.28891588, -0.03858319, 0.01438996, 0.01554978, 0.03781827, 0.41419228, 0.06195816⟩,
   ⟨0.40, 0.34921976, -0.04451747, 0.01589705, 0.01720173, 0.04107292, 0.43660475, 0.06758683⟩,
   ⟨0.45, 0.41510462, -0.04873467, 0.01668025, 0.0182664, 0.04268421, 0.45004969, 0.0712496⟩,
   ⟨0.50, 0.48731871, -0.04927577, 0.01651024, 0.01846989, 0.04266614, 0.45471735, 0.07242325⟩,
   ⟨0.55, 0.56681198, -0.04910907, 0.01585809, 0.01753247, 0.04062058, 0.45897072, 0.07068507⟩,
   ⟨0.60, 0.65450169, -0.04485417, 0.01396992, 0.01580923, 0.03576105, 0.45725023, 0.0647861⟩,
   ⟨0.65, 0.75358998, -0.03689654, 0.01083706, 0.01256225, 0.0275821, 0.44906822, 0.05349118⟩,
   ⟨0.70, 0.86718004, -0.02248334, 0.00631921, 0.00751923, 0.0162236, 0.42848698, 0.03450956⟩,
   ⟨0.75, 1.0, 0.0, 0.0, 0.0, 0.0, 0.0, 0.0⟩,
   ⟨0.80, 1.16409534, 0.04127725, -0.00947123, -0.01202052, -0.02139202, -0.46673359, 0.05308633⟩,
   ⟨0.85, 1.38075492, 0.10055556, -0.02266151, -0.03231773, -0.05326305, -0.51548056, 0.1307839⟩,
   ⟨0.90, 1.69269723, 0.20353897, -0.04240792, -0.07103404, -0.10313415, -0.55293589, 0.26720298⟩,
   ⟨0.95, 2.22279683, 0.38563394, -0.07401577, -0.16362926, -0.21286673, -0.60041303, 0.56903831⟩]

/-- the arrays that `_get_energy_coefficients` indexes -/
def table : Kind → List Row
  | .interface => tableInterface
  | .slab => tableSlab

/-- lines 60-81: `ENERGY_THRESHOLDS` -/
def thresholds : List ℚ :=
  [0.10, 0.15, 0.20, 0.25, 0.30, 0.35, 0.40, 0.45, 0.50, 0.55, 0.60, 0.65, 0.70, 0.75, 0.80, 0.85,
   0.90, 0.95]

/-- lines 293, 745: `np.argmin(np.abs(ENERGY_THRESHOLDS - energy))` -/
def closest (energy : ℝ) : ℕ := argmin (thresholds.map fun t : ℚ => F.abs ((t : F) - F.ofReal energy))

/-- lines 459, 623, 652, 691: `n`, `n2` -/
def power : Kind → F
  | .interface => 0.15
  | .slab => 0.25

/-- lines 646-656: the base model -/
def base (s : In) : DurBand where
  median := median75 s
  plus := (median75 s ^ power s.kind + sigma75 s) ^ (1 / power s.kind)
  minus := (median75 s ^ power s.kind - sigma75 s) ^ (1 / power s.kind)

/-- lines 669-671: `c_ratio` -/
def ratio (c : Row) (s : In) : F :=
  c.cMedian + c.a0 + c.m1 * s.mag + c.r1 * s.rup / 100 + c.v1 * F.log (s.v / 3100)

/-- lines 677-688: `d5x_sigma` -/
def sigma5x (c : Row) (s : In) : F :=
  let n2 := power s.kind
  F.sqrt (sigma75 s ^ 2 * ratio c s ^ (2 * n2)
    + n2 ^ 2 * F.ofRat c.sigmaC ^ 2 * median75 s ^ (2 * n2) * ratio c s ^ (2 * n2 - 2)
    + 2 * n2 * c.rho * ratio c s ^ (2 * n2 - 1) * median75 s ^ n2 * sigma75 s * c.sigmaC)

/-- lines 674, 690-695: the conditional model -/
def condBand (c : Row) (s : In) : DurBand where
  median := median75 s * ratio c s
  plus := ((median75 s * ratio c s) ^ power s.kind + sigma5x c s) ^ (1 / power s.kind)
  minus := ((median75 s * ratio c s) ^ power s.kind - sigma5x c s) ^ (1 / power s.kind)

open Classical in
/-- lines 627-695: `_calc_duration` for numeric inputs; the index is always in range -/
def band (s : In) (energy : ℝ) : DurBand :=
  if IsClose energy 0.75 then base s
  else match (table s.kind)[closest energy]? with
    | some c => condBand c s
    | none => ⟨F.nan, F.nan, F.nan⟩

/-- the scenario as the methods read it (lines 120-125, 259-262, 640-644) after the validation of
lines 88, 95-110 -/
def read (s : Scenario) : Py In := do
  let et ← s.getAttr "event_type"
  let rg ← s.getAttr "region"
  let kr ← validate et rg
  let mag ← s.num "mag"
  let rup ← s.num "dist_rup"
  let v ← s.num "v_s30"
  pure ⟨mag, rup, v, kr.1, kr.2⟩

/-- lines 627-695: `_calc_duration` of a validated scenario -/
def calcDuration (s : Scenario) (energy : ℝ) : Py DurBand := do
  let i ← read s
  pure (band i energy)

/-- lines 83-93: the class -/
def cls : ModelClass DurBand where
  params := Decls.pr24
  compute := fun s => calcDuration s 0.75

open Classical in
/-- lines 712-755: `duration_for_energy` of a constructed model; the warning of lines 749-752 is
a notice -/
def durationForEnergy (m : Instance DurBand) (energy : ℝ) : Py DurBand :=
  if energy < 0.10 ∨ 0.95 < energy then Py.raise (.valueError "energy")
  else if ∃ t ∈ thresholds, IsClose (t : ℝ) energy 1e-3 then calcDuration m.scenario energy
  else do
    Py.warn (.notice "closest energy threshold")
    calcDuration m.scenario ((thresholds.getD (closest energy) 0 : ℚ) : ℝ)

/-- lines 187-190: the property `d575_median` -/
def d575Median (m : Instance DurBand) : Py F := do
  let i ← read m.scenario
  pure (median75 i)

/-- lines 192-195: the property `d575_sigma` -/
def d575Sigma (m : Instance DurBand) : Py F := do
  let i ← read m.scenario
  pure (sigma75 i)

/-- lines 214-227: `scaling_factors` -/
def scaling : List (String × ℚ) :=
  [("D5-10", 0.25), ("D5-20", 0.35), ("D5-30", 0.50), ("D5-40", 0.65), ("D5-50", 0.75),
   ("D5-60", 0.85), ("D5-70", 0.95), ("D5-75", 1.00), ("D5-80", 1.10), ("D5-85", 1.25),
   ("D5-90", 1.45), ("D5-95", 1.80)]

/-- lines 197-232: `d5x_median` -/
def d5xMedian (m : Instance DurBand) (threshold : String) : Py F := do
  let d ← d575Median m
  match scaling.lookup threshold with
  | some q => pure (d * F.ofRat q)
  | none => Py.raise (.valueError "Unsupported energy threshold")

/-- lines 234-249: `d5x_sigma` ignores the threshold -/
def d5xSigma (m : Instance DurBand) (_threshold : String) : Py F := d575Sigma m

/-- `np.atleast_1d(x)[0]` -/
def first (l : List ℝ) : Py ℝ :=
  match l with
  | [] => Py.raise .indexError
  | x :: _ => pure x

open Classical in
/-- lines 759-816: `duration_model`, the legacy function; the arrays are lists (a number is a list
of one), and the result is three arrays of length one -/
def durationModel (mag rrup vs30 : List ℝ) (region eqType : String) (energy : ℝ) :
    Py (List F × List F × List F) := do
  let m ← first mag
  let r ← first rrup
  let v ← first vs30
  let s ← Scenario.init [("mag", .num m), ("dist_rup", .num r), ("v_s30", .num v),
    ("event_type", .str eqType), ("region", .str region)]
  let inst ← cls.new s
  let b ← (if IsClose energy 0.75 then pure inst.out else durationForEnergy inst energy)
  pure ([b.median], [b.plus], [b.minus])

end
end PR24
