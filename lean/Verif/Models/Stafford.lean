import Verif.Models.PR23

/-! # Stafford (2017): src/pygmm/stafford_2017.py, with the coefficients of
src/pygmm/data/stafford_2017.json written where they are used -/

namespace Stafford
noncomputable section

/-- lines 30-46: `_sigmoid` -/
def sigmoid (f a0 a1 a2 : F) : F := a0 / (1 + F.exp (-a2 * F.log (f / a1)))

/-- lines 48-58: `compute_corner_frequency` -/
def cornerFrequency (mag : F) : F := (10 : F) ^ (2.181 - 0.496 * mag)

/-- lines 60-79: `compute_gamma_E` -/
def gammaE (fMin mag : F) : F :=
  let x := fMin / cornerFrequency mag
  (-0.4690) + sigmoid x 0.1275 0.7793 3.0324 + 0.0106 * F.log (x / 0.7793)

/-- lines 81-95: `compute_eta_A` -/
def etaA (f : F) : F := sigmoid f 0.7606 0.2993 1.5837 * (1 + sigmoid f (-0.5094) 24.579 2.3518)

/-- lines 97-109: `compute_gamma_A` -/
def gammaA (f : F) : F :=
  let minF := F.min f 10.0
  let s := minF / (minF + 1.4802 * (1 - minF / 10.0))
  0.9515 + s * 1.2752 + -0.3361 * F.log (F.max f 10.0 / 10.0) ^ 2

/-- lines 111-126: `compute_eta_S` -/
def etaS (f : F) : F :=
  0.1126 * F.log (F.max (F.min f 4.0) 0.25 / 0.25) + -0.1068 * F.log (F.max f 4.0 / 4.0)

/-- lines 128-142: `compute_gamma_S` -/
def gammaS (f : F) : F :=
  -0.6968 + sigmoid f (-0.2963) 0.3326 5.0078 + sigmoid f 0.5703 2.3973 3.5779

/-- lines 144-167: `between_event_correlation`; the frequency given to `compute_gamma_E`, which
divides by the corner frequency, is already divided by it -/
def betweenEvent (fi fj mag : F) : F :=
  let fMin := F.min fi fj
  let fMax := F.max fi fj
  let fc := cornerFrequency mag
  let a := fMin / fc
  let b := fMax / fc
  F.exp (gammaE a mag * a * F.log (b / a))

/-- the formula lines 178-182, 188-189 and 201-205, 211-212 share -/
def nuggetCorrelation (eta gamma : F → F) (fi fj : F) : F :=
  let fMin := F.min fi fj
  let fMax := F.max fi fj
  (1 - eta fMin) * F.exp (gamma fMin * F.log (fMax / fMin))
    * (1 - F.exp (-50.0 * F.log (fMax / fMin)))

open Classical in
/-- lines 168-189: `within_event_correlation` -/
def withinEvent (fi fj : ℝ) : F :=
  if IsClose fi fj then 1.0 else nuggetCorrelation etaA gammaA (F.ofReal fi) (F.ofReal fj)

open Classical in
/-- lines 191-212: `between_site_correlation` -/
def betweenSite (fi fj : ℝ) : F :=
  if IsClose fi fj then 1.0 else nuggetCorrelation etaS gammaS (F.ofReal fi) (F.ofReal fj)

/-- lines 231-239: `compute_sigma_E` -/
def sigmaE (f : F) : F :=
  0.8757 + sigmoid f (-0.3309) 0.5871 5.4264 + sigmoid f 0.5177 16.357 1.4689

/-- lines 241-249: `compute_sigma_S` -/
def sigmaS (f : F) : F :=
  0.6167 + sigmoid f (-0.1495) 0.7248 3.6985 + sigmoid f 0.3640 13.457 2.2497

/-- lines 251-257: `compute_sigma_A` -/
def sigmaA (f : F) : F := 0.7260 + 0.0328 * F.log (F.max f 5.0 / 5.0) ^ 2

/-- lines 214-264: `compute_variances` -/
def computeVariances (freqs : List ℝ) : List F × List F × List F :=
  (freqs.map fun f => sigmaE (F.ofReal f), freqs.map fun f => sigmaS (F.ofReal f),
   freqs.map fun f => sigmaA (F.ofReal f))

/-- lines 293-295: the standard deviations that are used -/
def variances (freqs : List ℝ) (sE sS sA : Option (List ℝ)) : List F × List F × List F :=
  match sE, sS, sA with
  | some e, some s, some a => (e.map F.ofReal, s.map F.ofReal, a.map F.ofReal)
  | _, _, _ => computeVariances freqs

/-- lines 308-321: an entry of the covariance matrix; the indices are in range -/
def covEntry (freqs : List ℝ) (v : List F × List F × List F) (mag : ℝ) (i j : ℕ) : F :=
  let fi := freqs.getD i 0
  let fj := freqs.getD j 0
  betweenEvent (F.ofReal fi) (F.ofReal fj) (F.ofReal mag) * v.1.getD i F.nan * v.1.getD j F.nan
    + betweenSite fi fj * v.2.1.getD i F.nan * v.2.1.getD j F.nan
    + withinEvent fi fj * v.2.2.getD i F.nan * v.2.2.getD j F.nan

/-- lines 266-323: `cov`, row by row; the sigmas are `None` or arrays of numbers -/
def cov (freqs : List ℝ) (sE sS sA : Option (List ℝ) := none) (mag : ℝ := 6) : Py (List (List F)) :=
  let v := variances freqs sE sS sA
  let n := freqs.length
  if v.1.length ≠ n ∨ v.2.1.length ≠ n ∨ v.2.2.length ≠ n then
    Py.raise (.valueError "All input arrays must have the same length.")
  else pure ((List.range n).map fun i => (List.range n).map fun j => covEntry freqs v mag i j)

/-- entry of a matrix -/
def at' (m : List (List F)) (i j : ℕ) : F := (m.getD i []).getD j F.nan

/-- lines 325-355: `cor` -/
def cor (freqs : List ℝ) (sE sS sA : Option (List ℝ) := none) (mag : ℝ := 6) : Py (List (List F)) := do
  let c ← cov freqs sE sS sA mag
  let n := freqs.length
  let stds := fun i => F.sqrt (at' c i i)
  pure ((List.range n).map fun i => (List.range n).map fun j => at' c i j / (stds i * stds j))

end
end Stafford
