import Verif.Models.BJ08
import Mathlib.LinearAlgebra.Matrix.NonsingularInverse
import Mathlib.Data.List.Sort

/-! # Kishida (2017): src/pygmm/kishida_2017.py -/

namespace Kishida
noncomputable section

/-- one period: the entries of the arrays `periods`, `ln_psas`, `ln_stds` and of the masked array
`ln_psas_cond` (`none` where it is masked).  The four arrays have one length and the mask is a full
array (with `np.ma.nomask`, the scalar mask, the code indexes differently: not modelled). -/
structure Point extends BJ08.Point where
  cond : Option ℝ

open Classical in
/-- line 55: `np.all(np.diff(periods) > 0)` -/
def increasing : List Point → Bool
  | p :: q :: l => decide (p.period < q.period) && increasing (q :: l)
  | _ => true

/-- lines 58, 62: the periods that are not conditioned upon -/
def masked (l : List Point) : List Point := l.filter fun p => p.cond.isNone

/-- lines 58, 62: the periods used for the conditioning -/
def given (l : List Point) : List Point := l.filter fun p => p.cond.isSome

/-- line 62: `periods_grouped`, with the other arrays grouped in the same way -/
def grouped (l : List Point) : List Point := masked l ++ given l

/-- lines 64-70: an entry of `mat_covar = mat_ln_std @ mat_correls @ mat_ln_std` -/
def covar (p q : Point) : F :=
  F.ofReal p.lnStd * BJ08.correl p.period q.period * F.ofReal q.lnStd

/-- a matrix product is defined when all entries of its factors are: `nan` spreads -/
def allOk (l : List Point) : Prop := ∀ p ∈ grouped l, ∀ q ∈ grouped l, (covar p q).ok

/-- line 74: `mat_covar_22` -/
def covar22 (u : List Point) : Matrix (Fin u.length) (Fin u.length) ℝ :=
  Matrix.of fun i j => (covar u[i] u[j]).val

/-- lines 75-76: a row of `mat_covar_12` and a column of `mat_covar_21` -/
def row12 (p : Point) (u : List Point) : Fin u.length → ℝ := fun j => (covar p u[j]).val
def col21 (p : Point) (u : List Point) : Fin u.length → ℝ := fun j => (covar u[j] p).val

/-- line 79: `mat_total_resids` -/
def resids (u : List Point) : Fin u.length → ℝ := fun j => u[j].cond.getD 0 - u[j].lnPsa

/-- lines 80-83: an entry of the first part of `ln_psas_cmsv` -/
def mean (ok : Prop) (p : Point) (u : List Point) : F :=
  ⟨p.lnPsa + row12 p u ⬝ᵥ ((covar22 u)⁻¹.mulVec (resids u)), ok⟩

/-- lines 85-90: an entry of the first part of `ln_stds_cmsv` -/
def std (ok : Prop) (p : Point) (u : List Point) : F :=
  F.sqrt ⟨(covar p p).val - row12 p u ⬝ᵥ ((covar22 u)⁻¹.mulVec (col21 p u)), ok⟩

/-- an entry of the arrays before sorting: period, mean, standard deviation -/
abbrev Entry := ℝ × F × F

/-- lines 80-90: `ln_psas_cmsv` and `ln_stds_cmsv` in grouped order -/
def entries (l : List Point) : List Entry :=
  (masked l).map (fun p => (p.period, mean (allOk l) p (given l), std (allOk l) p (given l))) ++
  (given l).map (fun p => (p.period, F.ofReal (p.cond.getD 0), 0))

open Classical in
/-- lines 9-96: `calc_cond_mean_spectrum_vector`; `np.linalg.inv` raises `LinAlgError` for a singular
matrix (in exact arithmetic), `np.argsort` of the grouped periods (line 92) puts the entries in order
of their periods. -/
def calcCmsv (l : List Point) : Py (List (F × F)) :=
  if increasing l = false then Py.raise (.valueError "`periods` must be increasing")
  else if (covar22 (given l)).det = 0 then Py.raise .linAlgError
  else pure (((entries l).insertionSort fun a b => a.1 ≤ b.1).map fun e => e.2)

end
end Kishida
