import Verif.Py
import Verif.Interp

/-! # Baker and Jayaram (2008): src/pygmm/baker_jayaram_2008.py -/

namespace BJ08
noncomputable section

/-- lines 28-30: `c_1`, from the smaller and the larger period -/
def c1 (a b : F) : F := 1 - F.cos (F.pi / 2 - 0.366 * F.log (b / F.max a 0.109))

/-- lines 33-43: `c_2` -/
def c2 (a b : F) : F :=
  F.iteLt b 0.2
    (1 - 0.105 * (1 - 1 / (1 + F.exp (100 * F.min b 0.2 - 5))) * (b - a) / (b - 0.0099)) 0

/-- line 45: `c_3` -/
def c3 (a b : F) : F := F.iteLt b 0.109 (c2 a b) (c1 a b)

/-- line 47: `c_4` -/
def c4 (a b : F) : F :=
  c1 a b + 0.5 * (F.sqrt (c3 a b) - c3 a b) * (1 + F.cos (F.pi * a / 0.109))

/-- lines 49-52: the selection -/
def select (a b : F) : F :=
  F.iteLt b 0.109 (c2 a b)
    (F.iteLt 0.109 a (c1 a b) (F.iteLt b 0.2 (F.min (c2 a b) (c4 a b)) (c4 a b)))

/-- lines 10-54: `calc_correls` for one period -/
def correl (T cond : ℝ) : F :=
  select (F.min (F.ofReal T) (F.ofReal cond)) (F.max (F.ofReal T) (F.ofReal cond))

/-- lines 10-54: `calc_correls` -/
def calcCorrels (periods : List ℝ) (cond : ℝ) : List F := periods.map fun T => correl T cond

/-- one period of a spectrum: the entries of the arrays `periods`, `ln_psas`, `ln_stds` -/
structure Point where
  period : ℝ
  lnPsa : ℝ
  lnStd : ℝ

/-- lines 93-95: `epsilon` -/
def epsilon (l : List Point) (cond lnPsaCond : ℝ) : F :=
  (F.ofReal lnPsaCond - npInterp (l.map fun p => (p.period, F.ofReal p.lnPsa)) cond)
    / npInterp (l.map fun p => (p.period, F.ofReal p.lnStd)) cond

/-- lines 57-99: `calc_cond_mean_spectrum`, for three arrays of one length given as a list of
points; the results `ln_psas_cms` and `ln_stds_cms` are paired in the same way.  `np.interp` raises
`ValueError` for empty arrays.  (Arrays of different lengths, which numpy broadcasts or refuses, are
not modelled.) -/
def calcCms (l : List Point) (cond lnPsaCond : ℝ) : Py (List (F × F)) :=
  if l.length = 0 then Py.raise (.valueError "array of sample points is empty")
  else pure (l.map fun p =>
    (F.ofReal p.lnPsa + F.ofReal p.lnStd * correl p.period cond * epsilon l cond lnPsaCond,
     F.sqrt (F.ofReal p.lnStd ^ 2 * (1 - correl p.period cond ^ 2))))

end
end BJ08
