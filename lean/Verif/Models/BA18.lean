import Verif.Py
import Verif.Interp
import Verif.Data.BA18

/-! # Bayless & Abrahamson (2018) inter-frequency correlation:
src/pygmm/bayless_abrahamson_2018.py

A frequency vector of `n` entries is a function `Fin n → F`, an `n × n` array a function of
the row and the column index. -/

namespace BA18
noncomputable section

/-- lines 26, 47-49: `np.interp(x, FREQS, fp, left=fp[0], right=fp[-1])` for the column `col`
(the values given for `left` and `right` are the ones `np.interp` uses anyway) -/
def interp (col : Row → ℚ) (x : F) : F :=
  npInterpF (table.map fun c => ((c.freq_hz : ℝ), F.ofRat (col c))) x

/-- lines 51-55: the entry computed for the frequency `fr` of `freqs_row` and `fc` of
`freqs_col` -/
def raw (fr fc : F) : F :=
  let fR := F.abs (F.log (fr / fc))
  let fM := F.min fr fc
  F.tanh (interp Row.A fM * F.exp (interp Row.B fM * fR)
    + interp Row.C fM * F.exp (interp Row.D fM * fR))

/-- lines 51-56: the array after `np.fill_diagonal`; `freqs_row[i, j]` is `freqs[j]`
(`np.full` broadcasts along rows) and `freqs_col` is its transpose -/
def filled {n : ℕ} (freqs : Fin n → F) (i j : Fin n) : F :=
  if i = j then 1 else raw (freqs j) (freqs i)

/-- lines 29-58: `corr(freqs)` -/
def corr {n : ℕ} (freqs : Fin n → F) (i j : Fin n) : F :=
  (filled freqs i j + filled freqs j i) / 2

/-- line 86: `getattr(cls.COEFF, component)` for the columns of the file; any other name
raises `AttributeError`.  (The record array has further attributes, such as `shape`, which
are not modelled: interpolating them raises another error.) -/
def column (component : String) : Py (Row → ℚ) :=
  match component with
  | "freq_hz" => pure Row.freq_hz
  | "A" => pure Row.A
  | "B" => pure Row.B
  | "C" => pure Row.C
  | "D" => pure Row.D
  | "tau" => pure Row.tau
  | "phi_s2s" => pure Row.phi_s2s
  | "phi_s" => pure Row.phi_s
  | "sigma" => pure Row.sigma
  | _ => Py.raise .attributeError

/-- lines 85-89: the standard deviations that are used -/
def stdOf {n : ℕ} (freqs : Fin n → F) (std : Option (Fin n → F)) (component : Option String) :
    Py (Fin n → F) :=
  match std, component with
  | some s, _ => pure s
  | none, some k => do
    let col ← column k
    pure fun i => interp col (freqs i)
  | none, none => Py.raise .notImplemented

/-- lines 61-93: `cov(freqs, std=…, component=…)`; `std[i, j]` is `std[j]`.  (A `std` of another
length than `freqs` raises in `np.full`, unless it has length one; this is not modelled.) -/
def cov {n : ℕ} (freqs : Fin n → F) (std : Option (Fin n → F)) (component : Option String) :
    Py (Fin n → Fin n → F) := do
  let s ← stdOf freqs std component
  pure fun i j => corr freqs i j * s j * s i

end
end BA18
