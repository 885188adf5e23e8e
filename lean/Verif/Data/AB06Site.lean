import Mathlib.Data.Rat.Defs
import Mathlib.Algebra.Order.Ring.Rat
import Mathlib.Tactic.NormNum

/-! Generated by tools/gen_data.py from src/pygmm/data/atkinson_boore_2006-site.csv
(loaded in src/pygmm/atkinson_boore_2006.py line 34).  Do not edit. -/

namespace AB06

/-- one row of atkinson_boore_2006-site.csv: the columns of the file, in order -/
structure SiteRow where
  period : ℚ
  b_lin : ℚ
  b_1 : ℚ
  b_2 : ℚ

/-- src/pygmm/data/atkinson_boore_2006-site.csv -/
def site : List SiteRow := [
  ⟨-1, -0.6, -0.495, -0.06⟩,
  ⟨0, -0.361, -0.641, -0.144⟩,
  ⟨0.025, -0.33, -0.624, -0.115⟩,
  ⟨0.0313, -0.322, -0.618, -0.108⟩,
  ⟨0.04, -0.314, -0.609, -0.105⟩,
  ⟨0.05, -0.286, -0.643, -0.105⟩,
  ⟨0.0629, -0.249, -0.642, -0.105⟩,
  ⟨0.0794, -0.232, -0.637, -0.117⟩,
  ⟨0.1, -0.25, -0.595, -0.132⟩,
  ⟨0.125, -0.26, -0.56, -0.14⟩,
  ⟨0.1587, -0.28, -0.528, -0.185⟩,
  ⟨0.2, -0.306, -0.521, -0.185⟩,
  ⟨0.25, -0.39, -0.518, -0.16⟩,
  ⟨0.3125, -0.445, -0.513, -0.13⟩,
  ⟨0.4, -0.5, -0.508, -0.095⟩,
  ⟨0.5, -0.6, -0.495, -0.06⟩,
  ⟨0.625, -0.67, -0.48, -0.031⟩,
  ⟨0.7692, -0.69, -0.465, -0.002⟩,
  ⟨1, -0.7, -0.44, 0⟩,
  ⟨1.5873, -0.726, -0.395, 0⟩,
  ⟨2, -0.73, -0.375, 0⟩,
  ⟨3.125, -0.74, -0.33, 0⟩,
  ⟨4, -0.745, -0.31, 0⟩,
  ⟨5, -0.752, -0.3, 0⟩
]

end AB06
