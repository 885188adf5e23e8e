import Mathlib.Data.Rat.Defs
import Mathlib.Algebra.Order.Ring.Rat
import Mathlib.Tactic.NormNum

/-! Generated by tools/gen_data.py from src/pygmm/data/tavakoli_pezeshk_2005.csv
(loaded in src/pygmm/tavakoli_pezeshk_2005.py line 30).  Do not edit. -/

namespace TP05

/-- one row of tavakoli_pezeshk_2005.csv: the columns of the file, in order -/
structure Row where
  period : ℚ
  c_1 : ℚ
  c_2 : ℚ
  c_3 : ℚ
  c_4 : ℚ
  c_5 : ℚ
  c_6 : ℚ
  c_7 : ℚ
  c_8 : ℚ
  c_9 : ℚ
  c_10 : ℚ
  c_11 : ℚ
  c_12 : ℚ
  c_13 : ℚ
  c_14 : ℚ
  c_15 : ℚ
  c_16 : ℚ

/-- src/pygmm/data/tavakoli_pezeshk_2005.csv -/
def table : List Row := [
  ⟨0, 1.14, 6.23e-1, -4.83e-2, -1.81, -6.52e-1, 4.46e-1, -2.93e-5, -4.05e-3, 9.46e-3, 1.41, -9.61e-1, 4.32e-4, 1.33e-4, 1.21, -1.11e-1, 0.409⟩,
  ⟨0.05, 1.82, 5.33e-1, -4.75e-2, -1.63, -5.67e-1, 4.54e-1, 7.77e-3, -4.91e-3, -3.14e-3, 9.8e-1, -9.39e-1, 5.12e-4, 9.3e-4, 1.22, -1.08e-1, 0.441⟩,
  ⟨0.08, 6.83e-1, 7.43e-1, -2.93e-2, -1.71, -7.56e-1, 4.6e-1, -9.68e-4, -4.94e-3, -5.5e-3, 1.13, -9.16e-1, 4.82e-4, 7.33e-4, 1.22, -1.08e-1, 0.449⟩,
  ⟨0.1, 8.69e-1, 6.07e-1, -4.74e-2, -1.52, -7.04e-1, 4.49e-1, -6.19e-3, -4.7e-3, -4.24e-3, 1.04, -9.13e-1, 4.11e-4, 3.58e-4, 1.23, -1.08e-1, 0.456⟩,
  ⟨0.15, 2.38, 5.01e-1, -6.42e-2, -1.73, -9.76e-1, 4.14e-1, 6.6e-3, -4.8e-3, 3.93e-3, 1.51, -8.65e-1, 3.64e-4, 6.84e-4, 1.24, -1.08e-1, 0.464⟩,
  ⟨0.2, -5.48e-1, 8.57e-1, -2.62e-2, -1.68, -8.61e-1, 4.33e-1, 2.79e-3, -3.65e-3, -2.02e-3, 1.64, -9.25e-1, 1.61e-4, 6.43e-4, 1.24, -1.08e-1, 0.469⟩,
  ⟨0.3, -5.13e-1, 6.67e-1, -4.43e-2, -1.42, -4.7e-1, 4.68e-1, 1.08e-2, -5.41e-3, 6.44e-3, 1.52, -9.15e-1, 4.32e-4, 2.87e-4, 1.26, -1.09e-1, 0.479⟩,
  ⟨0.5, 2.4e-1, 6.11e-1, -7.89e-2, -1.55, -8.44e-1, 4.14e-1, 7.89e-3, -3.65e-3, -2.65e-4, 1.59, -8.59e-1, 2.77e-4, 1.46e-4, 1.28, -1.73e-1, 0.505⟩,
  ⟨0.75, -6.79e-1, 6.66e-1, -8.3e-2, -1.48, -7.34e-1, 4.35e-1, 9.53e-3, -3.37e-3, -1.19e-3, 1.55, -7.84e-1, 2.45e-4, 5.47e-4, 1.28, -1.05e-1, 0.522⟩,
  ⟨1, -1.55, 7.64e-1, -8.59e-2, -1.49, -9.41e-1, 4.24e-1, -5.84e-3, -2.09e-3, 3.3e-3, 1.52, -7.57e-1, 1.17e-4, 7.59e-4, 1.28, -1.03e-1, 0.537⟩,
  ⟨1.5, -2.3, 7.94e-1, -8.84e-2, -1.45, -8.86e-1, 4.12e-1, 8.3e-3, -3.27e-3, 2.51e-3, 1.71, -7.69e-1, 2.33e-4, 1.66e-4, 1.27, -9.99e-2, 0.551⟩,
  ⟨2, -2.7, 8.05e-1, -9.29e-2, -1.44, -9.23e-1, 4.08e-1, 2.06e-2, -2.14e-3, 2.3e-3, 1.43, -7.55e-1, 2.14e-4, 3.91e-4, 1.26, -9.78e-2, 0.562⟩,
  ⟨3, -2.42, 8.01e-1, -1.08e-1, -1.65, -8.98e-1, 4.37e-1, 1.67e-2, -2.03e-3, 3.58e-3, 1.93, -8.18e-1, 1.16e-4, 3.98e-4, 1.26, -9.52e-2, 0.573⟩,
  ⟨4, -3.69, 8.17e-1, -1.18e-1, -1.46, -8.45e-1, 4.25e-1, 1.13e-2, -1.72e-3, -3.34e-3, 1.69, -7.37e-1, 1.1e-4, 3.59e-4, 1.25, -9.26e-2, 0.589⟩
]

end TP05
