import Mathlib.Data.Rat.Defs
import Mathlib.Algebra.Order.Ring.Rat
import Mathlib.Tactic.NormNum

/-! Generated by tools/gen_data.py from src/pygmm/data/gulerce_abrahamson_2011-coefficients.csv
(loaded in src/pygmm/gulerce_abrahamson_2011.py line 31).  Do not edit. -/

namespace GA11

/-- one row of gulerce_abrahamson_2011-coefficients.csv: the columns of the file, in order -/
structure Row where
  period : ℚ
  v_lin : ℚ
  b : ℚ
  c : ℚ
  n : ℚ
  c1 : ℚ
  c4 : ℚ
  a1 : ℚ
  a2 : ℚ
  a3 : ℚ
  a4 : ℚ
  a5 : ℚ
  a6 : ℚ
  a7 : ℚ
  a8 : ℚ
  a10 : ℚ
  s1 : ℚ
  s2 : ℚ
  s3 : ℚ
  s4 : ℚ

/-- src/pygmm/data/gulerce_abrahamson_2011-coefficients.csv -/
def table : List Row := [
  ⟨0, 865.1, -1.186, 1.88, 1.18, 6.75, 10, 0.14, -0.16, 0.0147, 0.0334, -0.034, -0.105, 0, 0.003, -1.23, 0.422, 0.333, 0.213, 0.161⟩,
  ⟨-1, 400, -1.955, 1.88, 1.18, 6.75, 10, -1.2, 0.09, 0.0147, 0.0334, -0.034, 0.05, 0.15, 0.022, -1.847, 0.373, 0.369, 0.234, 0.17⟩,
  ⟨0.01, 865.1, -1.186, 1.88, 1.18, 6.75, 10, 0.14, -0.16, 0.0147, 0.0334, -0.034, -0.105, 0, 0.003, -1.23, 0.45, 0.33, 0.23, 0.15⟩,
  ⟨0.02, 865.1, -1.219, 1.88, 1.18, 6.75, 10, 0.14, -0.16, 0.0147, 0.0334, -0.034, -0.105, 0, 0.003, -1.268, 0.45, 0.33, 0.23, 0.15⟩,
  ⟨0.029, 898.6, -1.269, 1.88, 1.18, 6.75, 10, 0.335, -0.185, 0.0147, 0.0334, -0.034, -0.14, 0, 0.003, -1.366, 0.45, 0.33, 0.23, 0.15⟩,
  ⟨0.04, 994.5, -1.308, 1.88, 1.18, 6.75, 10, 0.562, -0.238, 0.0147, 0.0334, -0.034, -0.16, 0, 0.003, -1.457, 0.45, 0.341, 0.23, 0.15⟩,
  ⟨0.05, 1053.5, -1.346, 1.88, 1.18, 6.75, 10, 0.72, -0.275, 0.0147, 0.0334, -0.034, -0.136, 0, -0.001, -1.533, 0.45, 0.351, 0.23, 0.15⟩,
  ⟨0.075, 1085.7, -1.471, 1.88, 1.18, 6.75, 10, 0.552, -0.24, 0.0147, 0.0334, -0.034, -0.019, 0, -0.007, -1.706, 0.45, 0.37, 0.23, 0.15⟩,
  ⟨0.1, 1032.5, -1.624, 1.88, 1.18, 6.75, 10, 0.214, -0.169, 0.0147, 0.0334, -0.034, 0, 0.017, -0.01, -1.831, 0.45, 0.384, 0.23, 0.15⟩,
  ⟨0.15, 877.6, -1.931, 1.88, 1.18, 6.75, 10, -0.262, -0.069, 0.0147, 0.0334, -0.034, 0, 0.04, -0.008, -2.114, 0.45, 0.403, 0.23, 0.15⟩,
  ⟨0.2, 748.2, -2.188, 1.88, 1.18, 6.75, 10, -0.6, 0.002, 0.0147, 0.0334, -0.034, 0, 0.057, -0.003, -2.362, 0.45, 0.416, 0.23, 0.15⟩,
  ⟨0.26, 639, -2.412, 1.88, 1.18, 6.75, 10, -0.769, 0.023, 0.0147, 0.0334, -0.034, 0, 0.072, 0.001, -2.527, 0.45, 0.429, 0.23, 0.15⟩,
  ⟨0.3, 587.1, -2.518, 1.88, 1.18, 6.75, 10, -0.861, 0.034, 0.0147, 0.0334, -0.034, 0, 0.08, 0.006, -2.598, 0.45, 0.436, 0.23, 0.15⟩,
  ⟨0.4, 503, -2.657, 1.88, 1.18, 6.75, 10, -1.045, 0.057, 0.0147, 0.0334, -0.034, 0, 0.097, 0.015, -2.685, 0.45, 0.449, 0.23, 0.15⟩,
  ⟨0.5, 456.6, -2.669, 1.88, 1.18, 6.75, 10, -1.189, 0.075, 0.0147, 0.0334, -0.034, 0, 0.11, 0.022, -2.657, 0.45, 0.46, 0.23, 0.15⟩,
  ⟨0.75, 410.5, -2.401, 1.88, 1.18, 6.75, 10, -1.25, 0.09, 0.0147, 0.0334, -0.034, 0, 0.133, 0.022, -2.265, 0.45, 0.479, 0.237, 0.15⟩,
  ⟨1, 400, -1.955, 1.88, 1.18, 6.75, 10, -1.209, 0.09, 0.0147, 0.0334, -0.034, 0, 0.15, 0.022, -1.685, 0.45, 0.492, 0.266, 0.15⟩,
  ⟨1.5, 400, -1.025, 1.88, 1.18, 6.75, 10, -1.152, 0.09, 0.0147, 0.0334, -0.034, 0.029, 0.15, 0.022, -0.57, 0.45, 0.511, 0.307, 0.15⟩,
  ⟨2, 400, -0.299, 1.88, 1.18, 6.75, 10, -1.111, 0.09, 0.0147, 0.0334, -0.034, 0.05, 0.15, 0.022, 0.25, 0.532, 0.52, 0.337, 0.15⟩,
  ⟨3, 400, 0, 1.88, 1.18, 6.75, 10, -1.054, 0.09, 0.0147, 0.0334, -0.034, 0.079, 0.15, 0.022, 0.46, 0.648, 0.52, 0.378, 0.213⟩,
  ⟨4, 400, 0, 1.88, 1.18, 6.75, 10, -1.014, 0.09, 0.0147, 0.0334, -0.034, 0.1, 0.15, 0.022, 0.46, 0.7, 0.52, 0.407, 0.258⟩,
  ⟨5, 400, 0, 1.88, 1.18, 6.75, 10, -1, 0.09, 0.0147, 0.0334, -0.034, 0.1, 0.15, 0.022, 0.46, 0.7, 0.52, 0.43, 0.292⟩,
  ⟨7.5, 400, 0, 1.88, 1.18, 6.75, 10, -1, 0.09, 0.0147, 0.0334, -0.034, 0.1, 0.15, 0.022, 0.46, 0.7, 0.52, 0.471, 0.355⟩,
  ⟨10, 400, 0, 1.88, 1.18, 6.75, 10, -1, 0.09, 0.0147, 0.0334, -0.034, 0.1, 0.15, 0.022, 0.46, 0.7, 0.52, 0.5, 0.4⟩
]

end GA11
