import Mathlib.Data.Rat.Defs
import Mathlib.Algebra.Order.Ring.Rat
import Mathlib.Tactic.NormNum

/-! Generated by tools/gen_data.py from src/pygmm/data/campbell_2003.csv
(loaded in src/pygmm/campbell_2003.py line 29).  Do not edit. -/

namespace C03

/-- one row of campbell_2003.csv: the columns of the file, in order -/
structure Row where
  period : ℚ
  c_1 : ℚ
  c_2 : ℚ
  c_3 : ℚ
  c_4 : ℚ
  c_5 : ℚ
  c_6 : ℚ
  c_7 : ℚ
  c_8 : ℚ
  c_9 : ℚ
  c_10 : ℚ
  c_11 : ℚ
  c_12 : ℚ
  c_13 : ℚ

/-- src/pygmm/data/campbell_2003.csv -/
def table : List Row := [
  ⟨0.01, 0.0305, 0.633, -0.0427, -1.591, -0.00428, 0.000483, 0.683, 0.416, 1.14, -0.873, 1.03, -0.086, 0.414⟩,
  ⟨0.02, 1.3535, 0.63, -0.0404, -1.787, -0.00388, 0.000497, 1.02, 0.363, 0.851, -0.715, 1.03, -0.086, 0.414⟩,
  ⟨0.03, 1.186, 0.622, -0.0362, -1.691, -0.00367, 0.000501, 0.922, 0.376, 0.759, -0.922, 1.03, -0.086, 0.414⟩,
  ⟨0.05, 0.3736, 0.616, -0.0353, -1.469, -0.00378, 0.0005, 0.63, 0.423, 0.771, -1.239, 1.042, -0.0838, 0.443⟩,
  ⟨0.075, -0.0395, 0.615, -0.0353, -1.383, -0.00421, 0.000486, 0.491, 0.463, 0.955, -1.349, 1.052, -0.0838, 0.453⟩,
  ⟨0.1, -0.1475, 0.613, -0.0353, -1.369, -0.00454, 0.00046, 0.484, 0.467, 1.096, -1.284, 1.059, -0.0838, 0.46⟩,
  ⟨0.15, -0.1901, 0.616, -0.0478, -1.368, -0.00473, 0.000393, 0.461, 0.478, 1.239, -1.079, 1.068, -0.0838, 0.469⟩,
  ⟨0.2, -0.4328, 0.617, -0.0586, -1.32, -0.0046, 0.000337, 0.399, 0.493, 1.25, -0.928, 1.077, -0.0838, 0.478⟩,
  ⟨0.3, -0.6906, 0.609, -0.0786, -1.28, -0.00414, 0.000263, 0.349, 0.502, 1.241, -0.753, 1.081, -0.0838, 0.482⟩,
  ⟨0.5, -0.5907, 0.534, -0.1379, -1.216, -0.00341, 0.000194, 0.318, 0.503, 1.166, -0.606, 1.098, -0.0824, 0.508⟩,
  ⟨0.75, -0.5429, 0.48, -0.1806, -1.184, -0.00288, 0.00016, 0.304, 0.504, 1.11, -0.526, 1.105, -0.0806, 0.528⟩,
  ⟨1, -0.6104, 0.451, -0.209, -1.158, -0.00255, 0.000141, 0.299, 0.503, 1.067, -0.482, 1.11, -0.0793, 0.543⟩,
  ⟨1.5, -0.9666, 0.441, -0.2405, -1.135, -0.00213, 0.000119, 0.304, 0.5, 1.029, -0.438, 1.099, -0.0771, 0.547⟩,
  ⟨2, -1.4306, 0.459, -0.2552, -1.124, -0.00187, 0.000103, 0.31, 0.499, 1.015, -0.417, 1.093, -0.0758, 0.551⟩,
  ⟨3, -2.2331, 0.492, -0.2646, -1.121, -0.00154, 0.000084, 0.31, 0.499, 1.014, -0.393, 1.09, -0.0737, 0.562⟩,
  ⟨4, -2.7975, 0.507, -0.2738, -1.119, -0.00135, 0.000074, 0.294, 0.506, 1.018, -0.386, 1.092, -0.0722, 0.575⟩
]

end C03
