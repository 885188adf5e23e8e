import Mathlib.Data.Rat.Defs
import Mathlib.Algebra.Order.Ring.Rat
import Mathlib.Tactic.NormNum

/-! Generated by tools/gen_data.py from src/pygmm/data/abrahamson_gregor_addo_2016.csv
(loaded in src/pygmm/abrahamson_gregor_addo_2016.py line 30).  Do not edit. -/

namespace AGA16

/-- one row of abrahamson_gregor_addo_2016.csv: the columns of the file, in order -/
structure Row where
  period : ℚ
  v_lin : ℚ
  b : ℚ
  n : ℚ
  c : ℚ
  c_4 : ℚ
  t_1 : ℚ
  t_2 : ℚ
  t_3 : ℚ
  t_4 : ℚ
  t_5 : ℚ
  t_6 : ℚ
  t_7 : ℚ
  t_8 : ℚ
  t_9 : ℚ
  t_10 : ℚ
  t_11 : ℚ
  t_12 : ℚ
  t_13 : ℚ
  t_14 : ℚ
  t_15 : ℚ
  t_16 : ℚ
  phi : ℚ
  tau : ℚ
  sigma : ℚ

/-- src/pygmm/data/abrahamson_gregor_addo_2016.csv -/
def table : List Row := [
  ⟨0, 865.1, -1.186, 1.18, 1.88, 10, 4.2203, -1.35, 0.1, 0.9, 0, -0.0012, 1.0988, -1.42, 0.4, 3.12, 0.013, 0.98, -0.0135, -0.4, 0.9969, -1, 0.6, 0.43, 0.738⟩,
  ⟨0.02, 865.1, -1.186, 1.18, 1.88, 10, 4.2203, -1.35, 0.1, 0.9, 0, -0.0012, 1.0988, -1.42, 0.4, 3.12, 0.013, 0.98, -0.0135, -0.4, 0.9969, -1, 0.6, 0.43, 0.738⟩,
  ⟨0.05, 1053.5, -1.346, 1.18, 1.88, 10, 4.5371, -1.4, 0.1, 0.9, 0, -0.0012, 1.2536, -1.65, 0.4, 3.37, 0.013, 1.288, -0.0138, -0.4, 1.103, -1.18, 0.6, 0.43, 0.738⟩,
  ⟨0.075, 1085.7, -1.471, 1.18, 1.88, 10, 5.0733, -1.45, 0.1, 0.9, 0, -0.0012, 1.4175, -1.8, 0.4, 3.37, 0.013, 1.483, -0.0142, -0.4, 1.2732, -1.36, 0.6, 0.43, 0.738⟩,
  ⟨0.1, 1032.5, -1.624, 1.18, 1.88, 10, 5.2892, -1.45, 0.1, 0.9, 0, -0.0012, 1.3997, -1.8, 0.4, 3.33, 0.013, 1.613, -0.0145, -0.4, 1.3042, -1.36, 0.6, 0.43, 0.738⟩,
  ⟨0.15, 877.6, -1.931, 1.18, 1.88, 10, 5.4563, -1.45, 0.1, 0.9, 0, -0.0014, 1.3582, -1.69, 0.4, 3.25, 0.013, 1.882, -0.0153, -0.4, 1.26, -1.3, 0.6, 0.43, 0.738⟩,
  ⟨0.2, 748.2, -2.188, 1.18, 1.88, 10, 5.2684, -1.4, 0.1, 0.9, 0, -0.0018, 1.1648, -1.49, 0.4, 3.03, 0.0129, 2.076, -0.0162, -0.35, 1.223, -1.25, 0.6, 0.43, 0.738⟩,
  ⟨0.25, 654.3, -2.381, 1.18, 1.88, 10, 5.0594, -1.35, 0.1, 0.9, 0, -0.0023, 0.994, -1.3, 0.4, 2.8, 0.0129, 2.248, -0.0172, -0.31, 1.16, -1.17, 0.6, 0.43, 0.738⟩,
  ⟨0.3, 587.1, -2.518, 1.18, 1.88, 10, 4.7945, -1.28, 0.1, 0.9, 0, -0.0027, 0.8821, -1.18, 0.4, 2.59, 0.0128, 2.348, -0.0183, -0.28, 1.05, -1.06, 0.6, 0.43, 0.738⟩,
  ⟨0.4, 503, -2.657, 1.18, 1.88, 10, 4.4644, -1.18, 0.1, 0.9, 0, -0.0035, 0.7046, -0.98, 0.4, 2.2, 0.0127, 2.427, -0.0206, -0.23, 0.8, -0.78, 0.6, 0.43, 0.738⟩,
  ⟨0.5, 456.6, -2.669, 1.18, 1.88, 10, 4.0181, -1.08, 0.1, 0.9, 0, -0.0044, 0.5799, -0.82, 0.4, 1.92, 0.0125, 2.399, -0.0231, -0.19, 0.662, -0.62, 0.6, 0.43, 0.738⟩,
  ⟨0.6, 430.3, -2.599, 1.18, 1.88, 10, 3.6055, -0.99, 0.1, 0.9, 0, -0.005, 0.5021, -0.7, 0.4, 1.7, 0.0124, 2.273, -0.0256, -0.16, 0.58, -0.5, 0.6, 0.43, 0.738⟩,
  ⟨0.75, 410.5, -2.401, 1.18, 1.88, 10, 3.2174, -0.91, 0.1, 0.9, 0, -0.0058, 0.3687, -0.54, 0.4, 1.42, 0.012, 1.993, -0.0296, -0.12, 0.48, -0.34, 0.6, 0.43, 0.738⟩,
  ⟨1, 400, -1.955, 1.18, 1.88, 10, 2.7981, -0.85, 0.1, 0.9, 0, -0.0062, 0.1746, -0.34, 0.4, 1.1, 0.0114, 1.47, -0.0363, -0.07, 0.33, -0.14, 0.6, 0.43, 0.738⟩,
  ⟨1.5, 400, -1.025, 1.18, 1.88, 10, 2.0123, -0.77, 0.1, 0.9, 0, -0.0064, -0.082, -0.05, 0.4, 0.7, 0.01, 0.408, -0.0493, 0, 0.31, 0, 0.6, 0.43, 0.738⟩,
  ⟨2, 400, -0.299, 1.18, 1.88, 10, 1.4128, -0.71, 0.1, 0.9, 0, -0.0064, -0.2821, 0.12, 0.4, 0.7, 0.0085, -0.401, -0.061, 0, 0.3, 0, 0.6, 0.43, 0.738⟩,
  ⟨2.5, 400, 0, 1.18, 1.88, 10, 0.9976, -0.67, 0.1, 0.9, 0, -0.0064, -0.4108, 0.25, 0.4, 0.7, 0.0069, -0.723, -0.0711, 0, 0.3, 0, 0.6, 0.43, 0.738⟩,
  ⟨3, 400, 0, 1.18, 1.88, 10, 0.6443, -0.64, 0.1, 0.9, 0, -0.0064, -0.4466, 0.3, 0.4, 0.7, 0.0054, -0.673, -0.0798, 0, 0.3, 0, 0.6, 0.43, 0.738⟩,
  ⟨4, 400, 0, 1.18, 1.88, 10, 0.0657, -0.58, 0.1, 0.9, 0, -0.0064, -0.4344, 0.3, 0.4, 0.7, 0.0027, -0.627, -0.0935, 0, 0.3, 0, 0.6, 0.43, 0.738⟩,
  ⟨5, 400, 0, 1.18, 1.88, 10, -0.4624, -0.54, 0.1, 0.9, 0, -0.0064, -0.4368, 0.3, 0.4, 0.7, 0.0005, -0.596, -0.098, 0, 0.3, 0, 0.6, 0.43, 0.738⟩,
  ⟨6, 400, 0, 1.18, 1.88, 10, -0.9809, -0.5, 0.1, 0.9, 0, -0.0064, -0.4586, 0.3, 0.4, 0.7, -0.0013, -0.566, -0.098, 0, 0.3, 0, 0.6, 0.43, 0.738⟩,
  ⟨7.5, 400, 0, 1.18, 1.88, 10, -1.6017, -0.46, 0.1, 0.9, 0, -0.0064, -0.4433, 0.3, 0.4, 0.7, -0.0033, -0.528, -0.098, 0, 0.3, 0, 0.6, 0.43, 0.738⟩,
  ⟨10, 400, 0, 1.18, 1.88, 10, -2.2937, -0.4, 0.1, 0.9, 0, -0.0064, -0.4828, 0.3, 0.4, 0.7, -0.006, -0.504, -0.098, 0, 0.3, 0, 0.6, 0.43, 0.738⟩
]

end AGA16
