import Mathlib.Data.Rat.Defs
import Mathlib.Algebra.Order.Ring.Rat
import Mathlib.Tactic.NormNum

/-! Generated by tools/gen_data.py from src/pygmm/data/abrahamson_silva_kamai_2014.csv
(loaded in src/pygmm/abrahamson_silva_kamai_2014.py line 32).  Do not edit. -/

namespace ASK14

/-- one row of abrahamson_silva_kamai_2014.csv: the columns of the file, in order -/
structure Row where
  period : ℚ
  m1 : ℚ
  m2 : ℚ
  v_lin : ℚ
  b : ℚ
  c : ℚ
  n : ℚ
  c4 : ℚ
  a1 : ℚ
  a2 : ℚ
  a3 : ℚ
  a4 : ℚ
  a5 : ℚ
  a6 : ℚ
  a7 : ℚ
  a8 : ℚ
  a10 : ℚ
  a11 : ℚ
  a12 : ℚ
  a13 : ℚ
  a14 : ℚ
  a15 : ℚ
  a17 : ℚ
  a43 : ℚ
  a44 : ℚ
  a45 : ℚ
  a46 : ℚ
  a25 : ℚ
  a28 : ℚ
  a29 : ℚ
  a31 : ℚ
  a36 : ℚ
  a37 : ℚ
  a38 : ℚ
  a39 : ℚ
  a40 : ℚ
  a41 : ℚ
  a42 : ℚ
  s1e : ℚ
  s2e : ℚ
  s3 : ℚ
  s4 : ℚ
  s1m : ℚ
  s2m : ℚ
  s5 : ℚ
  s6 : ℚ

/-- src/pygmm/data/abrahamson_silva_kamai_2014.csv -/
def table : List Row := [
  ⟨0.01, 6.75, 5, 660, -1.47, 2.4, 1.5, 4.5, 0.587, -0.79, 0.275, -0.1, -0.41, 2.1541, 0, -0.015, 1.735, 0, -0.1, 0.6, -0.3, 1.1, -0.0072, 0.1, 0.05, 0, -0.05, -0.0015, 0.0025, -0.0034, -0.1503, 0.265, 0.337, 0.188, 0, 0.088, -0.196, 0.044, 0.754, 0.52, 0.47, 0.36, 0.741, 0.501, 0.54, 0.63⟩,
  ⟨0.02, 6.75, 5, 680, -1.459, 2.4, 1.5, 4.5, 0.598, -0.79, 0.275, -0.1, -0.41, 2.1461, 0, -0.015, 1.718, 0, -0.1, 0.6, -0.3, 1.1, -0.0073, 0.1, 0.05, 0, -0.05, -0.0015, 0.0024, -0.0033, -0.1479, 0.255, 0.328, 0.184, 0, 0.088, -0.194, 0.061, 0.76, 0.52, 0.47, 0.36, 0.747, 0.501, 0.54, 0.63⟩,
  ⟨0.03, 6.75, 5, 770, -1.39, 2.4, 1.5, 4.5, 0.602, -0.79, 0.275, -0.1, -0.41, 2.1566, 0, -0.015, 1.615, 0, -0.1, 0.6, -0.3, 1.1, -0.0075, 0.1, 0.05, 0, -0.05, -0.0016, 0.0023, -0.0034, -0.1447, 0.249, 0.32, 0.18, 0, 0.093, -0.175, 0.162, 0.781, 0.52, 0.47, 0.36, 0.769, 0.501, 0.55, 0.63⟩,
  ⟨0.05, 6.75, 5, 915, -1.219, 2.4, 1.5, 4.5, 0.707, -0.79, 0.275, -0.1, -0.41, 2.0845, 0, -0.015, 1.358, 0, -0.1, 0.6, -0.3, 1.1, -0.008, 0.1, 0.05, 0, -0.05, -0.002, 0.0027, -0.0033, -0.1326, 0.202, 0.289, 0.167, 0, 0.133, -0.09, 0.451, 0.81, 0.53, 0.47, 0.36, 0.798, 0.512, 0.56, 0.65⟩,
  ⟨0.075, 6.75, 5, 960, -1.152, 2.4, 1.5, 4.5, 0.973, -0.79, 0.275, -0.1, -0.41, 2.0285, 0, -0.015, 1.258, 0, -0.1, 0.6, -0.3, 1.1, -0.0089, 0.1, 0.05, 0, -0.05, -0.0027, 0.0032, -0.0029, -0.1353, 0.126, 0.275, 0.173, 0, 0.186, 0.09, 0.506, 0.81, 0.54, 0.47, 0.36, 0.798, 0.522, 0.57, 0.69⟩,
  ⟨0.1, 6.75, 5, 910, -1.23, 2.4, 1.5, 4.5, 1.169, -0.79, 0.275, -0.1, -0.41, 2.0408, 0, -0.015, 1.31, 0, -0.1, 0.6, -0.3, 1.1, -0.0095, 0.1, 0.05, 0, -0.05, -0.0033, 0.0036, -0.0025, -0.1128, 0.022, 0.256, 0.189, 0, 0.16, 0.006, 0.335, 0.81, 0.55, 0.47, 0.36, 0.795, 0.527, 0.57, 0.7⟩,
  ⟨0.15, 6.75, 5, 740, -1.587, 2.4, 1.5, 4.5, 1.442, -0.79, 0.275, -0.1, -0.41, 2.1208, 0, -0.022, 1.66, 0, -0.1, 0.6, -0.3, 1.1, -0.0095, 0.1, 0.05, 0, -0.05, -0.0035, 0.0033, -0.0025, 0.0383, -0.136, 0.162, 0.108, 0, 0.068, -0.156, -0.084, 0.801, 0.56, 0.47, 0.36, 0.773, 0.519, 0.58, 0.7⟩,
  ⟨0.2, 6.75, 5, 590, -2.012, 2.4, 1.5, 4.5, 1.637, -0.79, 0.275, -0.1, -0.41, 2.2241, 0, -0.03, 2.22, 0, -0.1, 0.6, -0.3, 1.1, -0.0086, 0.1, 0.05, 0, -0.03, -0.0033, 0.0027, -0.0031, 0.0775, -0.078, 0.224, 0.115, 0, 0.048, -0.274, -0.178, 0.789, 0.565, 0.47, 0.36, 0.753, 0.514, 0.59, 0.7⟩,
  ⟨0.25, 6.75, 5, 495, -2.411, 2.4, 1.5, 4.5, 1.701, -0.79, 0.275, -0.1, -0.41, 2.3124, 0, -0.038, 2.77, 0, -0.1, 0.6, -0.24, 1.1, -0.0074, 0.1, 0.05, 0, 0, -0.0029, 0.0024, -0.0036, 0.0741, 0.037, 0.248, 0.122, 0, 0.055, -0.248, -0.187, 0.77, 0.57, 0.47, 0.36, 0.729, 0.513, 0.61, 0.7⟩,
  ⟨0.3, 6.75, 5, 430, -2.757, 2.4, 1.5, 4.5, 1.712, -0.79, 0.275, -0.1, -0.41, 2.3383, 0, -0.045, 3.25, 0, -0.1, 0.6, -0.19, 1.03, -0.0064, 0.1, 0.05, 0.03, 0.03, -0.0027, 0.002, -0.0039, 0.2548, -0.091, 0.203, 0.096, 0, 0.073, -0.203, -0.159, 0.74, 0.58, 0.47, 0.36, 0.693, 0.519, 0.63, 0.7⟩,
  ⟨0.4, 6.75, 5, 360, -3.278, 2.4, 1.5, 4.5, 1.662, -0.79, 0.275, -0.1, -0.41, 2.4688, 0, -0.055, 3.99, 0, -0.1, 0.58, -0.11, 0.92, -0.0043, 0.1, 0.07, 0.06, 0.06, -0.0023, 0.001, -0.0048, 0.2136, 0.129, 0.232, 0.123, 0, 0.143, -0.154, -0.023, 0.699, 0.59, 0.47, 0.36, 0.644, 0.524, 0.66, 0.7⟩,
  ⟨0.5, 6.75, 5, 340, -3.599, 2.4, 1.5, 4.5, 1.571, -0.79, 0.275, -0.1, -0.41, 2.5586, 0, -0.065, 4.45, 0, -0.1, 0.56, -0.04, 0.84, -0.0032, 0.1, 0.1, 0.1, 0.09, -0.002, 0.0008, -0.005, 0.1542, 0.31, 0.252, 0.134, 0, 0.16, -0.159, -0.029, 0.676, 0.6, 0.47, 0.36, 0.616, 0.532, 0.69, 0.7⟩,
  ⟨0.75, 6.75, 5, 330, -3.8, 2.4, 1.5, 4.5, 1.299, -0.79, 0.275, -0.1, -0.41, 2.6821, 0, -0.095, 4.75, 0, -0.1, 0.53, 0.07, 0.68, -0.0025, 0.14, 0.14, 0.14, 0.13, -0.001, 0.0007, -0.0041, 0.0787, 0.505, 0.208, 0.129, 0, 0.158, -0.141, 0.061, 0.631, 0.615, 0.47, 0.36, 0.566, 0.548, 0.73, 0.69⟩,
  ⟨1, 6.75, 5, 330, -3.5, 2.4, 1.5, 4.5, 1.043, -0.79, 0.275, -0.1, -0.41, 2.763, 0, -0.11, 4.3, 0, -0.1, 0.5, 0.15, 0.57, -0.0025, 0.17, 0.17, 0.17, 0.14, -0.0005, 0.0007, -0.0032, 0.0476, 0.358, 0.208, 0.152, 0, 0.145, -0.144, 0.062, 0.609, 0.63, 0.47, 0.36, 0.541, 0.565, 0.77, 0.68⟩,
  ⟨1.5, 6.75, 5, 330, -2.4, 2.4, 1.5, 4.5, 0.665, -0.79, 0.275, -0.1, -0.41, 2.8355, 0, -0.124, 2.6, 0, -0.1, 0.42, 0.27, 0.42, -0.0022, 0.22, 0.21, 0.2, 0.16, -0.0004, 0.0006, -0.002, -0.0163, 0.131, 0.108, 0.118, 0, 0.131, -0.126, 0.037, 0.578, 0.64, 0.47, 0.36, 0.506, 0.576, 0.8, 0.66⟩,
  ⟨2, 6.75, 5, 330, -1, 2.4, 1.5, 4.5, 0.329, -0.79, 0.275, -0.1, -0.41, 2.8973, 0, -0.138, 0.55, 0, -0.1, 0.35, 0.35, 0.31, -0.0019, 0.26, 0.25, 0.22, 0.16, -0.0002, 0.0003, -0.0017, -0.1203, 0.123, 0.068, 0.119, 0, 0.083, -0.075, -0.143, 0.555, 0.65, 0.47, 0.36, 0.48, 0.587, 0.8, 0.62⟩,
  ⟨3, 6.82, 5, 330, 0, 2.4, 1.5, 4.5, -0.06, -0.79, 0.275, -0.1, -0.41, 2.9061, 0, -0.172, -0.95, 0, -0.1, 0.2, 0.46, 0.16, -0.0015, 0.34, 0.3, 0.23, 0.16, 0, 0, -0.002, -0.2719, 0.109, -0.023, 0.093, 0, 0.07, -0.021, -0.028, 0.548, 0.64, 0.47, 0.36, 0.472, 0.576, 0.8, 0.55⟩,
  ⟨4, 6.92, 5, 330, 0, 2.4, 1.5, 4.5, -0.299, -0.79, 0.275, -0.1, -0.41, 2.8888, 0, -0.197, -0.95, 0, -0.1, 0, 0.54, 0.05, -0.001, 0.41, 0.32, 0.23, 0.14, 0, 0, -0.002, -0.2958, 0.135, 0.028, 0.084, 0, 0.101, 0.072, -0.097, 0.527, 0.63, 0.47, 0.36, 0.447, 0.565, 0.76, 0.52⟩,
  ⟨5, 7, 5, 330, 0, 2.4, 1.5, 4.5, -0.562, -0.765, 0.275, -0.1, -0.41, 2.8984, 0, -0.218, -0.93, 0, -0.1, 0, 0.61, -0.04, -0.001, 0.51, 0.32, 0.22, 0.13, 0, 0, -0.002, -0.2718, 0.189, 0.031, 0.058, 0, 0.095, 0.205, 0.015, 0.505, 0.63, 0.47, 0.36, 0.425, 0.568, 0.72, 0.5⟩,
  ⟨6, 7.06, 5, 330, 0, 2.4, 1.5, 4.5, -0.875, -0.711, 0.275, -0.1, -0.41, 2.8955, 0, -0.235, -0.91, 0, -0.2, 0, 0.65, -0.11, -0.001, 0.55, 0.32, 0.2, 0.1, 0, 0, -0.002, -0.2517, 0.215, 0.024, 0.065, 0, 0.133, 0.285, 0.104, 0.477, 0.63, 0.47, 0.36, 0.395, 0.571, 0.7, 0.5⟩,
  ⟨7.5, 7.145, 5, 330, 0, 2.4, 1.5, 4.5, -1.303, -0.634, 0.275, -0.1, -0.41, 2.87, 0, -0.255, -0.87, 0, -0.2, 0, 0.72, -0.19, -0.001, 0.49, 0.275, 0.17, 0.09, 0, 0, -0.002, -0.14, 0.15, -0.07, 0, 0, 0.151, 0.329, 0.299, 0.457, 0.63, 0.47, 0.36, 0.378, 0.575, 0.67, 0.5⟩,
  ⟨10, 7.25, 5, 330, 0, 2.4, 1.5, 4.5, -1.928, -0.529, 0.275, -0.1, -0.41, 2.8431, 0, -0.285, -0.8, 0, -0.2, 0, 0.8, -0.3, -0.001, 0.42, 0.22, 0.14, 0.08, 0, 0, -0.002, -0.0216, 0.092, -0.159, -0.05, 0, 0.124, 0.301, 0.243, 0.429, 0.63, 0.47, 0.36, 0.359, 0.585, 0.64, 0.5⟩,
  ⟨0, 6.75, 5, 660, -1.47, 2.4, 1.5, 4.5, 0.587, -0.79, 0.275, -0.1, -0.41, 2.1541, 0, -0.015, 1.735, 0, -0.1, 0.6, -0.3, 1.1, -0.0072, 0.1, 0.05, 0, -0.05, -0.0015, 0.0025, -0.0034, -0.1503, 0.265, 0.337, 0.188, 0, 0.088, -0.196, 0.044, 0.754, 0.52, 0.47, 0.36, 0.741, 0.501, 0.54, 0.63⟩,
  ⟨-1, 6.75, 5, 330, -2.02, 2400, 1.5, 4.5, 5.975, -0.919, 0.275, -0.1, -0.41, 2.3657, 0, -0.094, 2.36, 0, -0.1, 0.25, 0.22, 0.3, -0.0005, 0.28, 0.15, 0.09, 0.07, -0.0001, 0.0005, -0.0037, -0.1462, 0.377, 0.212, 0.157, 0, 0.095, -0.038, 0.065, 0.662, 0.51, 0.38, 0.38, 0.66, 0.51, 0.58, 0.53⟩
]

end ASK14
