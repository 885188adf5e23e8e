import Mathlib.Data.Rat.Defs
import Mathlib.Algebra.Order.Ring.Rat
import Mathlib.Tactic.NormNum

/-! Generated by tools/gen_data.py from src/pygmm/data/idriss_2014-small.csv, src/pygmm/data/idriss_2014-large.csv
(loaded in src/pygmm/idriss_2014.py lines 31-32).  Do not edit. -/

namespace I14

/-- one row of idriss_2014-small.csv, idriss_2014-large.csv: the columns of the file, in order -/
structure Row where
  period : ℚ
  alpha_1 : ℚ
  alpha_2 : ℚ
  alpha_3 : ℚ
  beta_1 : ℚ
  beta_2 : ℚ
  epsilon : ℚ
  gamma : ℚ
  phi : ℚ

/-- src/pygmm/data/idriss_2014-small.csv -/
def small : List Row := [
  ⟨0.01, 7.0887, 0.2058, 0.0589, 2.9935, -0.2287, -0.854, -0.0027, 0.08⟩,
  ⟨0.02, 7.1157, 0.2058, 0.0589, 2.9935, -0.2287, -0.854, -0.0027, 0.08⟩,
  ⟨0.03, 7.2087, 0.2058, 0.0589, 2.9935, -0.2287, -0.854, -0.0027, 0.08⟩,
  ⟨0.04, 7.3287, 0.2058, 0.0589, 2.9935, -0.2287, -0.854, -0.0027, 0.08⟩,
  ⟨0.05, 6.2638, 0.0625, 0.0417, 2.8664, -0.2418, -0.631, -0.0061, 0.08⟩,
  ⟨0.075, 5.9051, 0.1128, 0.0527, 2.9406, -0.2513, -0.591, -0.0056, 0.08⟩,
  ⟨0.1, 7.5791, 0.0848, 0.0442, 3.019, -0.2516, -0.757, -0.0042, 0.08⟩,
  ⟨0.15, 8.019, 0.1713, 0.0329, 2.7871, -0.2236, -0.911, -0.0046, 0.08⟩,
  ⟨0.2, 9.2812, 0.1041, 0.0188, 2.8611, -0.2229, -0.998, -0.003, 0.08⟩,
  ⟨0.25, 9.5804, 0.0875, 0.0095, 2.8289, -0.22, -1.042, -0.0028, 0.08⟩,
  ⟨0.3, 9.8912, 0.0003, -0.0039, 2.8423, -0.2284, -1.03, -0.0029, 0.08⟩,
  ⟨0.4, 9.5342, 0.0027, -0.0133, 2.83, -0.2318, -1.019, -0.0028, 0.08⟩,
  ⟨0.5, 9.2142, 0.0399, -0.0224, 2.856, -0.2337, -1.023, -0.0021, 0.08⟩,
  ⟨0.75, 8.3517, 0.0689, -0.0267, 2.7544, -0.2392, -1.056, -0.0029, 0.08⟩,
  ⟨1, 7.0453, 0.16, -0.0198, 2.7339, -0.2398, -1.009, -0.0032, 0.06⟩,
  ⟨1.5, 5.1307, 0.2429, -0.0367, 2.68, -0.2417, -0.898, -0.0033, 0.04⟩,
  ⟨2, 3.361, 0.3966, -0.0291, 2.6837, -0.245, -0.851, -0.0032, 0.02⟩,
  ⟨3, 0.1784, 0.756, -0.0214, 2.6907, -0.2389, -0.761, -0.0031, 0.02⟩,
  ⟨4, -2.4301, 0.9283, -0.024, 2.5782, -0.2514, -0.675, -0.0051, 0⟩,
  ⟨5, -4.357, 1.1209, -0.0202, 2.5468, -0.2541, -0.629, -0.0059, 0⟩,
  ⟨7.5, -7.8275, 1.4016, -0.0219, 2.4478, -0.2593, -0.531, -0.0057, 0⟩,
  ⟨10, -9.2857, 1.5574, -0.0035, 2.3922, -0.2586, -0.586, -0.0061, 0⟩
]

/-- src/pygmm/data/idriss_2014-large.csv -/
def large : List Row := [
  ⟨0.01, 9.0138, -0.0794, 0.0589, 2.9935, -0.2287, -0.854, -0.0027, 0.08⟩,
  ⟨0.02, 9.0408, -0.0794, 0.0589, 2.9935, -0.2287, -0.854, -0.0027, 0.08⟩,
  ⟨0.03, 9.1338, -0.0794, 0.0589, 2.9935, -0.2287, -0.854, -0.0027, 0.08⟩,
  ⟨0.04, 9.2538, -0.0794, 0.0589, 2.9935, -0.2287, -0.854, -0.0027, 0.08⟩,
  ⟨0.05, 7.9837, -0.1923, 0.0417, 2.7995, -0.2319, -0.631, -0.0061, 0.08⟩,
  ⟨0.075, 7.756, -0.1614, 0.0527, 2.8143, -0.2326, -0.591, -0.0056, 0.08⟩,
  ⟨0.1, 9.4252, -0.1887, 0.0442, 2.8131, -0.2211, -0.757, -0.0042, 0.08⟩,
  ⟨0.15, 9.6242, -0.0665, 0.0329, 2.4091, -0.1676, -0.911, -0.0046, 0.08⟩,
  ⟨0.2, 11.13, -0.1698, 0.0188, 2.4938, -0.1685, -0.998, -0.003, 0.08⟩,
  ⟨0.25, 11.3629, -0.1766, 0.0095, 2.3773, -0.1531, -1.042, -0.0028, 0.08⟩,
  ⟨0.3, 11.7818, -0.2798, -0.0039, 2.3772, -0.1595, -1.03, -0.0029, 0.08⟩,
  ⟨0.4, 11.6097, -0.3048, -0.0133, 2.3413, -0.1594, -1.019, -0.0028, 0.08⟩,
  ⟨0.5, 11.4484, -0.2911, -0.0224, 2.3477, -0.1584, -1.023, -0.0021, 0.08⟩,
  ⟨0.75, 10.9065, -0.3097, -0.0267, 2.2042, -0.1577, -1.056, -0.0029, 0.08⟩,
  ⟨1, 9.8565, -0.2565, -0.0198, 2.1493, -0.1532, -1.009, -0.0032, 0.06⟩,
  ⟨1.5, 8.3363, -0.232, -0.0367, 2.0408, -0.147, -0.898, -0.0033, 0.04⟩,
  ⟨2, 6.8656, -0.1226, -0.0291, 2.0013, -0.1439, -0.851, -0.0032, 0.02⟩,
  ⟨3, 4.1178, 0.1724, -0.0214, 1.9408, -0.1278, -0.761, -0.0031, 0.02⟩,
  ⟨4, 1.8102, 0.3001, -0.024, 1.7763, -0.1326, -0.675, -0.0051, 0⟩,
  ⟨5, 0.0977, 0.4609, -0.0202, 1.703, -0.1291, -0.629, -0.0059, 0⟩,
  ⟨7.5, -3.0563, 0.6948, -0.0219, 1.5212, -0.122, -0.531, -0.0057, 0⟩,
  ⟨10, -4.4387, 0.8393, -0.0035, 1.4195, -0.1145, -0.586, -0.0061, 0⟩
]

end I14
