import Mathlib.Data.Rat.Defs
import Mathlib.Algebra.Order.Ring.Rat
import Mathlib.Tactic.NormNum

/-! Generated by tools/gen_data.py from src/pygmm/data/pezeshk_zandieh_tavakoli_2011.csv
(loaded in src/pygmm/pezeshk_zandieh_tavakoli_2011.py line 30).  Do not edit. -/

namespace Pea11

/-- one row of pezeshk_zandieh_tavakoli_2011.csv: the columns of the file, in order -/
structure Row where
  period : ℚ
  c_1 : ℚ
  c_2 : ℚ
  c_3 : ℚ
  c_4 : ℚ
  c_5 : ℚ
  c_6 : ℚ
  c_7 : ℚ
  c_8 : ℚ
  c_9 : ℚ
  c_10 : ℚ
  c_11 : ℚ
  c_12 : ℚ
  c_13 : ℚ
  c_14 : ℚ
  sigma_reg : ℚ

/-- src/pygmm/data/pezeshk_zandieh_tavakoli_2011.csv -/
def table : List Row := [
  ⟨0, 1.5828, 2.298e-1, -3.847e-2, -3.8325, 3.535e-1, 3.321e-1, -9.165e-2, -2.5517, 1.831e-1, -4.224e-4, 6.6521, -2.105e-2, 3.778e-1, 2.791e-1, 0.021⟩,
  ⟨0.01, 2.0434, 1.987e-1, -3.837e-2, -4.0521, 3.688e-1, 1.995e-1, -8.918e-2, -2.5948, 1.847e-1, -3.965e-4, 7.0645, -1.974e-2, 3.688e-1, 2.792e-1, 0.022⟩,
  ⟨0.02, 2.305, 1.877e-1, -3.697e-2, -4.0443, 3.616e-1, -1.222e-1, -9.157e-2, -2.9998, 1.941e-1, -1.707e-4, 7.3314, -1.974e-2, 3.691e-1, 2.796e-1, 0.023⟩,
  ⟨0.03, 1.9848, 2.203e-1, -3.616e-2, -3.8032, 3.384e-1, 7.814e-2, -1.126e-1, -3.3125, 2.017e-1, -5.322e-5, 7.1183, -2.094e-2, 3.817e-1, 2.838e-1, 0.022⟩,
  ⟨0.04, 1.6854, 2.404e-1, -3.578e-2, -3.6129, 3.247e-1, 2.956e-1, -1.18e-1, -3.332, 1.977e-1, -1.113e-4, 6.8113, -2.18e-2, 3.914e-1, 2.874e-1, 0.024⟩,
  ⟨0.05, 1.4517, 2.414e-1, -3.468e-2, -3.4683, 3.177e-1, 5.224e-1, -1.296e-1, -3.2109, 1.956e-1, -2.669e-4, 6.3705, -2.244e-2, 3.99e-1, 2.905e-1, 0.025⟩,
  ⟨0.075, 1.0698, 2.989e-1, -3.897e-2, -3.377, 3.18e-1, 7.422e-1, -1.215e-1, -2.6889, 1.723e-1, -6.659e-4, 6.0817, -2.312e-2, 4.108e-1, 2.976e-1, 0.025⟩,
  ⟨0.1, 0.9314, 3.088e-1, -3.844e-2, -3.2926, 3.063e-1, 7.064e-1, -9.521e-2, -2.209, 1.472e-1, -9.254e-4, 6.1621, -2.259e-2, 4.102e-1, 3.007e-1, 0.022⟩,
  ⟨0.15, 0.3964, 4.317e-1, -4.578e-2, -3.2112, 2.937e-1, 6.084e-1, -6.727e-2, -1.6121, 1.072e-1, -1.077e-3, 6.2667, -2.185e-2, 4.066e-1, 3.023e-1, 0.016⟩,
  ⟨0.2, -0.4883, 6.278e-1, -5.654e-2, -3.0304, 2.673e-1, 5.422e-1, -5.347e-2, -1.3516, 8.784e-2, -1.045e-3, 6.1905, -2.046e-2, 3.979e-1, 3.033e-1, 0.014⟩,
  ⟨0.25, -1.0098, 7.401e-1, -6.309e-2, -2.9959, 2.623e-1, 4.421e-1, -3.625e-2, -1.2309, 7.733e-2, -9.648e-4, 6.0635, -1.933e-2, 3.908e-1, 3.041e-1, 0.015⟩,
  ⟨0.3, -1.68, 8.86e-1, -7.162e-2, -2.8894, 2.481e-1, 4.869e-1, -4.324e-2, -1.149, 7.056e-2, -9.049e-4, 5.9891, -1.837e-2, 3.867e-1, 3.068e-1, 0.015⟩,
  ⟨0.4, -2.3106, 1.022, -7.965e-2, -2.9265, 2.515e-1, 4.716e-1, -4.039e-2, -1.0923, 6.554e-2, -7.853e-4, 6.0263, -1.683e-2, 3.774e-1, 3.082e-1, 0.017⟩,
  ⟨0.5, -3.1365, 1.201, -9.037e-2, -2.8823, 2.456e-1, 3.333e-1, -2.105e-2, -1.0022, 5.519e-2, -7.069e-4, 5.9117, -1.556e-2, 3.722e-1, 3.119e-1, 0.017⟩,
  ⟨0.75, -4.5494, 1.508, -1.087e-1, -2.8614, 2.424e-1, 4.023e-1, -3.092e-2, -0.975, 5.536e-2, -5.685e-4, 5.9835, -1.339e-2, 3.654e-1, 3.203e-1, 0.021⟩,
  ⟨1, -5.4113, 1.69, -1.196e-1, -2.8998, 2.465e-1, 3.766e-1, -2.928e-2, -0.947, 5.249e-2, -4.563e-4, 6.1234, -1.18e-2, 3.588e-1, 3.249e-1, 0.022⟩,
  ⟨1.5, -6.4806, 1.867, -1.282e-1, -2.9338, 2.525e-1, 2.633e-1, -1.442e-2, -0.9007, 4.974e-2, -3.54e-4, 5.9875, -1.04e-2, 3.569e-1, 3.327e-1, 0.019⟩,
  ⟨2, -6.934, 1.907, -1.287e-1, -3.0128, 2.639e-1, 3.172e-1, -2.15e-2, -0.8749, 4.774e-2, -3.025e-4, 6.1355, -9.443e-3, 3.561e-1, 3.387e-1, 0.021⟩,
  ⟨3, -7.4264, 1.881, -1.205e-1, -2.9742, 2.576e-1, 2.585e-1, -1.52e-2, -0.8821, 5.376e-2, -2.641e-4, 6.0598, -8.509e-3, 3.54e-1, 3.431e-1, 0.024⟩,
  ⟨4, -7.8064, 1.895, -1.183e-1, -3.005, 2.588e-1, 3.069e-1, -2.545e-2, -0.8808, 5.703e-2, -2.423e-4, 6.2536, -7.859e-3, 3.527e-1, 3.463e-1, 0.03⟩,
  ⟨5, -8.2704, 1.938, -1.18e-1, -2.9501, 2.503e-1, 3.296e-1, -3.023e-2, -1.0125, 7.332e-2, -2.002e-4, 6.3423, -6.9e-3, 3.577e-1, 3.58e-1, 0.032⟩,
  ⟨7.5, -8.3376, 1.806, -1.042e-1, -2.9839, 2.542e-1, 2.879e-1, -2.252e-2, -1.1817, 9.598e-2, -1.624e-4, 6.5181, -7.24e-3, 3.73e-1, 3.71e-1, 0.03⟩,
  ⟨10, -9.1046, 1.899, -1.076e-1, -2.8611, 2.395e-1, 2.868e-1, -2.29e-2, -1.3786, 1.222e-1, -1.268e-4, 6.5384, -7.485e-3, 3.848e-1, 3.81e-1, 0.024⟩
]

end Pea11
