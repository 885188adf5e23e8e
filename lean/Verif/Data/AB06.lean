import Mathlib.Data.Rat.Defs
import Mathlib.Algebra.Order.Ring.Rat
import Mathlib.Tactic.NormNum

/-! Generated by tools/gen_data.py from src/pygmm/data/atkinson_boore_2006-bc.csv, src/pygmm/data/atkinson_boore_2006-rock.csv
(loaded in src/pygmm/atkinson_boore_2006.py lines 28-29).  Do not edit. -/

namespace AB06

/-- one row of atkinson_boore_2006-bc.csv, atkinson_boore_2006-rock.csv: the columns of the file, in order -/
structure Row where
  period : ℚ
  c_1 : ℚ
  c_2 : ℚ
  c_3 : ℚ
  c_4 : ℚ
  c_5 : ℚ
  c_6 : ℚ
  c_7 : ℚ
  c_8 : ℚ
  c_9 : ℚ
  c_10 : ℚ

/-- src/pygmm/data/atkinson_boore_2006-bc.csv -/
def bc : List Row := [
  ⟨-2, -3.09, 8.28e-1, -8.541e-3, -2.381, 1.782e-1, -1.643, 1.628e-1, 5.81e-1, -1.45e-1, -2.337e-4⟩,
  ⟨-1, -1.662, 1.05, -6.035e-2, -2.496, 1.84e-1, -2.301, 2.5e-1, 1.268e-1, -8.704e-2, -4.266e-4⟩,
  ⟨0, 5.233e-1, 9.686e-1, -6.196e-2, -2.439, 1.465e-1, -2.335, 1.912e-1, -8.695e-2, -8.285e-2, -6.304e-4⟩,
  ⟨0.025, 1.052, 9.03e-1, -5.768e-2, -2.571, 1.483e-1, -2.652, 2.065e-1, -4.084e-1, -5.769e-2, -5.122e-4⟩,
  ⟨0.031, 1.191, 8.884e-1, -5.642e-2, -2.577, 1.451e-1, -2.84, 2.121e-1, -4.37e-1, -5.866e-2, -4.329e-4⟩,
  ⟨0.04, 1.261, 8.789e-1, -5.515e-2, -2.536, 1.388e-1, -2.994, 2.158e-1, -3.908e-1, -6.746e-2, -3.881e-4⟩,
  ⟨0.05, 1.209, 8.83e-1, -5.441e-2, -2.44, 1.295e-1, -3.035, 2.133e-1, -2.098e-1, -8.997e-2, -4.145e-4⟩,
  ⟨0.063, 1.109, 8.875e-1, -5.386e-2, -2.334, 1.229e-1, -2.881, 2.007e-1, -3.189e-2, -1.069e-1, -5.483e-4⟩,
  ⟨0.079, 9.667e-1, 9.033e-1, -5.476e-2, -2.249, 1.215e-1, -2.53, 1.775e-1, 1.001e-1, -1.147e-1, -7.724e-4⟩,
  ⟨0.1, 7.818e-1, 9.235e-1, -5.555e-2, -2.165, 1.191e-1, -2.097, 1.483e-1, 2.847e-1, -1.319e-1, -9.897e-4⟩,
  ⟨0.125, 5.356e-1, 9.647e-1, -5.835e-2, -2.11, 1.205e-1, -1.672, 1.156e-1, 3.433e-1, -1.322e-1, -1.13e-3⟩,
  ⟨0.158, 1.194e-1, 1.057, -6.473e-2, -2.054, 1.19e-1, -1.355, 9.16e-2, 5.164e-1, -1.503e-1, -1.178e-3⟩,
  ⟨0.199, -3.056e-1, 1.156, -7.211e-2, -2.038, 1.22e-1, -1.147, 7.375e-2, 5.082e-1, -1.43e-1, -1.14e-3⟩,
  ⟨0.251, -8.756e-1, 1.293, -8.193e-2, -2.014, 1.226e-1, -1.027, 6.341e-2, 5.808e-1, -1.491e-1, -1.053e-3⟩,
  ⟨0.315, -1.56, 1.455, -9.312e-2, -1.977, 1.209e-1, -9.466e-1, 5.576e-2, 6.499e-1, -1.558e-1, -9.552e-4⟩,
  ⟨0.397, -2.281, 1.629, -1.054e-1, -1.967, 1.227e-1, -8.88e-1, 5.033e-2, 6.839e-1, -1.582e-1, -8.587e-4⟩,
  ⟨0.5, -3.007, 1.803, -1.178e-1, -1.982, 1.274e-1, -8.466e-1, 4.698e-2, 6.67e-1, -1.546e-1, -7.676e-4⟩,
  ⟨0.629, -3.748, 1.973, -1.294e-1, -1.997, 1.313e-1, -8.417e-1, 4.82e-2, 6.772e-1, -1.557e-1, -6.763e-4⟩,
  ⟨0.794, -4.446, 2.119, -1.387e-1, -2.009, 1.356e-1, -8.576e-1, 4.976e-2, 7.084e-1, -1.589e-1, -5.751e-4⟩,
  ⟨1, -5.058, 2.233, -1.454e-1, -2.03, 1.408e-1, -8.744e-1, 5.412e-2, 7.922e-1, -1.697e-1, -4.886e-4⟩,
  ⟨1.25, -5.489, 2.289, -1.476e-1, -2.081, 1.501e-1, -9e-1, 5.794e-2, 8.208e-1, -1.719e-1, -4.07e-4⟩,
  ⟨1.587, -5.754, 2.287, -1.45e-1, -2.131, 1.582e-1, -9.568e-1, 6.762e-2, 8.67e-1, -1.789e-1, -3.429e-4⟩,
  ⟨2, -5.853, 2.233, -1.385e-1, -2.195, 1.688e-1, -1.037, 8.002e-2, 8.666e-1, -1.79e-1, -2.86e-4⟩,
  ⟨2.5, -5.8, 2.126, -1.278e-1, -2.257, 1.79e-1, -1.123, 9.539e-2, 8.911e-1, -1.797e-1, -2.601e-4⟩,
  ⟨3.125, -5.59, 1.972, -1.136e-1, -2.331, 1.908e-1, -1.204, 1.099e-1, 8.449e-1, -1.723e-1, -2.452e-4⟩,
  ⟨4, -5.256, 1.787, -9.785e-2, -2.435, 2.068e-1, -1.307, 1.21e-1, 7.34e-1, -1.56e-1, -1.959e-4⟩,
  ⟨5, -4.852, 1.58, -8.066e-2, -2.53, 2.216e-1, -1.426, 1.361e-1, 6.34e-1, -1.413e-1, -1.608e-4⟩
]

/-- src/pygmm/data/atkinson_boore_2006-rock.csv -/
def rock : List Row := [
  ⟨-2, -2.82, 7.491e-1, -4.196e-3, -2.611, 2.157e-1, -1.671, 1.643e-1, 7.452e-1, -1.547e-1, -1.917e-4⟩,
  ⟨-1, -1.442, 9.909e-1, -5.848e-2, -2.701, 2.155e-1, -2.436, 2.659e-1, 8.479e-2, -6.927e-2, -3.734e-4⟩,
  ⟨0, 9.069e-1, 9.83e-1, -6.595e-2, -2.698, 1.594e-1, -2.795, 2.12e-1, -3.011e-1, -6.532e-2, -4.484e-4⟩,
  ⟨0.025, 1.522, 9.597e-1, -6.351e-2, -2.813, 1.458e-1, -3.654, 2.362e-1, -6.544e-1, -5.5e-2, -4.848e-5⟩,
  ⟨0.031, 1.436, 9.592e-1, -6.276e-2, -2.714, 1.4e-1, -3.728, 2.343e-1, -5.43e-1, -6.448e-2, -3.23e-5⟩,
  ⟨0.04, 1.264, 9.68e-1, -6.232e-2, -2.581, 1.317e-1, -3.644, 2.276e-1, -3.506e-1, -8.126e-2, -1.225e-4⟩,
  ⟨0.05, 1.105, 9.719e-1, -6.197e-2, -2.466, 1.276e-1, -3.39, 2.144e-1, -1.391e-1, -9.839e-2, -3.167e-4⟩,
  ⟨0.063, 9.109e-1, 9.802e-1, -6.208e-2, -2.36, 1.263e-1, -2.972, 1.91e-1, 1.069e-1, -1.173e-1, -5.786e-4⟩,
  ⟨0.079, 6.906e-1, 9.974e-1, -6.276e-2, -2.262, 1.246e-1, -2.487, 1.636e-1, 2.139e-1, -1.207e-1, -8.469e-4⟩,
  ⟨0.1, 4.797e-1, 1.017, -6.404e-2, -2.201, 1.27e-1, -2.007, 1.326e-1, 3.371e-1, -1.266e-1, -1.047e-3⟩,
  ⟨0.125, 2.144e-1, 1.054, -6.664e-2, -2.154, 1.295e-1, -1.608, 1.046e-1, 4.273e-1, -1.303e-1, -1.153e-3⟩,
  ⟨0.158, -1.455e-1, 1.123, -7.143e-2, -2.116, 1.302e-1, -1.303, 8.311e-2, 5.617e-1, -1.438e-1, -1.182e-3⟩,
  ⟨0.199, -6.153e-1, 1.227, -7.886e-2, -2.087, 1.312e-1, -1.12, 6.788e-2, 6.055e-1, -1.459e-1, -1.125e-3⟩,
  ⟨0.251, -1.121, 1.342, -8.722e-2, -2.082, 1.349e-1, -9.714e-1, 5.628e-2, 6.14e-1, -1.432e-1, -1.055e-3⟩,
  ⟨0.315, -1.721, 1.483, -9.739e-2, -2.08, 1.382e-1, -8.893e-1, 4.869e-2, 6.101e-1, -1.389e-1, -9.538e-4⟩,
  ⟨0.397, -2.437, 1.649, -1.084e-1, -2.051, 1.363e-1, -8.426e-1, 4.483e-2, 7.386e-1, -1.557e-1, -8.509e-4⟩,
  ⟨0.5, -3.216, 1.826, -1.201e-1, -2.018, 1.344e-1, -8.134e-1, 4.437e-2, 8.839e-1, -1.751e-1, -7.704e-4⟩,
  ⟨0.629, -3.917, 1.987, -1.314e-1, -2.045, 1.419e-1, -7.818e-1, 4.297e-2, 7.878e-1, -1.59e-1, -6.948e-4⟩,
  ⟨0.794, -4.604, 2.132, -1.406e-1, -2.062, 1.468e-1, -7.974e-1, 4.345e-2, 7.748e-1, -1.558e-1, -5.79e-4⟩,
  ⟨1, -5.272, 2.264, -1.483e-1, -2.069, 1.497e-1, -8.132e-1, 4.666e-2, 8.262e-1, -1.622e-1, -4.862e-4⟩,
  ⟨1.25, -5.724, 2.324, -1.505e-1, -2.104, 1.565e-1, -8.202e-1, 5.186e-2, 8.563e-1, -1.661e-1, -4.329e-4⟩,
  ⟨1.587, -6.043, 2.342, -1.496e-1, -2.157, 1.662e-1, -8.704e-1, 6.047e-2, 9.207e-1, -1.734e-1, -3.748e-4⟩,
  ⟨2, -6.183, 2.302, -1.442e-1, -2.223, 1.77e-1, -9.37e-1, 7.067e-2, 9.518e-1, -1.768e-1, -3.22e-4⟩,
  ⟨2.5, -6.169, 2.211, -1.348e-1, -2.299, 1.898e-1, -9.86e-1, 7.86e-2, 9.683e-1, -1.765e-1, -2.823e-4⟩,
  ⟨3.125, -6.038, 2.08, -1.221e-1, -2.367, 2.002e-1, -1.073, 8.95e-2, 1.002, -1.803e-1, -2.306e-4⟩,
  ⟨4, -5.791, 1.916, -1.071e-1, -2.441, 2.113e-1, -1.162, 1.018e-1, 1.012, -1.824e-1, -2.01e-4⟩,
  ⟨5, -5.408, 1.714, -9.012e-2, -2.537, 2.267e-1, -1.268, 1.162e-1, 9.792e-1, -1.767e-1, -1.757e-4⟩
]

end AB06
