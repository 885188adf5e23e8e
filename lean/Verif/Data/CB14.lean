import Mathlib.Data.Rat.Defs
import Mathlib.Algebra.Order.Ring.Rat
import Mathlib.Tactic.NormNum

/-! Generated by tools/gen_data.py from src/pygmm/data/campbell_bozorgnia_2014.csv
(loaded in src/pygmm/campbell_bozorgnia_2014.py line 29).  Do not edit. -/

namespace CB14

/-- one row of campbell_bozorgnia_2014.csv: the columns of the file, in order -/
structure Row where
  period : ℚ
  c_0 : ℚ
  c_1 : ℚ
  c_2 : ℚ
  c_3 : ℚ
  c_4 : ℚ
  c_5 : ℚ
  c_6 : ℚ
  c_7 : ℚ
  c_8 : ℚ
  c_9 : ℚ
  c_10 : ℚ
  c_11 : ℚ
  c_12 : ℚ
  c_13 : ℚ
  c_14 : ℚ
  c_15 : ℚ
  c_16 : ℚ
  c_17 : ℚ
  c_18 : ℚ
  c_19 : ℚ
  k_1 : ℚ
  k_2 : ℚ
  k_3 : ℚ
  a_2 : ℚ
  h_1 : ℚ
  h_2 : ℚ
  h_3 : ℚ
  h_4 : ℚ
  h_5 : ℚ
  h_6 : ℚ
  c_20 : ℚ
  dc_20ca : ℚ
  dc_20jp : ℚ
  dc_20ch : ℚ
  tau_1 : ℚ
  tau_2 : ℚ
  phi_1 : ℚ
  phi_2 : ℚ
  phi_lnAF : ℚ
  phi_c : ℚ
  sigma_s : ℚ
  sigma_arbs : ℚ
  sigma_l : ℚ
  sigma_arbl : ℚ
  rho_lnPGAlnY : ℚ

/-- src/pygmm/data/campbell_bozorgnia_2014.csv -/
def table : List Row := [
  ⟨0.01, -4.365, 0.977, 0.533, -1.485, -0.499, -2.773, 0.248, 6.753, 0, -0.214, 0.72, 1.094, 2.191, 1.416, -0.007, -0.207, 0.39, 0.0981, 0.0334, 0.00755, 865, -1.186, 1.839, 0.168, 0.242, 1.471, -0.714, 1, -0.336, -0.27, -0.0055, 0, -0.0035, 0.0036, 0.404, 0.325, 0.734, 0.492, 0.3, 0.166, 0.838, 0.854, 0.59, 0.613, 1⟩,
  ⟨0.02, -4.348, 0.976, 0.549, -1.488, -0.501, -2.772, 0.247, 6.502, 0, -0.208, 0.73, 1.149, 2.189, 1.453, -0.0167, -0.199, 0.387, 0.1009, 0.0327, 0.00759, 865, -1.219, 1.84, 0.166, 0.244, 1.467, -0.711, 1, -0.339, -0.263, -0.0055, 0, -0.0035, 0.0036, 0.417, 0.326, 0.738, 0.496, 0.3, 0.166, 0.848, 0.864, 0.594, 0.617, 0.998⟩,
  ⟨0.03, -4.024, 0.931, 0.628, -1.494, -0.517, -2.782, 0.246, 6.291, 0, -0.213, 0.759, 1.29, 2.164, 1.476, -0.0422, -0.202, 0.378, 0.1095, 0.0331, 0.0079, 908, -1.273, 1.841, 0.167, 0.246, 1.467, -0.713, 1, -0.338, -0.259, -0.0057, 0, -0.0034, 0.0037, 0.446, 0.344, 0.747, 0.503, 0.3, 0.165, 0.87, 0.886, 0.609, 0.631, 0.986⟩,
  ⟨0.05, -3.479, 0.887, 0.674, -1.388, -0.615, -2.791, 0.24, 6.317, 0, -0.244, 0.826, 1.449, 2.138, 1.549, -0.0663, -0.339, 0.295, 0.1226, 0.027, 0.00803, 1054, -1.346, 1.843, 0.173, 0.251, 1.449, -0.701, 1, -0.338, -0.263, -0.0063, 0, -0.0037, 0.004, 0.508, 0.377, 0.777, 0.52, 0.3, 0.162, 0.928, 0.942, 0.642, 0.662, 0.938⟩,
  ⟨0.075, -3.293, 0.902, 0.726, -1.469, -0.596, -2.745, 0.227, 6.861, 0, -0.266, 0.815, 1.535, 2.446, 1.772, -0.0794, -0.404, 0.322, 0.1165, 0.0288, 0.00811, 1086, -1.471, 1.845, 0.198, 0.26, 1.435, -0.695, 1, -0.347, -0.219, -0.007, 0, -0.0037, 0.0039, 0.504, 0.418, 0.782, 0.535, 0.3, 0.158, 0.93, 0.943, 0.679, 0.697, 0.887⟩,
  ⟨0.1, -3.666, 0.993, 0.698, -1.572, -0.536, -2.633, 0.21, 7.294, 0, -0.229, 0.831, 1.615, 2.969, 1.916, -0.0294, -0.416, 0.384, 0.0998, 0.0325, 0.00744, 1032, -1.624, 1.847, 0.174, 0.259, 1.449, -0.708, 1, -0.391, -0.201, -0.0073, 0, -0.0034, 0.0042, 0.445, 0.426, 0.769, 0.543, 0.3, 0.17, 0.888, 0.904, 0.69, 0.711, 0.87⟩,
  ⟨0.15, -4.866, 1.267, 0.51, -1.669, -0.49, -2.458, 0.183, 8.031, 0, -0.211, 0.749, 1.877, 3.544, 2.161, 0.0642, -0.407, 0.417, 0.076, 0.0388, 0.00716, 878, -1.931, 1.852, 0.198, 0.254, 1.461, -0.715, 1, -0.449, -0.099, -0.0069, 0, -0.003, 0.0042, 0.382, 0.387, 0.769, 0.543, 0.3, 0.18, 0.859, 0.878, 0.667, 0.691, 0.876⟩,
  ⟨0.2, -5.411, 1.366, 0.447, -1.75, -0.451, -2.421, 0.182, 8.385, 0, -0.163, 0.764, 2.069, 3.707, 2.465, 0.0968, -0.311, 0.404, 0.0571, 0.0437, 0.00688, 748, -2.188, 1.856, 0.204, 0.237, 1.484, -0.721, 1, -0.393, -0.198, -0.006, 0, -0.0031, 0.0041, 0.339, 0.338, 0.761, 0.552, 0.3, 0.186, 0.833, 0.854, 0.647, 0.673, 0.87⟩,
  ⟨0.25, -5.962, 1.458, 0.274, -1.711, -0.404, -2.392, 0.189, 7.534, 0, -0.15, 0.716, 2.205, 3.343, 2.766, 0.1441, -0.172, 0.466, 0.0437, 0.0463, 0.00556, 654, -2.381, 1.861, 0.185, 0.206, 1.581, -0.787, 1, -0.339, -0.21, -0.0055, 0, -0.0033, 0.0036, 0.34, 0.316, 0.744, 0.545, 0.3, 0.191, 0.818, 0.84, 0.63, 0.658, 0.85⟩,
  ⟨0.3, -6.403, 1.528, 0.193, -1.77, -0.321, -2.376, 0.195, 6.99, 0, -0.131, 0.737, 2.306, 3.334, 3.011, 0.1597, -0.084, 0.528, 0.0323, 0.0508, 0.00458, 587, -2.518, 1.865, 0.164, 0.21, 1.586, -0.795, 1, -0.447, -0.121, -0.0049, 0, -0.0035, 0.0031, 0.34, 0.3, 0.727, 0.568, 0.3, 0.198, 0.803, 0.827, 0.642, 0.672, 0.819⟩,
  ⟨0.4, -7.566, 1.739, -0.02, -1.594, -0.426, -2.303, 0.185, 7.012, 0, -0.159, 0.738, 2.398, 3.544, 3.203, 0.141, 0.085, 0.54, 0.0209, 0.0432, 0.00401, 503, -2.657, 1.874, 0.16, 0.226, 1.544, -0.77, 1, -0.525, -0.086, -0.0037, 0, -0.0034, 0.0028, 0.356, 0.264, 0.69, 0.593, 0.3, 0.206, 0.776, 0.803, 0.649, 0.681, 0.743⟩,
  ⟨0.5, -8.379, 1.872, -0.121, -1.577, -0.44, -2.296, 0.186, 6.902, 0, -0.153, 0.718, 2.355, 3.016, 3.333, 0.1474, 0.233, 0.638, 0.0092, 0.0405, 0.00388, 457, -2.669, 1.883, 0.184, 0.217, 1.554, -0.77, 1, -0.407, -0.281, -0.0027, 0, -0.0034, 0.0025, 0.379, 0.263, 0.663, 0.611, 0.3, 0.208, 0.764, 0.792, 0.665, 0.697, 0.684⟩,
  ⟨0.75, -9.841, 2.021, -0.042, -1.757, -0.443, -2.232, 0.186, 5.522, 0, -0.09, 0.795, 1.995, 2.616, 3.054, 0.1764, 0.411, 0.776, -0.0082, 0.042, 0.0042, 410, -2.401, 1.906, 0.216, 0.154, 1.626, -0.78, 1, -0.371, -0.285, -0.0016, 0, -0.0032, 0.0016, 0.43, 0.326, 0.606, 0.633, 0.3, 0.221, 0.743, 0.775, 0.712, 0.746, 0.562⟩,
  ⟨1, -11.011, 2.18, -0.069, -1.707, -0.527, -2.158, 0.169, 5.65, 0, -0.105, 0.556, 1.447, 2.47, 2.562, 0.2593, 0.479, 0.771, -0.0131, 0.0426, 0.00409, 400, -1.955, 1.929, 0.596, 0.117, 1.616, -0.733, 1, -0.128, -0.756, -0.0006, 0, -0.003, 0.0006, 0.47, 0.353, 0.579, 0.628, 0.3, 0.225, 0.746, 0.779, 0.72, 0.754, 0.467⟩,
  ⟨1.5, -12.469, 2.27, 0.047, -1.621, -0.63, -2.063, 0.158, 5.795, 0, -0.058, 0.48, 0.33, 2.108, 1.453, 0.2881, 0.566, 0.748, -0.0187, 0.038, 0.00424, 400, -1.025, 1.974, 0.596, 0.117, 1.616, -0.733, 1, -0.128, -0.756, 0, 0, -0.0019, 0, 0.497, 0.399, 0.541, 0.603, 0.3, 0.222, 0.735, 0.768, 0.723, 0.756, 0.364⟩,
  ⟨2, -12.969, 2.271, 0.149, -1.512, -0.768, -2.104, 0.158, 6.632, 0, -0.028, 0.401, -0.514, 1.327, 0.657, 0.3112, 0.562, 0.763, -0.0258, 0.0252, 0.00448, 400, -0.299, 2.019, 0.596, 0.117, 1.616, -0.733, 1, -0.128, -0.756, 0, 0, -0.0005, 0, 0.499, 0.4, 0.529, 0.588, 0.3, 0.226, 0.727, 0.761, 0.711, 0.746, 0.298⟩,
  ⟨3, -13.306, 2.15, 0.368, -1.315, -0.89, -2.051, 0.148, 6.759, 0, 0, 0.206, -0.848, 0.601, 0.367, 0.3478, 0.534, 0.686, -0.0311, 0.0236, 0.00345, 400, 0, 2.11, 0.596, 0.117, 1.616, -0.733, 1, -0.128, -0.756, 0, 0, 0, 0, 0.5, 0.417, 0.527, 0.578, 0.3, 0.229, 0.726, 0.761, 0.713, 0.749, 0.234⟩,
  ⟨4, -14.02, 2.132, 0.726, -1.506, -0.885, -1.986, 0.135, 7.978, 0, 0, 0.105, -0.793, 0.568, 0.306, 0.3747, 0.522, 0.691, -0.0413, 0.0102, 0.00603, 400, 0, 2.2, 0.596, 0.117, 1.616, -0.733, 1, -0.128, -0.756, 0, 0, 0, 0, 0.543, 0.393, 0.521, 0.559, 0.3, 0.237, 0.753, 0.789, 0.683, 0.723, 0.202⟩,
  ⟨5, -14.558, 2.116, 1.027, -1.721, -0.878, -2.021, 0.135, 8.538, 0, 0, 0, -0.748, 0.356, 0.268, 0.3382, 0.477, 0.67, -0.0281, 0.0034, 0.00805, 400, 0, 2.291, 0.596, 0.117, 1.616, -0.733, 1, -0.128, -0.756, 0, 0, 0, 0, 0.534, 0.421, 0.502, 0.551, 0.3, 0.237, 0.733, 0.77, 0.693, 0.732, 0.184⟩,
  ⟨7.5, -15.509, 2.223, 0.169, -0.756, -1.077, -2.179, 0.165, 8.468, 0, 0, 0, -0.664, 0.075, 0.374, 0.3754, 0.321, 0.757, -0.0205, 0.005, 0.0028, 400, 0, 2.517, 0.596, 0.117, 1.616, -0.733, 1, -0.128, -0.756, 0, 0, 0, 0, 0.523, 0.438, 0.457, 0.546, 0.3, 0.271, 0.695, 0.746, 0.7, 0.751, 0.176⟩,
  ⟨10, -15.975, 2.132, 0.367, -0.8, -1.282, -2.244, 0.18, 6.564, 0, 0, 0, -0.576, -0.027, 0.297, 0.3506, 0.174, 0.621, 0.0009, 0.0099, 0.00458, 400, 0, 2.744, 0.596, 0.117, 1.616, -0.733, 1, -0.128, -0.756, 0, 0, 0, 0, 0.466, 0.438, 0.441, 0.543, 0.3, 0.29, 0.642, 0.704, 0.698, 0.756, 0.154⟩,
  ⟨0, -4.416, 0.984, 0.537, -1.499, -0.496, -2.773, 0.248, 6.768, 0, -0.212, 0.72, 1.09, 2.186, 1.42, -0.0064, -0.202, 0.393, 0.0977, 0.0333, 0.00757, 865, -1.186, 1.839, 0.167, 0.241, 1.474, -0.715, 1, -0.337, -0.27, -0.0055, 0, -0.0035, 0.0036, 0.409, 0.322, 0.734, 0.492, 0.3, 0.166, 0.84, 0.856, 0.588, 0.611, 1⟩,
  ⟨-1, -2.895, 1.51, 0.27, -1.299, -0.453, -2.466, 0.204, 5.837, 0, -0.168, 0.305, 1.713, 2.602, 2.457, 0.106, 0.332, 0.585, 0.0517, 0.0327, 0.00613, 400, -1.955, 1.929, 0.596, 0.117, 1.616, -0.733, 1, -0.128, -0.756, -0.0017, 0, -0.0006, 0.0017, 0.317, 0.297, 0.655, 0.494, 0.3, 0.19, 0.728, 0.752, 0.576, 0.607, 0.684⟩
]

end CB14
