import Mathlib.Data.Rat.Defs
import Mathlib.Algebra.Order.Ring.Rat
import Mathlib.Tactic.NormNum

/-! Generated by tools/gen_data.py from src/pygmm/data/boore_stewart_seyhan_atkinson-2014.csv
(loaded in src/pygmm/boore_stewart_seyhan_atkinson_2014.py line 80).  Do not edit. -/

namespace BSSA14

/-- one row of boore_stewart_seyhan_atkinson-2014.csv: the columns of the file, in order -/
structure Row where
  period : ℚ
  e_0 : ℚ
  e_1 : ℚ
  e_2 : ℚ
  e_3 : ℚ
  e_4 : ℚ
  e_5 : ℚ
  e_6 : ℚ
  M_h : ℚ
  c_1 : ℚ
  c_2 : ℚ
  c_3 : ℚ
  M_ref : ℚ
  R_ref : ℚ
  h : ℚ
  dc_3global : ℚ
  dc_3ct : ℚ
  dc_3ij : ℚ
  c : ℚ
  V_c : ℚ
  V_ref : ℚ
  f_1 : ℚ
  f_3 : ℚ
  f_4 : ℚ
  f_5 : ℚ
  f_6 : ℚ
  f_7 : ℚ
  R_1 : ℚ
  R_2 : ℚ
  dphi_R : ℚ
  dphi_V : ℚ
  V_1 : ℚ
  V_2 : ℚ
  phi_1 : ℚ
  phi_2 : ℚ
  tau_1 : ℚ
  tau_2 : ℚ

/-- src/pygmm/data/boore_stewart_seyhan_atkinson-2014.csv, part 1 of 3 -/
def table0 : List Row := [
  ⟨-1, 5.037, 5.078, 4.849, 5.033, 1.073, -0.1536, 0.2252, 6.2, -1.243, 0.1489, -0.00344, 4.5, 1, 5.3, 0, 0.004345, -0.00033, -0.84, 1300, 760, 0, 0.1, -0.1, -0.00844, -9.9, -9.9, 105, 272, 0.082, 0.08, 225, 300, 0.644, 0.552, 0.401, 0.346⟩,
  ⟨0, 0.4473, 0.4856, 0.2459, 0.4539, 1.431, 0.05053, -0.1662, 5.5, -1.134, 0.1917, -0.008088, 4.5, 1, 4.5, 0, 0.0028576, -0.00255, -0.6, 1500, 760, 0, 0.1, -0.15, -0.00701, -9.9, -9.9, 110, 270, 0.1, 0.07, 225, 300, 0.695, 0.495, 0.398, 0.348⟩,
  ⟨0.01, 0.4534, 0.4916, 0.2519, 0.4599, 1.421, 0.04932, -0.1659, 5.5, -1.134, 0.1916, -0.008088, 4.5, 1, 4.5, 0, 0.0028159, -0.0024367, -0.60372, 1500.2, 760, 0, 0.1, -0.14833, -0.00701, -9.9, -9.9, 111.67, 270, 0.096, 0.07, 225, 300, 0.698, 0.499, 0.402, 0.345⟩,
  ⟨0.02, 0.48598, 0.52359, 0.29707, 0.48875, 1.4331, 0.053388, -0.16561, 5.5, -1.1394, 0.18962, -0.008074, 4.5, 1, 4.5, 0, 0.0027795, -0.00234, -0.57388, 1500.36, 760, 0, 0.1, -0.1471, -0.00728, -9.9, -9.9, 113.1, 270, 0.092, 0.03, 225, 300, 0.702, 0.502, 0.409, 0.346⟩,
  ⟨0.022, 0.49866, 0.53647, 0.31347, 0.49973, 1.4336, 0.054888, -0.1652, 5.5, -1.1405, 0.18924, -0.008095, 4.5, 1, 4.5, 0, 0.0027597, -0.0022886, -0.56675, 1500.68, 760, 0, 0.1, -0.14801, -0.00732, -9.9, -9.9, 113.37, 270, 0.088, 0.027, 225, 300, 0.707, 0.505, 0.418, 0.349⟩,
  ⟨0.025, 0.52283, 0.5613, 0.34426, 0.51999, 1.4328, 0.057529, -0.16499, 5.5, -1.1419, 0.18875, -0.008153, 4.5, 1, 4.5, 0, 0.0027542, -0.00225, -0.5552, 1501.04, 760, 0, 0.1, -0.15015, -0.00736, -9.9, -9.9, 113.07, 270, 0.086, 0.026, 225, 300, 0.711, 0.508, 0.427, 0.354⟩,
  ⟨0.029, 0.55949, 0.59923, 0.39146, 0.54995, 1.4279, 0.060732, -0.16632, 5.5, -1.1423, 0.18844, -0.00829, 4.5, 1, 4.5, 0, 0.0027616, -0.0022145, -0.5385, 1501.26, 760, 0, 0.1, -0.15387, -0.00737, -9.9, -9.9, 112.36, 270, 0.084, 0.028, 225, 300, 0.716, 0.51, 0.436, 0.359⟩,
  ⟨0.03, 0.56916, 0.6092, 0.40391, 0.55783, 1.4261, 0.061444, -0.1669, 5.5, -1.1421, 0.18842, -0.008336, 4.5, 1, 4.49, 0, 0.0027646, -0.0021676, -0.53414, 1502.95, 760, 0, 0.1, -0.15485, -0.00735, -9.9, -9.9, 112.13, 270, 0.081, 0.029, 225, 300, 0.721, 0.514, 0.445, 0.364⟩,
  ⟨0.032, 0.58802, 0.62875, 0.42788, 0.5733, 1.4227, 0.062806, -0.16813, 5.5, -1.1412, 0.1884, -0.008445, 4.5, 1, 4.45, 0, 0.0027691, -0.0021167, -0.52529, 1503.12, 760, 0, 0.1, -0.15685, -0.00731, -9.9, -9.9, 111.65, 270, 0.078, 0.03, 225, 300, 0.726, 0.516, 0.454, 0.369⟩,
  ⟨0.035, 0.61636, 0.65818, 0.46252, 0.59704, 1.4174, 0.064559, -0.17015, 5.5, -1.1388, 0.18839, -0.008642, 4.5, 1, 4.4, 0, 0.0027837, -0.0020957, -0.51192, 1503.24, 760, 0, 0.1, -0.16016, -0.00721, -9.9, -9.9, 110.64, 270, 0.077, 0.031, 225, 300, 0.73, 0.518, 0.462, 0.374⟩,
  ⟨0.036, 0.62554, 0.66772, 0.47338, 0.60496, 1.4158, 0.065028, -0.17083, 5.5, -1.1378, 0.18837, -0.008715, 4.5, 1, 4.38, 0, 0.002801, -0.0020748, -0.50752, 1503.32, 760, 0, 0.1, -0.16142, -0.00717, -9.9, -9.9, 109.53, 270, 0.075, 0.031, 225, 300, 0.734, 0.52, 0.47, 0.379⟩,
  ⟨0.04, 0.66281, 0.70604, 0.51532, 0.63828, 1.409, 0.066183, -0.17357, 5.5, -1.1324, 0.18816, -0.00903, 4.5, 1, 4.32, 0, 0.0028219, -0.0020539, -0.49065, 1503.35, 760, 0, 0.1, -0.16777, -0.00698, -9.9, -9.9, 108.28, 270, 0.073, 0.032, 225, 300, 0.738, 0.521, 0.478, 0.384⟩,
  ⟨0.042, 0.68087, 0.72443, 0.53445, 0.65505, 1.4059, 0.066438, -0.17485, 5.5, -1.1292, 0.18797, -0.009195, 4.5, 1, 4.29, 0, 0.0028465, -0.0020348, -0.4829, 1503.34, 760, 0, 0.1, -0.17193, -0.00687, -9.9, -9.9, 106.99, 270, 0.072, 0.032, 225, 300, 0.742, 0.523, 0.484, 0.39⟩,
  ⟨0.044, 0.69882, 0.74277, 0.55282, 0.67225, 1.4033, 0.066663, -0.17619, 5.5, -1.1259, 0.18775, -0.00936, 4.5, 1, 4.27, 0, 0.0028738, -0.0020157, -0.47572, 1503.13, 760, 0, 0.1, -0.17664, -0.00677, -9.9, -9.9, 105.41, 270, 0.07, 0.031, 225, 300, 0.745, 0.525, 0.49, 0.397⟩,
  ⟨0.045, 0.70822, 0.75232, 0.56222, 0.68139, 1.4021, 0.066774, -0.17693, 5.5, -1.1242, 0.18764, -0.009441, 4.5, 1, 4.25, 0, 0.0029002, -0.0020011, -0.47236, 1502.84, 760, 0, 0.1, -0.17914, -0.00672, -9.9, -9.9, 103.61, 270, 0.069, 0.031, 225, 300, 0.748, 0.527, 0.496, 0.405⟩,
  ⟨0.046, 0.71779, 0.76202, 0.57166, 0.69076, 1.4009, 0.066891, -0.17769, 5.5, -1.1224, 0.18752, -0.009521, 4.5, 1, 4.24, 0, 0.0029229, -0.0019929, -0.46915, 1502.47, 760, 0, 0.1, -0.1817, -0.00667, -9.9, -9.9, 101.7, 270, 0.067, 0.031, 225, 300, 0.75, 0.529, 0.499, 0.412⟩,
  ⟨0.048, 0.73574, 0.78015, 0.58888, 0.70854, 1.3991, 0.067127, -0.1792, 5.5, -1.1192, 0.1873, -0.009676, 4.5, 1, 4.22, 0, 0.0029439, -0.0019884, -0.46321, 1502.01, 760, 0, 0.1, -0.18688, -0.00656, -9.9, -9.9, 99.76, 270, 0.065, 0.031, 225, 300, 0.752, 0.53, 0.502, 0.419⟩,
  ⟨0.05, 0.75436, 0.79905, 0.60652, 0.72726, 1.3974, 0.067357, -0.18082, 5.5, -1.1159, 0.18709, -0.009819, 4.5, 1, 4.2, 0, 0.0029566, -0.0019911, -0.45795, 1501.42, 760, 0, 0.1, -0.192, -0.00647, -9.9, -9.9, 97.93, 270, 0.063, 0.03, 225, 300, 0.753, 0.532, 0.503, 0.426⟩,
  ⟨0.055, 0.7996, 0.8445, 0.6477, 0.7737, 1.3947, 0.067797, -0.1848, 5.5, -1.1082, 0.18655, -0.01012, 4.5, 1, 4.15, 0, 0.0029639, -0.0020011, -0.44787, 1500.71, 760, 0, 0.1, -0.20369, -0.00625, -9.9, -9.9, 96.03, 270, 0.062, 0.029, 225, 300, 0.753, 0.534, 0.502, 0.434⟩,
  ⟨0.06, 0.84394, 0.88884, 0.68562, 0.82067, 1.3954, 0.068591, -0.18858, 5.5, -1.1009, 0.18582, -0.01033, 4.5, 1, 4.11, 0, 0.0029675, -0.0020193, -0.44186, 1499.83, 760, 0, 0.1, -0.21374, -0.00607, -9.9, -9.9, 94.1, 270.01, 0.061, 0.027, 225, 300, 0.753, 0.536, 0.499, 0.441⟩,
  ⟨0.065, 0.88655, 0.93116, 0.71941, 0.86724, 1.4004, 0.070127, -0.19176, 5.5, -1.0942, 0.18485, -0.01048, 4.5, 1, 4.08, 0, 0.0029684, -0.0020448, -0.43951, 1498.74, 760, 0, 0.1, -0.22225, -0.00593, -9.9, -9.9, 92.08, 270.02, 0.061, 0.025, 225, 300, 0.752, 0.538, 0.495, 0.448⟩,
  ⟨0.067, 0.9027, 0.94711, 0.73171, 0.88526, 1.4032, 0.070895, -0.19291, 5.5, -1.0918, 0.18442, -0.01052, 4.5, 1, 4.07, 0, 0.0029675, -0.0020766, -0.4395, 1497.42, 760, 0, 0.1, -0.22524, -0.00588, -9.9, -9.9, 90.01, 270.02, 0.061, 0.025, 225, 300, 0.75, 0.54, 0.489, 0.455⟩,
  ⟨0.07, 0.92652, 0.97057, 0.7494, 0.91227, 1.4082, 0.072075, -0.19451, 5.5, -1.0884, 0.18369, -0.01056, 4.5, 1, 4.06, 0, 0.0029639, -0.0021148, -0.4404, 1495.85, 760, 0, 0.1, -0.22931, -0.00582, -9.9, -9.9, 87.97, 270.03, 0.062, 0.024, 225, 300, 0.748, 0.541, 0.483, 0.461⟩,
  ⟨0.075, 0.96447, 1.0077, 0.77678, 0.9563, 1.4174, 0.073549, -0.19665, 5.5, -1.0831, 0.18225, -0.01058, 4.5, 1, 4.04, 0, 0.0029566, -0.0021594, -0.44411, 1494, 760, 0, 0.1, -0.235, -0.00573, -9.9, -9.9, 85.99, 270.04, 0.064, 0.022, 225, 300, 0.745, 0.542, 0.474, 0.466⟩,
  ⟨0.08, 1.0003, 1.0426, 0.80161, 0.99818, 1.4261, 0.073735, -0.19816, 5.5, -1.0785, 0.18052, -0.01056, 4.5, 1, 4.02, 0, 0.0029448, -0.0022122, -0.4502, 1491.82, 760, 0, 0.1, -0.23944, -0.00567, -9.9, -9.9, 84.23, 270.05, 0.067, 0.02, 225, 300, 0.741, 0.543, 0.464, 0.468⟩,
  ⟨0.085, 1.034, 1.0755, 0.82423, 1.0379, 1.4322, 0.07194, -0.19902, 5.51, -1.0745, 0.17856, -0.01051, 4.5, 1, 4.03, 0, 0.0029302, -0.0022695, -0.45813, 1489.29, 760, 0, 0.1, -0.24285, -0.00563, -9.9, -9.9, 82.74, 270.06, 0.072, 0.019, 225, 300, 0.737, 0.543, 0.452, 0.468⟩,
  ⟨0.09, 1.0666, 1.1076, 0.84591, 1.0762, 1.435, 0.068097, -0.19929, 5.52, -1.0709, 0.17643, -0.01042, 4.5, 1, 4.07, 0, 0.0029138, -0.0023269, -0.46732, 1486.36, 760, 0, 0.1, -0.24544, -0.00561, -9.9, -9.9, 81.54, 270.07, 0.076, 0.017, 225, 300, 0.734, 0.542, 0.44, 0.466⟩,
  ⟨0.095, 1.0981, 1.1385, 0.86703, 1.1127, 1.4339, 0.062327, -0.199, 5.53, -1.0678, 0.1742, -0.01032, 4.5, 1, 4.1, 0, 0.0028965, -0.0023833, -0.47721, 1482.98, 760, 0, 0.1, -0.24747, -0.0056, -9.9, -9.9, 80.46, 270.08, 0.082, 0.016, 225, 300, 0.731, 0.542, 0.428, 0.464⟩,
  ⟨0.1, 1.1268, 1.1669, 0.8871, 1.1454, 1.4293, 0.055231, -0.19838, 5.54, -1.0652, 0.17203, -0.0102, 4.5, 1, 4.13, 0, 0.0028792, -0.0024388, -0.48724, 1479.12, 760, 0, 0.1, -0.24916, -0.0056, -9.9, -9.9, 79.59, 270.09, 0.087, 0.014, 225, 300, 0.728, 0.541, 0.415, 0.458⟩,
  ⟨0.11, 1.1785, 1.2179, 0.92702, 1.203, 1.411, 0.037389, -0.19601, 5.57, -1.0607, 0.1677, -0.009964, 4.5, 1, 4.19, 0, 0.0028629, -0.0024916, -0.50632, 1474.74, 760, 0, 0.1, -0.25213, -0.00562, -9.9, -9.9, 79.05, 270.11, 0.093, 0.012, 225, 300, 0.726, 0.54, 0.403, 0.451⟩,
  ⟨0.12, 1.223, 1.2621, 0.96616, 1.2502, 1.3831, 0.016373, -0.19265, 5.62, -1.0572, 0.16352, -0.009722, 4.5, 1, 4.24, 0, 0.0028465, -0.0025398, -0.52438, 1469.75, 760, 0, 0.1, -0.25455, -0.00567, -9.9, -9.9, 78.85, 270.13, 0.099, 0.011, 225, 300, 0.724, 0.539, 0.392, 0.441⟩,
  ⟨0.13, 1.2596, 1.2986, 1.0031, 1.2869, 1.3497, -0.005158, -0.18898, 5.66, -1.0549, 0.15982, -0.009476, 4.5, 1, 4.29, 0, 0.002831, -0.0025844, -0.54214, 1464.09, 760, 0, 0.1, -0.25628, -0.00572, -9.9, -9.9, 78.99, 270.15, 0.104, 0.011, 225, 300, 0.723, 0.538, 0.381, 0.43⟩,
  ⟨0.133, 1.2692, 1.3082, 1.0135, 1.2961, 1.3395, -0.011354, -0.18792, 5.67, -1.0545, 0.15882, -0.009402, 4.5, 1, 4.3, 0, 0.0028165, -0.0026263, -0.54752, 1457.76, 760, 0, 0.1, -0.25665, -0.00574, -9.9, -9.9, 79.47, 270.15, 0.11, 0.011, 225, 300, 0.722, 0.538, 0.371, 0.417⟩,
  ⟨0.14, 1.2883, 1.327, 1.036, 1.3137, 1.3162, -0.024711, -0.18566, 5.7, -1.0537, 0.15672, -0.009228, 4.5, 1, 4.34, 0, 0.0028019, -0.0026663, -0.56032, 1450.71, 760, 0, 0.1, -0.25719, -0.00578, -9.9, -9.9, 80.26, 270.16, 0.115, 0.012, 225, 300, 0.721, 0.537, 0.362, 0.403⟩,
  ⟨0.15, 1.3095, 1.3481, 1.0648, 1.3324, 1.2844, -0.042065, -0.18234, 5.74, -1.0532, 0.15401, -0.008977, 4.5, 1, 4.39, 0, 0.0027864, -0.0027063, -0.57962, 1442.85, 760, 0, 0.1, -0.25713, -0.00585, -9.9, -9.9, 81.33, 270.16, 0.12, 0.015, 225, 300, 0.72, 0.537, 0.354, 0.388⟩,
  ⟨0.16, 1.3235, 1.3615, 1.0876, 1.3437, 1.2541, -0.057593, -0.17853, 5.78, -1.0533, 0.15158, -0.008725, 4.5, 1, 4.44, 0, 0.0027646, -0.0027509, -0.60052, 1434.22, 760, 0, 0.1, -0.25604, -0.00591, -9.9, -9.9, 82.86, 270.16, 0.125, 0.02, 225, 300, 0.72, 0.536, 0.349, 0.372⟩,
  ⟨0.17, 1.3306, 1.3679, 1.104, 1.3487, 1.2244, -0.071861, -0.17421, 5.82, -1.0541, 0.14948, -0.008472, 4.5, 1, 4.49, 0, 0.0027336, -0.0028019, -0.62252, 1424.85, 760, 0, 0.1, -0.25414, -0.00597, -9.9, -9.9, 84.72, 270.14, 0.128, 0.026, 225, 300, 0.718, 0.536, 0.346, 0.357⟩,
  ⟨0.18, 1.3327, 1.3689, 1.1149, 1.3492, 1.1941, -0.08564, -0.16939, 5.85, -1.0556, 0.14768, -0.008219, 4.5, 1, 4.53, 0, 0.0026991, -0.0028547, -0.64486, 1414.77, 760, 0, 0.1, -0.25173, -0.00602, -9.9, -9.9, 86.67, 270.11, 0.131, 0.033, 225, 300, 0.717, 0.536, 0.344, 0.341⟩,
  ⟨0.19, 1.3307, 1.3656, 1.1208, 1.3463, 1.1635, -0.098884, -0.16404, 5.89, -1.0579, 0.14616, -0.007967, 4.5, 1, 4.57, 0, 0.0026599, -0.0029111, -0.66681, 1403.99, 760, 0, 0.1, -0.24911, -0.00608, -9.9, -9.9, 88.73, 270.06, 0.134, 0.039, 225, 300, 0.714, 0.537, 0.343, 0.324⟩,
  ⟨0.2, 1.3255, 1.359, 1.122, 1.3414, 1.1349, -0.11096, -0.15852, 5.92, -1.0607, 0.14489, -0.007717, 4.5, 1, 4.61, 0, 0.0026117, -0.0029702, -0.68762, 1392.61, 760, 0, 0.1, -0.24658, -0.00614, -9.9, -9.9, 90.91, 270, 0.136, 0.045, 225, 300, 0.711, 0.539, 0.344, 0.309⟩
]

/-- src/pygmm/data/boore_stewart_seyhan_atkinson-2014.csv, part 2 of 3 -/
def table1 : List Row := [
  ⟨0.22, 1.3091, 1.3394, 1.1133, 1.3281, 1.0823, -0.133, -0.14704, 5.97, -1.067, 0.14263, -0.007224, 4.5, 1, 4.68, 0, 0.0025598, -0.0030285, -0.72431, 1380.72, 760, 0, 0.1, -0.24235, -0.00626, -9.9, -9.9, 93.04, 269.83, 0.138, 0.052, 225, 300, 0.708, 0.541, 0.345, 0.294⟩,
  ⟨0.24, 1.2881, 1.315, 1.0945, 1.3132, 1.0366, -0.15299, -0.13445, 6.03, -1.0737, 0.14035, -0.006747, 4.5, 1, 4.75, 0, 0.0025052, -0.0030849, -0.75646, 1368.51, 760, 0, 0.1, -0.23823, -0.00638, -9.9, -9.9, 95.08, 269.59, 0.14, 0.055, 225, 300, 0.703, 0.544, 0.347, 0.28⟩,
  ⟨0.25, 1.2766, 1.3017, 1.0828, 1.3052, 1.0166, -0.16213, -0.12784, 6.05, -1.0773, 0.13925, -0.006517, 4.5, 1, 4.78, 0, 0.0024443, -0.0031395, -0.77177, 1356.21, 760, 0, 0.1, -0.23574, -0.00644, -9.9, -9.9, 97.04, 269.45, 0.141, 0.055, 225, 300, 0.698, 0.547, 0.35, 0.266⟩,
  ⟨0.26, 1.2651, 1.2886, 1.071, 1.2972, 0.99932, -0.17041, -0.12115, 6.07, -1.0808, 0.13818, -0.006293, 4.5, 1, 4.82, 0, 0.0023797, -0.0031896, -0.78697, 1343.89, 760, 0, 0.1, -0.2328, -0.0065, -9.9, -9.9, 98.87, 269.3, 0.141, 0.055, 225, 300, 0.693, 0.55, 0.353, 0.255⟩,
  ⟨0.28, 1.2429, 1.2635, 1.0476, 1.2815, 0.97282, -0.18463, -0.10714, 6.11, -1.0879, 0.13604, -0.005866, 4.5, 1, 4.88, 0, 0.0023141, -0.0032351, -0.81613, 1331.67, 760, 0, 0.1, -0.22601, -0.0066, -9.9, -9.9, 100.53, 268.96, 0.14, 0.053, 225, 300, 0.687, 0.554, 0.357, 0.244⟩,
  ⟨0.29, 1.2324, 1.2517, 1.0363, 1.2736, 0.96348, -0.19057, -0.10011, 6.12, -1.0913, 0.13499, -0.005666, 4.5, 1, 4.9, 0, 0.0022504, -0.0032742, -0.8295, 1319.83, 760, 0, 0.1, -0.2225, -0.00665, -9.9, -9.9, 102.01, 268.78, 0.139, 0.051, 225, 300, 0.681, 0.557, 0.36, 0.236⟩,
  ⟨0.3, 1.2217, 1.2401, 1.0246, 1.2653, 0.95676, -0.1959, -0.092855, 6.14, -1.0948, 0.13388, -0.005475, 4.5, 1, 4.93, 0, 0.0021958, -0.0032969, -0.84165, 1308.47, 760, 0, 0.1, -0.21912, -0.0067, -9.9, -9.9, 103.15, 268.59, 0.138, 0.05, 225, 300, 0.675, 0.561, 0.363, 0.229⟩,
  ⟨0.32, 1.2007, 1.2177, 1.0011, 1.2479, 0.95004, -0.20454, -0.078923, 6.16, -1.1013, 0.13179, -0.005122, 4.5, 1, 4.98, 0, 0.0021549, -0.0033033, -0.86175, 1297.65, 760, 0, 0.1, -0.21318, -0.0068, -9.9, -9.9, 104, 268.2, 0.135, 0.048, 225, 300, 0.67, 0.566, 0.366, 0.223⟩,
  ⟨0.34, 1.179, 1.1955, 0.97677, 1.2286, 0.94956, -0.21134, -0.065134, 6.18, -1.1074, 0.12984, -0.004808, 4.5, 1, 5.03, 0, 0.0021239, -0.0032997, -0.87726, 1287.5, 760, 0, 0.1, -0.20816, -0.00689, -9.9, -9.9, 104.7, 267.79, 0.133, 0.047, 225, 300, 0.664, 0.57, 0.369, 0.218⟩,
  ⟨0.35, 1.1674, 1.1836, 0.9638, 1.2177, 0.95077, -0.21446, -0.057921, 6.18, -1.1105, 0.1289, -0.004663, 4.5, 1, 5.06, 0, 0.0021039, -0.0032869, -0.88375, 1278.06, 760, 0, 0.1, -0.20592, -0.00693, -9.9, -9.9, 105.26, 267.58, 0.13, 0.047, 225, 300, 0.658, 0.573, 0.372, 0.215⟩,
  ⟨0.36, 1.1558, 1.172, 0.9512, 1.2066, 0.95278, -0.21716, -0.05104, 6.19, -1.1133, 0.12806, -0.004527, 4.5, 1, 5.08, 0, 0.0020966, -0.0032669, -0.88965, 1269.19, 760, 0, 0.1, -0.20379, -0.00697, -9.9, -9.9, 105.61, 267.37, 0.128, 0.047, 225, 300, 0.653, 0.576, 0.375, 0.212⟩,
  ⟨0.38, 1.1305, 1.1468, 0.9244, 1.1816, 0.95899, -0.22214, -0.036755, 6.19, -1.119, 0.12647, -0.004276, 4.5, 1, 5.12, 0, 0.0020976, -0.0032423, -0.90038, 1260.74, 760, 0, 0.1, -0.19978, -0.00705, -9.9, -9.9, 105.87, 266.95, 0.125, 0.048, 225, 300, 0.648, 0.578, 0.378, 0.21⟩,
  ⟨0.4, 1.1046, 1.1214, 0.89765, 1.1552, 0.96766, -0.22608, -0.023189, 6.2, -1.1243, 0.12512, -0.004053, 4.5, 1, 5.16, 0, 0.0021067, -0.0032123, -0.91092, 1252.66, 760, 0, 0.1, -0.19582, -0.00713, -9.9, -9.9, 106.02, 266.54, 0.122, 0.049, 225, 300, 0.643, 0.58, 0.381, 0.21⟩,
  ⟨0.42, 1.0782, 1.0955, 0.87067, 1.1276, 0.97862, -0.22924, -0.010417, 6.2, -1.1291, 0.12389, -0.003853, 4.5, 1, 5.2, 0, 0.0021267, -0.0031768, -0.92241, 1244.8, 760, 0, 0.1, -0.19171, -0.00719, -9.9, -9.9, 106.03, 266.16, 0.12, 0.051, 225, 300, 0.638, 0.583, 0.384, 0.21⟩,
  ⟨0.44, 1.0515, 1.0697, 0.84355, 1.0995, 0.99144, -0.23166, 0.0011678, 6.2, -1.1337, 0.12278, -0.003673, 4.5, 1, 5.24, 0, 0.0021603, -0.0031322, -0.93459, 1237.03, 760, 0, 0.1, -0.18747, -0.00726, -9.9, -9.9, 105.92, 265.8, 0.117, 0.053, 225, 300, 0.634, 0.585, 0.388, 0.211⟩,
  ⟨0.45, 1.0376, 1.0562, 0.82941, 1.0847, 0.99876, -0.23263, 0.0065887, 6.2, -1.1359, 0.12227, -0.00359, 4.5, 1, 5.25, 0, 0.0022022, -0.0030794, -0.94075, 1229.23, 760, 0, 0.1, -0.18534, -0.00729, -9.9, -9.9, 105.79, 265.64, 0.115, 0.054, 225, 300, 0.629, 0.589, 0.393, 0.213⟩,
  ⟨0.46, 1.0234, 1.0426, 0.81509, 1.0696, 1.0064, -0.2335, 0.011871, 6.2, -1.1381, 0.12177, -0.00351, 4.5, 1, 5.27, 0, 0.0022495, -0.0030212, -0.94686, 1221.16, 760, 0, 0.1, -0.18321, -0.00732, -9.9, -9.9, 105.69, 265.48, 0.113, 0.055, 225, 300, 0.624, 0.592, 0.398, 0.216⟩,
  ⟨0.48, 0.99719, 1.0172, 0.7886, 1.0415, 1.0215, -0.23464, 0.020767, 6.2, -1.142, 0.12093, -0.00336, 4.5, 1, 5.3, 0, 0.0022978, -0.0029639, -0.95863, 1212.74, 760, 0, 0.1, -0.17902, -0.00738, -9.9, -9.9, 105.59, 265.21, 0.111, 0.057, 225, 300, 0.619, 0.595, 0.404, 0.219⟩,
  ⟨0.5, 0.96991, 0.99106, 0.7615, 1.012, 1.0384, -0.23522, 0.029119, 6.2, -1.1459, 0.12015, -0.00322, 4.5, 1, 5.34, 0, 0.0023478, -0.0029065, -0.9693, 1203.91, 760, 0, 0.1, -0.175, -0.00744, -9.9, -9.9, 105.54, 265, 0.109, 0.06, 225, 300, 0.615, 0.599, 0.41, 0.224⟩,
  ⟨0.55, 0.9048, 0.9283, 0.6984, 0.9417, 1.0833, -0.23449, 0.046932, 6.2, -1.1543, 0.11847, -0.002897, 4.5, 1, 5.41, 0, 0.0023988, -0.0028483, -0.98925, 1194.59, 760, 0, 0.1, -0.16601, -0.00758, -9.9, -9.9, 105.61, 264.74, 0.108, 0.066, 225, 300, 0.61, 0.603, 0.417, 0.229⟩,
  ⟨0.6, 0.84165, 0.86715, 0.63875, 0.87351, 1.1336, -0.23128, 0.062667, 6.2, -1.1615, 0.11671, -0.00261, 4.5, 1, 5.48, 0, 0.0024515, -0.0027892, -1.0012, 1184.93, 760, 0, 0.1, -0.1583, -0.00773, -9.9, -9.9, 105.83, 264.83, 0.106, 0.071, 225, 300, 0.605, 0.607, 0.424, 0.235⟩,
  ⟨0.65, 0.78181, 0.80876, 0.58231, 0.80948, 1.1861, -0.22666, 0.077997, 6.2, -1.1676, 0.11465, -0.002356, 4.5, 1, 5.53, 0, 0.002508, -0.0027273, -1.0078, 1175.19, 760, 0, 0.1, -0.15144, -0.00787, 0.0058286, 0.003762, 106.2, 265.2, 0.105, 0.073, 225, 300, 0.599, 0.611, 0.431, 0.243⟩,
  ⟨0.667, 0.76262, 0.78994, 0.56422, 0.78916, 1.2035, -0.22497, 0.083058, 6.2, -1.1694, 0.11394, -0.002276, 4.5, 1, 5.54, 0, 0.002568, -0.0026618, -1.0093, 1165.69, 760, 0, 0.1, -0.14923, -0.00792, 0.026446, 0.0171, 106.75, 265.38, 0.103, 0.074, 225, 300, 0.593, 0.615, 0.44, 0.25⟩,
  ⟨0.7, 0.72513, 0.75302, 0.52878, 0.74985, 1.2375, -0.22143, 0.093185, 6.2, -1.1728, 0.11253, -0.002131, 4.5, 1, 5.56, 0, 0.002629, -0.0025953, -1.0117, 1156.46, 760, 0, 0.1, -0.14503, -0.008, 0.055495, 0.035728, 107.48, 265.78, 0.102, 0.073, 225, 300, 0.587, 0.619, 0.448, 0.258⟩,
  ⟨0.75, 0.66903, 0.69737, 0.47523, 0.69173, 1.2871, -0.21591, 0.10829, 6.2, -1.1777, 0.11054, -0.001931, 4.5, 1, 5.6, 0, 0.00269, -0.0025271, -1.0154, 1147.59, 760, 0, 0.1, -0.13866, -0.00812, 0.092259, 0.059024, 108.39, 266.51, 0.1, 0.07, 225, 300, 0.581, 0.622, 0.457, 0.266⟩,
  ⟨0.8, 0.61346, 0.64196, 0.42173, 0.63519, 1.3341, -0.21047, 0.12256, 6.2, -1.1819, 0.10873, -0.001754, 4.5, 1, 5.63, 0, 0.0027464, -0.0024561, -1.021, 1139.21, 760, 0, 0.1, -0.13201, -0.00822, 0.1404, 0.088481, 109.62, 267.32, 0.099, 0.063, 225, 300, 0.576, 0.624, 0.466, 0.274⟩,
  ⟨0.85, 0.55853, 0.58698, 0.36813, 0.57969, 1.378, -0.20528, 0.13608, 6.2, -1.1854, 0.10709, -0.001597, 4.5, 1, 5.66, 0, 0.0027973, -0.0023787, -1.0282, 1131.34, 760, 0, 0.1, -0.12517, -0.0083, 0.19495, 0.12029, 111.08, 268.14, 0.099, 0.053, 225, 300, 0.57, 0.625, 0.475, 0.281⟩,
  ⟨0.9, 0.50296, 0.53136, 0.31376, 0.52361, 1.4208, -0.20011, 0.14983, 6.2, -1.1884, 0.10548, -0.001456, 4.5, 1, 5.69, 0, 0.0028428, -0.0022932, -1.036, 1123.91, 760, 0, 0.1, -0.11831, -0.00836, 0.25203, 0.15159, 112.71, 268.9, 0.098, 0.042, 225, 300, 0.564, 0.626, 0.483, 0.288⟩,
  ⟨0.95, 0.44701, 0.47541, 0.25919, 0.46706, 1.4623, -0.1949, 0.16432, 6.2, -1.1909, 0.10389, -0.001328, 4.5, 1, 5.72, 0, 0.0028847, -0.0021958, -1.0436, 1116.83, 760, 0, 0.1, -0.1116, -0.00841, 0.3094, 0.18077, 114.5, 269.55, 0.098, 0.03, 225, 300, 0.558, 0.626, 0.491, 0.294⟩,
  ⟨1, 0.3932, 0.4218, 0.207, 0.4124, 1.5004, -0.18983, 0.17895, 6.2, -1.193, 0.10248, -0.00121, 4.5, 1, 5.74, 0, 0.0029211, -0.0020894, -1.05, 1109.95, 760, 0, 0.1, -0.10521, -0.00844, 0.36695, 0.20789, 116.39, 270, 0.098, 0.02, 225, 300, 0.553, 0.625, 0.498, 0.298⟩,
  ⟨1.1, 0.28484, 0.31374, 0.10182, 0.30209, 1.569, -0.18001, 0.21042, 6.2, -1.1966, 0.10016, -0.000994, 4.5, 1, 5.82, 0, 0.0029539, -0.0019774, -1.0573, 1103.07, 760, 0, 0.1, -0.093837, -0.00847, 0.42452, 0.2331, 118.3, 270.18, 0.099, 0.007, 225, 300, 0.548, 0.624, 0.505, 0.302⟩,
  ⟨1.2, 0.1734, 0.20259, -0.006195, 0.18866, 1.6282, -0.1709, 0.2441, 6.2, -1.1996, 0.098482, -0.000803, 4.5, 1, 5.92, 0, 0.0029821, -0.0018619, -1.0584, 1096.04, 760, 0, 0.1, -0.084144, -0.00842, 0.48116, 0.25606, 120.19, 269.42, 0.1, 0.002, 225, 300, 0.543, 0.623, 0.511, 0.306⟩,
  ⟨1.3, 0.06152, 0.09106, -0.11345, 0.07433, 1.6794, -0.16233, 0.27799, 6.2, -1.2018, 0.097375, -0.000635, 4.5, 1, 6.01, 0, 0.0030066, -0.0017454, -1.0554, 1088.67, 760, 0, 0.1, -0.075819, -0.00829, 0.53597, 0.27648, 122.01, 267.82, 0.101, 0.003, 225, 300, 0.539, 0.622, 0.516, 0.309⟩,
  ⟨1.4, -0.04575, -0.0157, -0.2155, -0.03607, 1.7239, -0.15413, 0.30956, 6.2, -1.2039, 0.096743, -0.00049, 4.5, 1, 6.1, 0, 0.0030258, -0.0016298, -1.0504, 1080.77, 760, 0, 0.1, -0.068543, -0.00806, 0.58832, 0.29424, 123.75, 265.45, 0.102, 0.006, 225, 300, 0.535, 0.62, 0.521, 0.312⟩,
  ⟨1.5, -0.14954, -0.11866, -0.3138, -0.1437, 1.7622, -0.1467, 0.33896, 6.2, -1.2063, 0.096445, -0.000365, 4.5, 1, 6.18, 0, 0.0030394, -0.0015179, -1.0454, 1072.39, 760, 0, 0.1, -0.062, -0.00771, 0.63789, 0.30944, 125.38, 262.41, 0.104, 0.01, 225, 300, 0.532, 0.619, 0.525, 0.315⟩,
  ⟨1.6, -0.2486, -0.21672, -0.40682, -0.24708, 1.7955, -0.13997, 0.36616, 6.2, -1.2086, 0.096338, -0.000259, 4.5, 1, 6.26, 0, 0.0030412, -0.0014114, -1.0421, 1061.77, 760, 0, 0.1, -0.055927, -0.00723, 0.68889, 0.32449, 126.9, 258.78, 0.105, 0.012, 225, 300, 0.529, 0.618, 0.528, 0.318⟩,
  ⟨1.7, -0.34145, -0.3084, -0.49295, -0.34465, 1.8259, -0.13361, 0.39065, 6.2, -1.2106, 0.096254, -0.000171, 4.5, 1, 6.33, 0, 0.0030258, -0.0013231, -1.0404, 1049.29, 760, 0, 0.1, -0.050286, -0.00666, 0.73578, 0.3372, 128.14, 254.66, 0.106, 0.012, 225, 300, 0.527, 0.618, 0.53, 0.321⟩,
  ⟨1.8, -0.42975, -0.39558, -0.57388, -0.43818, 1.8564, -0.12686, 0.41244, 6.2, -1.2123, 0.096207, -0.000099, 4.5, 1, 6.4, 0, 0.0030003, -0.0012531, -1.0397, 1036.42, 760, 0, 0.1, -0.045096, -0.00603, 0.77992, 0.34963, 129.11, 250.11, 0.106, 0.012, 225, 300, 0.526, 0.618, 0.531, 0.323⟩,
  ⟨1.9, -0.51276, -0.47731, -0.64899, -0.52682, 1.8868, -0.11959, 0.43151, 6.2, -1.2141, 0.096255, -0.000042, 4.5, 1, 6.48, 0, 0.0029675, -0.0012012, -1.0395, 1023.14, 760, 0, 0.1, -0.040373, -0.0054, 0.82427, 0.36413, 129.86, 245.25, 0.106, 0.01, 225, 300, 0.526, 0.618, 0.532, 0.326⟩,
  ⟨2, -0.58669, -0.55003, -0.71466, -0.60658, 1.9152, -0.11237, 0.44788, 6.2, -1.2159, 0.096361, 0, 4.5, 1, 6.54, 0, 0.0029229, -0.0011703, -1.0392, 1009.49, 760, 0, 0.1, -0.036136, -0.00479, 0.87138, 0.38245, 130.37, 240.14, 0.105, 0.008, 225, 300, 0.526, 0.618, 0.532, 0.329⟩
]

/-- src/pygmm/data/boore_stewart_seyhan_atkinson-2014.csv, part 3 of 3 -/
def table2 : List Row := [
  ⟨2.2, -0.72143, -0.6822, -0.83003, -0.75402, 1.9681, -0.098017, 0.48024, 6.2, -1.219, 0.096497, 0, 4.5, 1, 6.66, 0, 0.0028701, -0.0011566, -1.0368, 995.52, 760, 0, 0.1, -0.029105, -0.00378, 0.92033, 0.40402, 130.67, 229.55, 0.103, 0.005, 225, 300, 0.527, 0.619, 0.533, 0.332⟩,
  ⟨2.4, -0.8481, -0.8069, -0.9326, -0.8941, 2.017, -0.083765, 0.51873, 6.2, -1.2202, 0.096198, 0, 4.5, 1, 6.73, 0, 0.0028146, -0.0011548, -1.0323, 981.33, 760, 0, 0.1, -0.02371, -0.00302, 0.96931, 0.42742, 130.81, 219.05, 0.1, 0.003, 225, 300, 0.528, 0.619, 0.533, 0.335⟩,
  ⟨2.5, -0.90966, -0.86765, -0.98228, -0.96187, 2.0406, -0.076308, 0.53883, 6.2, -1.2201, 0.096106, 0, 4.5, 1, 6.77, 0, 0.0027609, -0.0011593, -1.0294, 966.94, 760, 0, 0.1, -0.021509, -0.00272, 1.0167, 0.45142, 130.81, 214.04, 0.097, 0.002, 225, 300, 0.53, 0.619, 0.534, 0.337⟩,
  ⟨2.6, -0.96863, -0.92577, -1.0313, -1.0266, 2.0628, -0.068925, 0.5581, 6.2, -1.2198, 0.096136, 0, 4.5, 1, 6.81, 0, 0.0027082, -0.0011684, -1.0262, 952.34, 760, 0, 0.1, -0.019576, -0.00246, 1.0601, 0.47422, 130.72, 209.32, 0.094, 0.001, 225, 300, 0.531, 0.62, 0.535, 0.34⟩,
  ⟨2.8, -1.0817, -1.0367, -1.1301, -1.1495, 2.1014, -0.055229, 0.59394, 6.2, -1.2189, 0.096667, 0, 4.5, 1, 6.87, 0, 0.0026581, -0.0011803, -1.019, 937.52, 760, 0, 0.1, -0.016324, -0.00208, 1.099, 0.49536, 130.57, 201.08, 0.091, 0, 225, 300, 0.532, 0.619, 0.536, 0.342⟩,
  ⟨3, -1.1898, -1.142, -1.23, -1.2664, 2.1323, -0.04332, 0.62694, 6.2, -1.2179, 0.097638, 0, 4.5, 1, 6.93, 0, 0.0026163, -0.0011885, -1.0112, 922.43, 760, 0, 0.1, -0.013577, -0.00183, 1.1348, 0.51585, 130.36, 195, 0.088, 0, 225, 300, 0.534, 0.619, 0.537, 0.344⟩,
  ⟨3.2, -1.2914, -1.2406, -1.3255, -1.376, 2.1545, -0.03444, 0.65811, 6.2, -1.2169, 0.098649, -0.000023, 4.5, 1, 6.99, 0, 0.002588, -0.0011921, -1.0032, 908.79, 760, 0, 0.1, -0.01103, -0.00167, 1.1638, 0.53411, 130.13, 191.61, 0.084, 0, 225, 300, 0.535, 0.618, 0.538, 0.345⟩,
  ⟨3.4, -1.386, -1.3322, -1.415, -1.4786, 2.1704, -0.027889, 0.68755, 6.2, -1.216, 0.099553, -0.00004, 4.5, 1, 7.08, 0, 0.0025753, -0.0011866, -0.99512, 896.15, 760, 0, 0.1, -0.0086652, -0.00158, 1.1882, 0.55145, 129.9, 190.73, 0.081, 0, 225, 300, 0.535, 0.618, 0.54, 0.346⟩,
  ⟨3.5, -1.4332, -1.3778, -1.4599, -1.5297, 2.1775, -0.024997, 0.70216, 6.2, -1.2156, 0.099989, -0.000045, 4.5, 1, 7.12, 0, 0.0025717, -0.0011739, -0.991, 883.16, 760, 0, 0.1, -0.0075682, -0.00155, 1.2114, 0.56981, 129.71, 191.11, 0.078, 0, 225, 300, 0.536, 0.617, 0.541, 0.347⟩,
  ⟨3.6, -1.4762, -1.4193, -1.5014, -1.5764, 2.1834, -0.022575, 0.71523, 6.2, -1.2156, 0.10043, -0.000049, 4.5, 1, 7.16, 0, 0.0025735, -0.0011539, -0.98682, 870.05, 760, 0, 0.1, -0.0065374, -0.00154, 1.2336, 0.58932, 129.56, 191.98, 0.075, 0, 225, 300, 0.536, 0.616, 0.542, 0.348⟩,
  ⟨3.8, -1.5617, -1.5014, -1.5865, -1.6685, 2.1938, -0.018362, 0.74028, 6.2, -1.2158, 0.10142, -0.000053, 4.5, 1, 7.24, 0, 0.0025862, -0.0011229, -0.97826, 857.07, 760, 0, 0.1, -0.0047016, -0.00152, 1.2534, 0.60918, 129.49, 195.01, 0.072, 0, 225, 300, 0.536, 0.616, 0.543, 0.349⟩,
  ⟨4, -1.6388, -1.5748, -1.6673, -1.7516, 2.204, -0.014642, 0.76303, 6.2, -1.2162, 0.10218, -0.000052, 4.5, 1, 7.32, 0, 0.0026053, -0.0010829, -0.96938, 844.48, 760, 0, 0.1, -0.0032123, -0.00152, 1.2711, 0.62939, 129.49, 199.45, 0.07, 0, 225, 300, 0.536, 0.616, 0.543, 0.349⟩,
  ⟨4.2, -1.7116, -1.6439, -1.7451, -1.829, 2.2123, -0.012248, 0.78552, 6.2, -1.2165, 0.10269, -0.000047, 4.5, 1, 7.39, 0, 0.002619, -0.0010247, -0.96012, 832.45, 760, 0, 0.1, -0.0021033, -0.00152, 1.287, 0.65157, 129.57, 204.93, 0.068, 0, 225, 300, 0.535, 0.616, 0.542, 0.349⟩,
  ⟨4.4, -1.7798, -1.7089, -1.8192, -1.9011, 2.2181, -0.011459, 0.80792, 6.2, -1.2169, 0.10304, -0.000039, 4.5, 1, 7.46, 0, 0.0026235, -0.0009464, -0.95049, 821.18, 760, 0, 0.1, -0.0013244, -0.0015, 1.3004, 0.67421, 129.71, 211.09, 0.066, 0, 225, 300, 0.534, 0.617, 0.54, 0.347⟩,
  ⟨4.6, -1.8469, -1.7731, -1.8923, -1.9712, 2.223, -0.01176, 0.83126, 6.2, -1.2175, 0.10324, -0.000027, 4.5, 1, 7.52, 0, 0.0026217, -0.00084448, -0.9405, 810.79, 760, 0, 0.1, -0.00080422, -0.00148, 1.3125, 0.69698, 129.87, 217.56, 0.064, 0, 225, 300, 0.533, 0.619, 0.538, 0.345⟩,
  ⟨4.8, -1.9063, -1.8303, -1.9573, -2.0326, 2.2268, -0.012879, 0.8524, 6.2, -1.2182, 0.10337, -0.000014, 4.5, 1, 7.64, 0, 0.0026153, -0.00071799, -0.93018, 801.41, 760, 0, 0.1, -0.00047145, -0.00146, 1.3225, 0.71888, 130.05, 223.99, 0.063, 0, 225, 300, 0.531, 0.621, 0.535, 0.341⟩,
  ⟨5, -1.966, -1.8882, -2.0245, -2.0928, 2.2299, -0.014855, 0.87314, 6.2, -1.2189, 0.10353, 0, 4.5, 1, 7.78, 0, 0.0026035, -0.00057148, -0.91954, 793.13, 760, 0, 0.1, -0.0002548, -0.00144, 1.3289, 0.73806, 130.22, 230, 0.061, 0, 225, 300, 0.528, 0.622, 0.532, 0.335⟩,
  ⟨5.5, -2.1051, -2.0232, -2.1908, -2.2288, 2.2389, -0.019502, 0.91466, 6.2, -1.2204, 0.1046, 0, 4.5, 1, 8.07, 0, 0.0025908, -0.00040768, -0.89176, 785.73, 760, 0, 0.1, 0.000072383, -0.0014, 1.345, 0.7779, 130.39, 241.86, 0.06, 0, 225, 300, 0.526, 0.624, 0.528, 0.329⟩,
  ⟨6, -2.2421, -2.1563, -2.3659, -2.3579, 2.2377, -0.026383, 0.9487, 6.2, -1.2232, 0.1075, 0, 4.5, 1, 8.48, 0, 0.0025835, -0.00022841, -0.86286, 779.91, 760, 0, 0.1, 0.0001877, -0.00138, 1.3496, 0.80278, 130.53, 249.34, 0.059, 0, 225, 300, 0.524, 0.625, 0.524, 0.321⟩,
  ⟨6.5, -2.3686, -2.2785, -2.5322, -2.477, 2.215, -0.039505, 0.97643, 6.2, -1.2299, 0.11231, 0, 4.5, 1, 8.9, 0, 0.0025862, -0.0000364, -0.83355, 775.6, 760, 0, 0.1, 0.00015945, -0.00137, 1.3489, 0.8148, 130.63, 252.94, 0.059, 0, 225, 300, 0.52, 0.634, 0.517, 0.312⟩,
  ⟨7, -2.4827, -2.3881, -2.6818, -2.5854, 2.172, -0.05914, 0.99757, 6.2, -1.2408, 0.11853, 0, 4.5, 1, 9.2, 0, 0.0026026, 0.00016835, -0.80457, 772.68, 760, 0, 0.1, 0.00005592, -0.00137, 1.3422, 0.81615, 130.7, 253.12, 0.059, 0, 225, 300, 0.515, 0.636, 0.514, 0.302⟩,
  ⟨7.5, -2.5865, -2.4874, -2.8176, -2.6854, 2.1187, -0.081606, 1.0121, 6.2, -1.2543, 0.12507, 0, 4.5, 1, 9.48, 0, 0.0026, 0.00038493, -0.77665, 771.01, 760, 0, 0.1, -0.0000546, -0.00137, 1.3288, 0.809, 130.72, 250.39, 0.058, 0, 225, 300, 0.512, 0.634, 0.511, 0.27⟩,
  ⟨8, -2.6861, -2.5829, -2.9438, -2.7823, 2.0613, -0.10382, 1.0232, 6.2, -1.2688, 0.13146, 0, 4.5, 1, 9.57, 0, 0.00263, 0.00072, -0.75033, 760.81, 760, 0, 0.1, -0.00011724, -0.00137, 1.3084, 0.79538, 130.87, 245.23, 0.059, 0, 225, 300, 0.51, 0.63, 0.507, 0.278⟩,
  ⟨8.5, -2.782, -2.6752, -3.0597, -2.8776, 2.0084, -0.12114, 1.0335, 6.2, -1.2839, 0.13742, 0, 4.5, 1, 9.62, 0, 0.00267, 0.00094, -0.72544, 764.5, 760, 0, 0.1, -0.00013084, -0.00137, 1.2822, 0.77671, 130.71, 238.13, 0.059, 0, 225, 300, 0.509, 0.622, 0.503, 0.265⟩,
  ⟨9, -2.8792, -2.7687, -3.1713, -2.9759, 1.9605, -0.13407, 1.0453, 6.2, -1.2989, 0.14294, 0, 4.5, 1, 9.66, 0, 0.00276, 0.00113, -0.70161, 768.07, 760, 0, 0.1, -0.00010766, -0.00137, 1.2515, 0.75425, 130.5, 229.56, 0.06, 0, 225, 300, 0.509, 0.613, 0.498, 0.252⟩,
  ⟨9.5, -2.9769, -2.8634, -3.2785, -3.076, 1.9189, -0.14364, 1.0567, 6.2, -1.313, 0.14781, 0, 4.5, 1, 9.66, 0, 0.00289, 0.00131, -0.6785, 771.55, 760, 0, 0.1, -0.000059962, -0.00136, 1.2179, 0.72925, 130.26, 220.02, 0.06, 0, 225, 300, 0.509, 0.604, 0.492, 0.239⟩,
  ⟨10, -3.0702, -2.9537, -3.3776, -3.1726, 1.8837, -0.15096, 1.0651, 6.2, -1.3253, 0.15183, 0, 4.5, 1, 9.66, 0, 0.00303, 0.00149, -0.65575, 775, 760, 0, 0.1, 0, -0.00136, 1.1829, 0.703, 130, 210, 0.06, 0, 225, 300, 0.51, 0.604, 0.487, 0.239⟩
]

/-- src/pygmm/data/boore_stewart_seyhan_atkinson-2014.csv, all rows -/
def table : List Row := table0 ++ table1 ++ table2

end BSSA14
