import Mathlib.Data.Rat.Defs
import Mathlib.Algebra.Order.Ring.Rat
import Mathlib.Tactic.NormNum

/-! Generated by tools/gen_data.py from src/pygmm/data/chiou_youngs_2014.csv
(loaded in src/pygmm/chiou_youngs_2014.py line 34).  Do not edit. -/

namespace CY14

/-- one row of chiou_youngs_2014.csv: the columns of the file, in order -/
structure Row where
  period : ℚ
  c_1 : ℚ
  c_1a : ℚ
  c_1b : ℚ
  c_1c : ℚ
  c_1d : ℚ
  c_2 : ℚ
  c_3 : ℚ
  c_4 : ℚ
  c_4a : ℚ
  c_5 : ℚ
  c_6 : ℚ
  c_7 : ℚ
  c_7b : ℚ
  c_8 : ℚ
  c_8a : ℚ
  c_8b : ℚ
  c_9 : ℚ
  c_9a : ℚ
  c_9b : ℚ
  c_11 : ℚ
  c_11b : ℚ
  c_hm : ℚ
  c_m : ℚ
  c_n : ℚ
  c_rb : ℚ
  c_gamma1 : ℚ
  c_gamma2 : ℚ
  c_gamma3 : ℚ
  gamma_ji : ℚ
  gamma_c : ℚ
  phi_1 : ℚ
  phi_1jp : ℚ
  phi_2 : ℚ
  phi_3 : ℚ
  phi_4 : ℚ
  phi_5 : ℚ
  phi_5jp : ℚ
  phi_6 : ℚ
  phi_6jp : ℚ
  tau_1 : ℚ
  tau_2 : ℚ
  sigma_1 : ℚ
  sigma_2 : ℚ
  sigma_2jp : ℚ
  sigma_3 : ℚ

/-- src/pygmm/data/chiou_youngs_2014.csv -/
def table : List Row := [
  ⟨0.01, -1.5065, 0.165, -0.255, -0.165, 0.255, 1.06, 1.9636, -2.1, -0.5, 6.4551, 0.4908, 0.0352, 0.0462, 0, 0.2695, 0.4833, 0.9228, 0.1202, 6.8607, 0, -0.4536, 3.0956, 4.9993, 16.0875, 50, -0.007146, -0.006758, 4.2542, 1.5817, 0.7594, -0.521, -0.6846, -0.1417, -0.00701, 0.102151, 0, 0.459, 300, 800, 0.4, 0.26, 0.4912, 0.3762, 0.4528, 0.8⟩,
  ⟨0.02, -1.4798, 0.165, -0.255, -0.165, 0.255, 1.06, 1.9636, -2.1, -0.5, 6.4551, 0.4925, 0.0352, 0.0472, 0, 0.2695, 1.2144, 0.9296, 0.1217, 6.8697, 0, -0.4536, 3.0963, 4.9993, 15.7118, 50, -0.007249, -0.006758, 4.2386, 1.574, 0.7606, -0.5055, -0.6681, -0.1364, -0.007279, 0.10836, 0, 0.458, 300, 800, 0.4026, 0.2637, 0.4904, 0.3762, 0.4551, 0.8⟩,
  ⟨0.03, -1.2972, 0.165, -0.255, -0.165, 0.255, 1.06, 1.9636, -2.1, -0.5, 6.4551, 0.4992, 0.0352, 0.0533, 0, 0.2695, 1.6421, 0.9396, 0.1194, 6.9113, 0, -0.4536, 3.0974, 4.9993, 15.8819, 50, -0.007869, -0.006758, 4.2519, 1.5544, 0.7642, -0.4368, -0.6314, -0.1403, -0.007354, 0.119888, 0, 0.462, 300, 800, 0.4063, 0.2689, 0.4988, 0.3849, 0.4571, 0.8⟩,
  ⟨0.04, -1.1007, 0.165, -0.255, -0.165, 0.255, 1.06, 1.9636, -2.1, -0.5, 6.4551, 0.5037, 0.0352, 0.0596, 0, 0.2695, 1.9456, 0.9661, 0.1166, 7.0271, 0, -0.4536, 3.0988, 4.9993, 16.4556, 50, -0.008316, -0.006758, 4.296, 1.5502, 0.7676, -0.3752, -0.5855, -0.1591, -0.006977, 0.133641, 0, 0.453, 300, 800, 0.4095, 0.2736, 0.5049, 0.391, 0.4642, 0.8⟩,
  ⟨0.05, -0.9292, 0.165, -0.255, -0.165, 0.255, 1.06, 1.9636, -2.1, -0.5, 6.4551, 0.5048, 0.0352, 0.0639, 0, 0.2695, 2.181, 0.9794, 0.1176, 7.0959, 0, -0.4536, 3.1011, 4.9993, 17.6453, 50, -0.008743, -0.006758, 4.3578, 1.5391, 0.7739, -0.3469, -0.5457, -0.1862, -0.006467, 0.148927, 0, 0.436, 300, 800, 0.4124, 0.2777, 0.5096, 0.3957, 0.4716, 0.8⟩,
  ⟨0.075, -0.658, 0.165, -0.254, -0.165, 0.254, 1.06, 1.9636, -2.1, -0.5, 6.4551, 0.5048, 0.0352, 0.063, 0, 0.2695, 2.6087, 1.026, 0.1171, 7.3298, 0, -0.4536, 3.1094, 5.0031, 20.1772, 50, -0.009537, -0.00619, 4.5455, 1.4804, 0.7956, -0.3747, -0.4685, -0.2538, -0.005734, 0.190596, 0, 0.383, 300, 800, 0.4179, 0.2855, 0.5179, 0.4043, 0.5022, 0.8⟩,
  ⟨0.1, -0.5613, 0.165, -0.253, -0.165, 0.253, 1.06, 1.9636, -2.1, -0.5, 6.8305, 0.5048, 0.0352, 0.0532, 0, 0.2695, 2.9122, 1.0177, 0.1146, 7.2588, 0, -0.4536, 3.2381, 5.0172, 19.9992, 50, -0.00983, -0.005332, 4.7603, 1.4094, 0.7932, -0.444, -0.4985, -0.2943, -0.005604, 0.230662, 0, 0.375, 300, 800, 0.4219, 0.2913, 0.5236, 0.4104, 0.523, 0.8⟩,
  ⟨0.12, -0.5342, 0.165, -0.252, -0.165, 0.252, 1.06, 1.9795, -2.1, -0.5, 7.1333, 0.5048, 0.0352, 0.0452, 0, 0.2695, 3.1045, 1.0008, 0.1128, 7.2372, 0, -0.4536, 3.3407, 5.0315, 18.7106, 50, -0.009913, -0.004732, 4.8963, 1.3682, 0.7768, -0.4895, -0.5603, -0.3077, -0.005696, 0.253169, 0, 0.377, 300, 800, 0.4244, 0.2949, 0.527, 0.4143, 0.5278, 0.8⟩,
  ⟨0.15, -0.5462, 0.165, -0.25, -0.165, 0.25, 1.06, 2.0362, -2.1, -0.5, 7.3621, 0.5045, 0.0352, 0.0345, 0, 0.2695, 3.3399, 0.9801, 0.1106, 7.2109, 0, -0.4536, 3.43, 5.0547, 16.6246, 50, -0.009896, -0.003806, 5.0644, 1.3241, 0.7437, -0.5477, -0.6451, -0.3113, -0.005845, 0.266468, 0, 0.379, 300, 800, 0.4275, 0.2993, 0.5308, 0.4191, 0.5304, 0.8⟩,
  ⟨0.17, -0.5858, 0.165, -0.248, -0.165, 0.248, 1.06, 2.0823, -2.1, -0.5, 7.4365, 0.5036, 0.0352, 0.0283, 0, 0.2695, 3.4719, 0.9652, 0.115, 7.2491, 0, -0.4536, 3.4688, 5.0704, 15.3709, 50, -0.009787, -0.00328, 5.1371, 1.3071, 0.7219, -0.5922, -0.6981, -0.3062, -0.005959, 0.26506, 0, 0.38, 300, 800, 0.4292, 0.3017, 0.5328, 0.4217, 0.531, 0.8⟩,
  ⟨0.2, -0.6798, 0.165, -0.2449, -0.165, 0.2449, 1.06, 2.1521, -2.1, -0.5, 7.4972, 0.5016, 0.0352, 0.0202, 0, 0.2695, 3.6434, 0.9459, 0.1208, 7.2988, 0, -0.444, 3.5146, 5.0939, 13.7012, 50, -0.009505, -0.00269, 5.188, 1.2931, 0.6922, -0.6693, -0.7653, -0.2927, -0.006141, 0.255253, 0, 0.384, 300, 800, 0.4313, 0.3047, 0.5351, 0.4252, 0.5312, 0.8⟩,
  ⟨0.25, -0.8663, 0.165, -0.2382, -0.165, 0.2382, 1.06, 2.2574, -2.1, -0.5, 7.5416, 0.4971, 0.0352, 0.009, 0, 0.2695, 3.8787, 0.9196, 0.1208, 7.3691, 0, -0.3539, 3.5746, 5.1315, 11.2667, 50, -0.008918, -0.002128, 5.2164, 1.315, 0.6579, -0.7766, -0.8469, -0.2662, -0.006439, 0.231541, 0, 0.393, 300, 800, 0.4341, 0.3087, 0.5377, 0.4299, 0.5309, 0.7999⟩,
  ⟨0.3, -1.0514, 0.165, -0.2313, -0.165, 0.2313, 1.06, 2.344, -2.1, -0.5, 7.56, 0.4919, 0.0352, -0.0004, 0, 0.2695, 4.0711, 0.8829, 0.1175, 6.8789, 0, -0.2688, 3.6232, 5.167, 9.1908, 50, -0.008251, -0.001812, 5.1954, 1.3514, 0.6362, -0.8501, -0.8999, -0.2405, -0.006704, 0.207277, 0.001, 0.408, 300, 800, 0.4363, 0.3119, 0.5395, 0.4338, 0.5307, 0.7997⟩,
  ⟨0.4, -1.3794, 0.165, -0.2146, -0.165, 0.2146, 1.06, 2.4709, -2.1, -0.5, 7.5735, 0.4807, 0.0352, -0.0155, 0, 0.2695, 4.3745, 0.8302, 0.106, 6.5334, 0, -0.1793, 3.6945, 5.2317, 6.5459, 50, -0.007267, -0.001274, 5.0899, 1.4051, 0.6049, -0.9431, -0.9618, -0.1975, -0.007125, 0.165464, 0.004, 0.462, 300, 800, 0.4396, 0.3165, 0.5422, 0.4399, 0.531, 0.7988⟩,
  ⟨0.5, -1.6508, 0.165, -0.1972, -0.165, 0.1972, 1.06, 2.5567, -2.1, -0.5, 7.5778, 0.4707, 0.0352, -0.0278, 0.0991, 0.2695, 4.6099, 0.7884, 0.1061, 6.526, 0, -0.1428, 3.7401, 5.2893, 5.2305, 50, -0.006492, -0.001074, 4.7854, 1.4402, 0.5507, -1.0044, -0.9945, -0.1633, -0.007435, 0.133828, 0.01, 0.524, 300, 800, 0.4419, 0.3199, 0.5433, 0.4446, 0.5313, 0.7966⟩,
  ⟨0.75, -2.1511, 0.165, -0.162, -0.165, 0.162, 1.06, 2.6812, -2.1, -0.5, 7.5808, 0.4575, 0.0352, -0.0477, 0.1982, 0.2695, 5.0376, 0.6754, 0.1, 6.5, 0, -0.1138, 3.7941, 5.4109, 3.7896, 50, -0.005147, -0.001115, 4.3304, 1.528, 0.3582, -1.0602, -1.0225, -0.1028, -0.00812, 0.085153, 0.034, 0.658, 300, 800, 0.4459, 0.3255, 0.5294, 0.4533, 0.5309, 0.7792⟩,
  ⟨1, -2.5365, 0.165, -0.14, -0.165, 0.14, 1.06, 2.7474, -2.1, -0.5, 7.5814, 0.4522, 0.0352, -0.0559, 0.2154, 0.2695, 5.3411, 0.6196, 0.1, 6.5, 0, -0.1062, 3.8144, 5.5106, 3.3024, 50, -0.004277, -0.001197, 4.1667, 1.6523, 0.2003, -1.0941, -1.0002, -0.0699, -0.008444, 0.058595, 0.067, 0.78, 300, 800, 0.4484, 0.3291, 0.5105, 0.4594, 0.5302, 0.7504⟩,
  ⟨1.5, -3.0686, 0.165, -0.1184, -0.165, 0.1184, 1.06, 2.8161, -2.1, -0.5, 7.5817, 0.4501, 0.0352, -0.063, 0.2154, 0.2695, 5.7688, 0.5101, 0.1, 6.5, 0, -0.102, 3.8284, 5.6705, 2.8498, 50, -0.002979, -0.001675, 4.0029, 1.8872, 0.0356, -1.1142, -0.9245, -0.0425, -0.007707, 0.031787, 0.143, 0.96, 300, 800, 0.4515, 0.3335, 0.4783, 0.468, 0.5276, 0.7136⟩,
  ⟨2, -3.4148, 0.1645, -0.11, -0.1645, 0.11, 1.06, 2.8514, -2.1, -0.5, 7.5818, 0.45, 0.0352, -0.0665, 0.2154, 0.2695, 6.0723, 0.3917, 0.1, 6.5, 0, -0.1009, 3.833, 5.7981, 2.5417, 50, -0.002301, -0.002349, 3.8949, 2.1348, 0, -1.1154, -0.8626, -0.0302, -0.004792, 0.019716, 0.203, 1.11, 300, 800, 0.4534, 0.3363, 0.4681, 0.4681, 0.5167, 0.7035⟩,
  ⟨3, -3.9013, 0.1168, -0.104, -0.1168, 0.104, 1.06, 2.8875, -2.1, -0.5, 7.5818, 0.45, 0.016, -0.0516, 0.2154, 0.2695, 6.5, 0.1244, 0.1, 6.5, 0, -0.1003, 3.8361, 5.9983, 2.1488, 50, -0.001344, -0.003306, 3.7928, 3.5752, 0, -1.1081, -0.7882, -0.0129, -0.001828, 0.009643, 0.277, 1.291, 300, 800, 0.4558, 0.3398, 0.4617, 0.4617, 0.4917, 0.7006⟩,
  ⟨4, -4.2466, 0.0732, -0.102, -0.0732, 0.102, 1.06, 2.9058, -2.1, -0.5, 7.5818, 0.45, 0.0062, -0.0448, 0.2154, 0.2695, 6.8035, 0.0086, 0.1, 6.5, 0, -0.1001, 3.8369, 6.1552, 1.8957, 50, -0.001084, -0.003566, 3.7443, 3.8646, 0, -1.0603, -0.7195, -0.0016, -0.001523, 0.005379, 0.309, 1.387, 300, 800, 0.4574, 0.3419, 0.4571, 0.4571, 0.4682, 0.7001⟩,
  ⟨5, -4.5143, 0.0484, -0.101, -0.0484, 0.101, 1.06, 2.9169, -2.1, -0.5, 7.5818, 0.45, 0.0029, -0.0424, 0.2154, 0.2695, 7.0389, 0, 0.1, 6.5, 0, -0.1001, 3.8376, 6.2856, 1.7228, 50, -0.00101, -0.00364, 3.709, 3.7292, 0, -0.9872, -0.656, 0, -0.00144, 0.003223, 0.321, 1.433, 300, 800, 0.4584, 0.3435, 0.4535, 0.4535, 0.4517, 0.7⟩,
  ⟨7.5, -5.0009, 0.022, -0.101, -0.022, 0.101, 1.06, 2.932, -2.1, -0.5, 7.5818, 0.45, 0.0007, -0.0348, 0.2154, 0.2695, 7.4666, 0, 0.1, 6.5, 0, -0.1, 3.838, 6.5428, 1.5737, 50, -0.000964, -0.003686, 3.6632, 2.3763, 0, -0.8274, -0.5202, 0, -0.001369, 0.001134, 0.329, 1.46, 300, 800, 0.4601, 0.3459, 0.4471, 0.4471, 0.4167, 0.7⟩,
  ⟨10, -5.3461, 0.0124, -0.1, -0.0124, 0.1, 1.06, 2.9396, -2.1, -0.5, 7.5818, 0.45, 0.0003, -0.0253, 0.2154, 0.2695, 7.77, 0, 0.1, 6.5, 0, -0.1, 3.838, 6.7415, 1.5265, 50, -0.00095, -0.0037, 3.623, 1.7679, 0, -0.7053, -0.4068, 0, -0.001361, 0.000515, 0.33, 1.464, 300, 800, 0.4612, 0.3474, 0.4426, 0.4426, 0.3755, 0.7⟩,
  ⟨0, -1.5065, 0.165, -0.255, -0.165, 0.255, 1.06, 1.9636, -2.1, -0.5, 6.4551, 0.4908, 0.0352, 0.0462, 0, 0.2695, 0.4833, 0.9228, 0.1202, 6.8607, 0, -0.4536, 3.0956, 4.9993, 16.0875, 50, -0.007146, -0.006758, 4.2542, 1.5817, 0.7594, -0.521, -0.6846, -0.1417, -0.00701, 0.102151, 0, 0.459, 300, 800, 0.4, 0.26, 0.4912, 0.3762, 0.4528, 0.8⟩,
  ⟨-1, 2.3549, 0.165, -0.0626, -0.165, 0.0626, 1.06, 2.3152, -2.1, -0.5, 5.8096, 0.4407, 0.0324, 0.0097, 0.2154, 0.2695, 5, 0.3079, 0.1, 6.5, 0, -0.3834, 3.0514, 5.423, 3.3024, 50, -0.001852, -0.007403, 4.3439, 2.2306, 0.335, -0.7936, -0.7966, -0.0699, -0.008444, 5.41, 0.0202, 0.9488, 300, 800, 0.3894, 0.2578, 0.4785, 0.3629, 0.3918, 0.7504⟩
]

end CY14
