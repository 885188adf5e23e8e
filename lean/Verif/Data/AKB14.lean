import Mathlib.Data.Rat.Defs
import Mathlib.Algebra.Order.Ring.Rat
import Mathlib.Tactic.NormNum

/-! Generated by tools/gen_data.py from src/pygmm/data/akkar-sandikkaya-bommer-2014-dist_jb.csv, src/pygmm/data/akkar-sandikkaya-bommer-2014-dist_hyp.csv, src/pygmm/data/akkar-sandikkaya-bommer-2014-dist_epi.csv
(loaded in src/pygmm/akkar_sandikkaya_bommer_2014.py line 44).  Do not edit. -/

namespace AKB14

/-- one row of akkar-sandikkaya-bommer-2014-dist_jb.csv, akkar-sandikkaya-bommer-2014-dist_hyp.csv, akkar-sandikkaya-bommer-2014-dist_epi.csv: the columns of the file, in order -/
structure Row where
  period : ℚ
  a_1 : ℚ
  a_2 : ℚ
  a_3 : ℚ
  a_4 : ℚ
  a_5 : ℚ
  a_6 : ℚ
  a_7 : ℚ
  a_8 : ℚ
  a_9 : ℚ
  c_1 : ℚ
  v_con : ℚ
  v_ref : ℚ
  c : ℚ
  n : ℚ
  b_1 : ℚ
  b_2 : ℚ
  sd_within : ℚ
  sd_between : ℚ
  sd_total : ℚ

/-- src/pygmm/data/akkar-sandikkaya-bommer-2014-dist_jb.csv, part 1 of 2 -/
def jb0 : List Row := [
  ⟨0, 1.85329, 0.0029, -0.02807, -1.23452, 0.2529, 7.5, -0.5096, -0.1091, 0.0937, 6.75, 1000, 750, 2.5, 3.2, -0.41997, -0.28846, 0.6201, 0.3501, 0.7121⟩,
  ⟨-1, 5.61201, 0.0029, -0.0998, -0.98388, 0.2529, 7.5, -0.5096, -0.0616, 0.063, 6.75, 1000, 750, 2.5, 3.2, -0.72057, -0.19688, 0.6014, 0.3311, 0.6865⟩,
  ⟨0.01, 1.87032, 0.0029, -0.0274, -1.23698, 0.2529, 7.5, -0.5096, -0.1115, 0.0953, 6.75, 1000, 750, 2.5, 3.2, -0.41729, -0.28685, 0.6215, 0.3526, 0.7146⟩,
  ⟨0.02, 1.95279, 0.0029, -0.02715, -1.25363, 0.2529, 7.5, -0.5096, -0.104, 0.1029, 6.75, 1000, 750, 2.5, 3.2, -0.39998, -0.28241, 0.6266, 0.3555, 0.7204⟩,
  ⟨0.03, 2.07006, 0.0029, -0.02403, -1.27525, 0.2529, 7.5, -0.5096, -0.0973, 0.1148, 6.75, 1000, 750, 2.5, 3.2, -0.34799, -0.26842, 0.641, 0.3565, 0.7335⟩,
  ⟨0.04, 2.20452, 0.0029, -0.01797, -1.30123, 0.2529, 7.5, -0.5096, -0.0884, 0.1073, 6.75, 1000, 750, 2.5, 3.2, -0.27572, -0.24759, 0.6534, 0.3484, 0.7405⟩,
  ⟨0.05, 2.35413, 0.0029, -0.01248, -1.32632, 0.2529, 7.5, -0.5096, -0.0853, 0.1052, 6.75, 1000, 750, 2.5, 3.2, -0.21231, -0.22385, 0.6622, 0.3551, 0.7514⟩,
  ⟨0.075, 2.63078, 0.0029, -0.00532, -1.35722, 0.2529, 7.5, -0.5096, -0.0779, 0.0837, 6.75, 1000, 750, 2.5, 3.2, -0.14427, -0.17525, 0.6626, 0.3759, 0.7618⟩,
  ⟨0.1, 2.85412, 0.0029, -0.00925, -1.38182, 0.2529, 7.5, -0.5096, -0.0749, 0.0761, 6.75, 1000, 750, 2.5, 3.2, -0.27064, -0.29293, 0.667, 0.4067, 0.7812⟩,
  ⟨0.11, 2.89772, 0.0029, -0.01062, -1.38345, 0.2529, 7.5, -0.5096, -0.0704, 0.0707, 6.75, 1000, 750, 2.5, 3.2, -0.31025, -0.31837, 0.6712, 0.4059, 0.7844⟩,
  ⟨0.12, 2.92748, 0.0029, -0.01291, -1.37997, 0.2529, 7.5, -0.5096, -0.0604, 0.0653, 6.75, 1000, 750, 2.5, 3.2, -0.34796, -0.3386, 0.6768, 0.4022, 0.7873⟩,
  ⟨0.13, 2.95162, 0.0029, -0.01592, -1.37627, 0.2529, 7.5, -0.5096, -0.049, 0.0617, 6.75, 1000, 750, 2.5, 3.2, -0.39668, -0.36646, 0.6789, 0.4017, 0.7888⟩,
  ⟨0.14, 2.96299, 0.0029, -0.01866, -1.37155, 0.2529, 7.5, -0.5096, -0.0377, 0.0581, 6.75, 1000, 750, 2.5, 3.2, -0.43996, -0.38417, 0.6822, 0.3945, 0.7881⟩,
  ⟨0.15, 2.96622, 0.0029, -0.02193, -1.3646, 0.2529, 7.5, -0.5096, -0.0265, 0.0545, 6.75, 1000, 750, 2.5, 3.2, -0.48313, -0.39551, 0.6796, 0.3893, 0.7832⟩,
  ⟨0.16, 2.93166, 0.0029, -0.02429, -1.35074, 0.2529, 7.5, -0.5096, -0.0194, 0.0509, 6.75, 1000, 750, 2.5, 3.2, -0.52431, -0.40869, 0.6762, 0.3928, 0.782⟩,
  ⟨0.17, 2.88988, 0.0029, -0.02712, -1.33454, 0.2529, 7.5, -0.5096, -0.0125, 0.0507, 6.75, 1000, 750, 2.5, 3.2, -0.5568, -0.41528, 0.6723, 0.396, 0.7803⟩,
  ⟨0.18, 2.84627, 0.0029, -0.03003, -1.31959, 0.2529, 7.5, -0.5096, -0.0056, 0.0502, 6.75, 1000, 750, 2.5, 3.2, -0.58922, -0.42717, 0.6694, 0.396, 0.7778⟩,
  ⟨0.19, 2.79778, 0.0029, -0.033, -1.3045, 0.2529, 7.5, -0.5096, 0, 0.0497, 6.75, 1000, 750, 2.5, 3.2, -0.62635, -0.4413, 0.6647, 0.3932, 0.7723⟩,
  ⟨0.2, 2.73872, 0.0029, -0.03462, -1.28877, 0.2529, 7.5, -0.5096, 0, 0.0493, 6.75, 1000, 750, 2.5, 3.2, -0.65315, -0.44644, 0.6645, 0.3842, 0.7676⟩,
  ⟨0.22, 2.63479, 0.0029, -0.03789, -1.26125, 0.2529, 7.5, -0.5096, 0, 0.0488, 6.75, 1000, 750, 2.5, 3.2, -0.68711, -0.44872, 0.66, 0.3887, 0.766⟩,
  ⟨0.24, 2.53886, 0.0029, -0.04173, -1.236, 0.2529, 7.5, -0.5096, 0, 0.0483, 6.75, 1000, 750, 2.5, 3.2, -0.72744, -0.46341, 0.6651, 0.3792, 0.7656⟩,
  ⟨0.26, 2.48747, 0.0029, -0.04768, -1.21882, 0.2529, 7.5, -0.5096, 0, 0.0478, 6.75, 1000, 750, 2.5, 3.2, -0.77335, -0.48705, 0.665, 0.3754, 0.7636⟩,
  ⟨0.28, 2.38739, 0.0029, -0.05178, -1.19543, 0.2529, 7.5, -0.5096, 0, 0.0474, 6.75, 1000, 750, 2.5, 3.2, -0.80508, -0.47334, 0.659, 0.3757, 0.7586⟩,
  ⟨0.3, 2.3015, 0.0029, -0.05672, -1.17072, 0.2529, 7.5, -0.5096, 0, 0.0469, 6.75, 1000, 750, 2.5, 3.2, -0.82609, -0.4573, 0.6599, 0.3816, 0.7623⟩,
  ⟨0.32, 2.17298, 0.0029, -0.06015, -1.13847, 0.2529, 7.5, -0.5096, 0, 0.0464, 6.75, 1000, 750, 2.5, 3.2, -0.8408, -0.44267, 0.6654, 0.3866, 0.7696⟩,
  ⟨0.34, 2.07474, 0.0029, -0.06508, -1.11131, 0.2529, 7.5, -0.5096, 0, 0.0459, 6.75, 1000, 750, 2.5, 3.2, -0.86251, -0.43888, 0.6651, 0.3881, 0.7701⟩,
  ⟨0.36, 2.01953, 0.0029, -0.06974, -1.09484, 0.2529, 7.5, -0.5096, 0, 0.0459, 6.75, 1000, 750, 2.5, 3.2, -0.87479, -0.4382, 0.6662, 0.3924, 0.7732⟩,
  ⟨0.38, 1.95078, 0.0029, -0.07346, -1.07812, 0.2529, 7.5, -0.5096, 0, 0.0429, 6.75, 1000, 750, 2.5, 3.2, -0.88522, -0.43678, 0.6698, 0.3945, 0.7773⟩,
  ⟨0.4, 1.89372, 0.0029, -0.07684, -1.0653, 0.2529, 7.5, -0.5096, 0, 0.04, 6.75, 1000, 750, 2.5, 3.2, -0.89517, -0.43008, 0.6697, 0.3962, 0.7781⟩,
  ⟨0.42, 1.83717, 0.0029, -0.0801, -1.05451, 0.2529, 7.5, -0.5096, 0, 0.0374, 6.75, 1000, 750, 2.5, 3.2, -0.90875, -0.4219, 0.6696, 0.389, 0.7744⟩,
  ⟨0.44, 1.77528, 0.0029, -0.08296, -1.04332, 0.2529, 7.5, -0.5096, 0, 0.0349, 6.75, 1000, 750, 2.5, 3.2, -0.91922, -0.40903, 0.6641, 0.3929, 0.7716⟩,
  ⟨0.46, 1.73155, 0.0029, -0.08623, -1.03572, 0.2529, 7.5, -0.5096, 0, 0.0323, 6.75, 1000, 750, 2.5, 3.2, -0.9267, -0.39442, 0.6575, 0.4009, 0.7701⟩,
  ⟨0.48, 1.70132, 0.0029, -0.0907, -1.02724, 0.2529, 7.5, -0.5096, 0, 0.0297, 6.75, 1000, 750, 2.5, 3.2, -0.9372, -0.38462, 0.654, 0.4022, 0.7678⟩,
  ⟨0.5, 1.67127, 0.0029, -0.0949, -1.01909, 0.2529, 7.5, -0.5096, 0, 0.0271, 6.75, 1000, 750, 2.5, 3.2, -0.94614, -0.37408, 0.6512, 0.4021, 0.7653⟩,
  ⟨0.55, 1.53838, 0.0029, -0.10275, -0.99351, 0.2529, 7.5, -0.5096, 0, 0.0245, 6.75, 1000, 750, 2.5, 3.2, -0.96564, -0.35582, 0.657, 0.4057, 0.7722⟩,
  ⟨0.6, 1.37505, 0.0029, -0.10747, -0.96429, 0.2529, 7.5, -0.5096, 0, 0.0219, 6.75, 1000, 750, 2.5, 3.2, -0.98499, -0.34053, 0.663, 0.406, 0.7774⟩,
  ⟨0.65, 1.21156, 0.0029, -0.11262, -0.93347, 0.2529, 7.5, -0.5096, 0, 0.0193, 6.75, 1000, 750, 2.5, 3.2, -0.99733, -0.30949, 0.6652, 0.4124, 0.7827⟩,
  ⟨0.7, 1.09262, 0.0029, -0.11835, -0.91162, 0.2529, 7.5, -0.5096, 0, 0.0167, 6.75, 1000, 750, 2.5, 3.2, -1.00469, -0.28772, 0.6696, 0.4135, 0.787⟩,
  ⟨0.75, 0.95211, 0.0029, -0.12347, -0.88393, 0.2529, 7.5, -0.5096, 0, 0.0141, 6.75, 1000, 750, 2.5, 3.2, -1.00786, -0.28957, 0.6744, 0.4043, 0.7863⟩,
  ⟨0.8, 0.85227, 0.0029, -0.12678, -0.86884, 0.2529, 7.5, -0.5096, 0, 0.0115, 6.75, 1000, 750, 2.5, 3.2, -1.00606, -0.28555, 0.6716, 0.3974, 0.7804⟩
]

/-- src/pygmm/data/akkar-sandikkaya-bommer-2014-dist_jb.csv, part 2 of 2 -/
def jb1 : List Row := [
  ⟨0.85, 0.76564, 0.0029, -0.13133, -0.85442, 0.2529, 7.5, -0.5096, 0, 0.0089, 6.75, 1000, 750, 2.5, 3.2, -1.01093, -0.28364, 0.6713, 0.3971, 0.78⟩,
  ⟨0.9, 0.66856, 0.0029, -0.13551, -0.83929, 0.2529, 7.5, -0.5096, 0, 0.0062, 6.75, 1000, 750, 2.5, 3.2, -1.01576, -0.28037, 0.6738, 0.3986, 0.7829⟩,
  ⟨0.95, 0.58739, 0.0029, -0.13957, -0.82668, 0.2529, 7.5, -0.5096, 0, 0.0016, 6.75, 1000, 750, 2.5, 3.2, -1.01353, -0.2839, 0.6767, 0.3949, 0.7835⟩,
  ⟨1, 0.52349, 0.0029, -0.14345, -0.81838, 0.2529, 7.5, -0.5096, 0, 0, 6.75, 1000, 750, 2.5, 3.2, -1.01331, -0.28702, 0.6787, 0.3943, 0.7849⟩,
  ⟨1.1, 0.3768, 0.0029, -0.15051, -0.79691, 0.2529, 7.5, -0.5096, 0, 0, 6.75, 1000, 750, 2.5, 3.2, -1.0124, -0.27669, 0.6912, 0.3806, 0.7891⟩,
  ⟨1.2, 0.23251, 0.0029, -0.15527, -0.77813, 0.2529, 7.5, -0.5096, 0, 0, 6.75, 1000, 750, 2.5, 3.2, -1.00489, -0.27538, 0.7015, 0.3802, 0.7979⟩,
  ⟨1.3, 0.10481, 0.0029, -0.16106, -0.75888, 0.2529, 7.5, -0.5096, 0, 0, 6.75, 1000, 750, 2.5, 3.2, -0.98876, -0.25008, 0.7017, 0.3803, 0.7981⟩,
  ⟨1.4, 0.00887, 0.0029, -0.16654, -0.74871, 0.2529, 7.5, -0.5096, 0, 0, 6.75, 1000, 750, 2.5, 3.2, -0.9776, -0.23508, 0.7141, 0.3766, 0.8073⟩,
  ⟨1.5, -0.01867, 0.0029, -0.17187, -0.75751, 0.2529, 7.5, -0.5096, 0, 0, 6.75, 1000, 750, 2.5, 3.2, -0.98071, -0.24695, 0.7164, 0.3799, 0.8109⟩,
  ⟨1.6, -0.0996, 0.0029, -0.17728, -0.74823, 0.2529, 7.5, -0.5096, 0, 0, 6.75, 1000, 750, 2.5, 3.2, -0.96369, -0.2287, 0.7198, 0.3817, 0.8147⟩,
  ⟨1.7, -0.21166, 0.0029, -0.17908, -0.73766, 0.2529, 7.5, -0.5096, 0, 0, 6.75, 1000, 750, 2.5, 3.2, -0.94634, -0.21655, 0.7226, 0.3724, 0.8129⟩,
  ⟨1.8, -0.273, 0.0029, -0.18438, -0.72996, 0.2529, 7.5, -0.5096, 0, -0.003, 6.75, 1000, 750, 2.5, 3.2, -0.93606, -0.20302, 0.7241, 0.371, 0.8136⟩,
  ⟨1.9, -0.35366, 0.0029, -0.18741, -0.72279, 0.2529, 7.5, -0.5096, 0, -0.006, 6.75, 1000, 750, 2.5, 3.2, -0.91408, -0.18228, 0.7266, 0.3745, 0.8174⟩,
  ⟨2, -0.42891, 0.0029, -0.19029, -0.72033, 0.2529, 7.5, -0.5096, 0, -0.009, 6.75, 1000, 750, 2.5, 3.2, -0.91007, -0.17336, 0.7254, 0.3717, 0.8151⟩,
  ⟨2.2, -0.55307, 0.0029, -0.19683, -0.71662, 0.2529, 7.5, -0.5096, 0, -0.0141, 6.75, 1000, 750, 2.5, 3.2, -0.89376, -0.15463, 0.7207, 0.3758, 0.8128⟩,
  ⟨2.4, -0.67806, 0.0029, -0.20339, -0.70452, 0.2529, 7.5, -0.5096, 0, -0.0284, 6.75, 1000, 750, 2.5, 3.2, -0.87052, -0.13181, 0.7144, 0.3973, 0.8174⟩,
  ⟨2.6, -0.80494, 0.0029, -0.20703, -0.69691, 0.2529, 7.5, -0.5096, 0, -0.0408, 6.75, 1000, 750, 2.5, 3.2, -0.85889, -0.14066, 0.7122, 0.4001, 0.8169⟩,
  ⟨2.8, -0.91278, 0.0029, -0.21074, -0.6956, 0.2529, 7.5, -0.5096, 0, -0.0534, 6.75, 1000, 750, 2.5, 3.2, -0.86106, -0.13882, 0.7129, 0.4025, 0.8187⟩,
  ⟨3, -1.05642, 0.0029, -0.21392, -0.69085, 0.2529, 7.5, -0.5096, 0, -0.0683, 6.75, 1000, 750, 2.5, 3.2, -0.85793, -0.13336, 0.6997, 0.4046, 0.8083⟩,
  ⟨3.2, -1.17715, 0.0029, -0.21361, -0.67711, 0.2529, 7.5, -0.5096, 0, -0.078, 6.75, 1000, 750, 2.5, 3.2, -0.82094, -0.1377, 0.682, 0.4194, 0.8006⟩,
  ⟨3.4, -1.22091, 0.0029, -0.21951, -0.68177, 0.2529, 7.5, -0.5096, 0, -0.0943, 6.75, 1000, 750, 2.5, 3.2, -0.84449, -0.15337, 0.6682, 0.3971, 0.7773⟩,
  ⟨3.6, -1.34547, 0.0029, -0.22724, -0.65918, 0.2529, 7.5, -0.5096, 0, -0.1278, 6.75, 1000, 750, 2.5, 3.2, -0.83216, -0.10884, 0.6508, 0.4211, 0.7752⟩,
  ⟨3.8, -1.3979, 0.0029, -0.2318, -0.65298, 0.2529, 7.5, -0.5096, 0, -0.1744, 6.75, 1000, 750, 2.5, 3.2, -0.79216, -0.08884, 0.6389, 0.415, 0.7619⟩,
  ⟨4, -1.37536, 0.0029, -0.23848, -0.66482, 0.2529, 7.5, -0.5096, 0, -0.2231, 6.75, 1000, 750, 2.5, 3.2, -0.75645, -0.07749, 0.6196, 0.3566, 0.7149⟩
]

/-- src/pygmm/data/akkar-sandikkaya-bommer-2014-dist_jb.csv, all rows -/
def jb : List Row := jb0 ++ jb1

/-- src/pygmm/data/akkar-sandikkaya-bommer-2014-dist_hyp.csv, part 1 of 2 -/
def hyp0 : List Row := [
  ⟨0, 3.26685, 0.0029, -0.04846, -1.47905, 0.2529, 7.5, -0.5096, -0.1091, 0.0937, 6.75, 1000, 750, 2.5, 3.2, -0.41997, -0.28846, 0.6475, 0.3472, 0.7347⟩,
  ⟨-1, 6.72743, 0.0029, -0.11474, -1.17694, 0.2529, 7.5, -0.5096, -0.0616, 0.063, 6.75, 1000, 750, 2.5, 3.2, -0.72057, -0.19688, 0.628, 0.3312, 0.71⟩,
  ⟨0.01, 3.28656, 0.0029, -0.04784, -1.48197, 0.2529, 7.5, -0.5096, -0.1115, 0.0953, 6.75, 1000, 750, 2.5, 3.2, -0.41729, -0.28685, 0.6492, 0.3481, 0.7366⟩,
  ⟨0.02, 3.38936, 0.0029, -0.04796, -1.50214, 0.2529, 7.5, -0.5096, -0.104, 0.1029, 6.75, 1000, 750, 2.5, 3.2, -0.39998, -0.28241, 0.6543, 0.3508, 0.7424⟩,
  ⟨0.03, 3.53155, 0.0029, -0.04537, -1.52781, 0.2529, 7.5, -0.5096, -0.0973, 0.1148, 6.75, 1000, 750, 2.5, 3.2, -0.34799, -0.26842, 0.6685, 0.3526, 0.7558⟩,
  ⟨0.04, 3.68895, 0.0029, -0.03991, -1.55693, 0.2529, 7.5, -0.5096, -0.0884, 0.1073, 6.75, 1000, 750, 2.5, 3.2, -0.27572, -0.24759, 0.6816, 0.3513, 0.7668⟩,
  ⟨0.05, 3.86581, 0.0029, -0.0349, -1.58672, 0.2529, 7.5, -0.5096, -0.0853, 0.1052, 6.75, 1000, 750, 2.5, 3.2, -0.21231, -0.22385, 0.6899, 0.3659, 0.7809⟩,
  ⟨0.075, 4.18224, 0.0029, -0.02826, -1.62527, 0.2529, 7.5, -0.5096, -0.0779, 0.0837, 6.75, 1000, 750, 2.5, 3.2, -0.14427, -0.17525, 0.6881, 0.3942, 0.793⟩,
  ⟨0.1, 4.4375, 0.0029, -0.03256, -1.65601, 0.2529, 7.5, -0.5096, -0.0749, 0.0761, 6.75, 1000, 750, 2.5, 3.2, -0.27064, -0.29293, 0.6936, 0.4122, 0.8068⟩,
  ⟨0.11, 4.48828, 0.0029, -0.03407, -1.65903, 0.2529, 7.5, -0.5096, -0.0704, 0.0707, 6.75, 1000, 750, 2.5, 3.2, -0.31025, -0.31837, 0.6965, 0.4065, 0.8064⟩,
  ⟨0.12, 4.51414, 0.0029, -0.03635, -1.6547, 0.2529, 7.5, -0.5096, -0.0604, 0.0653, 6.75, 1000, 750, 2.5, 3.2, -0.34796, -0.3386, 0.7022, 0.3964, 0.8064⟩,
  ⟨0.13, 4.5329, 0.0029, -0.03929, -1.64994, 0.2529, 7.5, -0.5096, -0.049, 0.0617, 6.75, 1000, 750, 2.5, 3.2, -0.39668, -0.36646, 0.7043, 0.3937, 0.8069⟩,
  ⟨0.14, 4.53834, 0.0029, -0.042, -1.64398, 0.2529, 7.5, -0.5096, -0.0377, 0.0581, 6.75, 1000, 750, 2.5, 3.2, -0.43996, -0.38417, 0.7071, 0.3853, 0.8053⟩,
  ⟨0.15, 4.52949, 0.0029, -0.04509, -1.63467, 0.2529, 7.5, -0.5096, -0.0265, 0.0545, 6.75, 1000, 750, 2.5, 3.2, -0.48313, -0.39551, 0.7048, 0.3779, 0.7997⟩,
  ⟨0.16, 4.47016, 0.0029, -0.04701, -1.61626, 0.2529, 7.5, -0.5096, -0.0194, 0.0509, 6.75, 1000, 750, 2.5, 3.2, -0.52431, -0.40869, 0.7032, 0.3851, 0.8017⟩,
  ⟨0.17, 4.40011, 0.0029, -0.04932, -1.59485, 0.2529, 7.5, -0.5096, -0.0125, 0.0507, 6.75, 1000, 750, 2.5, 3.2, -0.5568, -0.41528, 0.7011, 0.39, 0.8023⟩,
  ⟨0.18, 4.33238, 0.0029, -0.05181, -1.57545, 0.2529, 7.5, -0.5096, -0.0056, 0.0502, 6.75, 1000, 750, 2.5, 3.2, -0.58922, -0.42717, 0.6992, 0.3889, 0.8001⟩,
  ⟨0.19, 4.26395, 0.0029, -0.05442, -1.55685, 0.2529, 7.5, -0.5096, 0, 0.0497, 6.75, 1000, 750, 2.5, 3.2, -0.62635, -0.4413, 0.6947, 0.3903, 0.7968⟩,
  ⟨0.2, 4.1775, 0.0029, -0.05565, -1.53574, 0.2529, 7.5, -0.5096, 0, 0.0493, 6.75, 1000, 750, 2.5, 3.2, -0.65315, -0.44644, 0.6954, 0.3848, 0.7948⟩,
  ⟨0.22, 4.03111, 0.0029, -0.05817, -1.50045, 0.2529, 7.5, -0.5096, 0, 0.0488, 6.75, 1000, 750, 2.5, 3.2, -0.68711, -0.44872, 0.6925, 0.3891, 0.7943⟩,
  ⟨0.24, 3.90131, 0.0029, -0.06152, -1.46889, 0.2529, 7.5, -0.5096, 0, 0.0483, 6.75, 1000, 750, 2.5, 3.2, -0.72744, -0.46341, 0.6973, 0.3839, 0.796⟩,
  ⟨0.26, 3.82611, 0.0029, -0.06706, -1.44738, 0.2529, 7.5, -0.5096, 0, 0.0478, 6.75, 1000, 750, 2.5, 3.2, -0.77335, -0.48705, 0.6973, 0.3839, 0.796⟩,
  ⟨0.28, 3.6978, 0.0029, -0.0706, -1.41925, 0.2529, 7.5, -0.5096, 0, 0.0474, 6.75, 1000, 750, 2.5, 3.2, -0.80508, -0.47334, 0.6914, 0.3865, 0.7921⟩,
  ⟨0.3, 3.57698, 0.0029, -0.0749, -1.38832, 0.2529, 7.5, -0.5096, 0, 0.0469, 6.75, 1000, 750, 2.5, 3.2, -0.82609, -0.4573, 0.6934, 0.3896, 0.7954⟩,
  ⟨0.32, 3.40759, 0.0029, -0.07756, -1.34898, 0.2529, 7.5, -0.5096, 0, 0.0464, 6.75, 1000, 750, 2.5, 3.2, -0.8408, -0.44267, 0.6992, 0.3908, 0.801⟩,
  ⟨0.34, 3.2758, 0.0029, -0.08183, -1.31609, 0.2529, 7.5, -0.5096, 0, 0.0459, 6.75, 1000, 750, 2.5, 3.2, -0.86251, -0.43888, 0.699, 0.3888, 0.7999⟩,
  ⟨0.36, 3.19725, 0.0029, -0.08602, -1.29558, 0.2529, 7.5, -0.5096, 0, 0.0459, 6.75, 1000, 750, 2.5, 3.2, -0.87479, -0.4382, 0.7006, 0.3916, 0.8026⟩,
  ⟨0.38, 3.11035, 0.0029, -0.08937, -1.27591, 0.2529, 7.5, -0.5096, 0, 0.0429, 6.75, 1000, 750, 2.5, 3.2, -0.88522, -0.43678, 0.7036, 0.3913, 0.8051⟩,
  ⟨0.4, 3.03752, 0.0029, -0.09243, -1.26045, 0.2529, 7.5, -0.5096, 0, 0.04, 6.75, 1000, 750, 2.5, 3.2, -0.89517, -0.43008, 0.7037, 0.3894, 0.8043⟩,
  ⟨0.42, 2.97485, 0.0029, -0.09556, -1.24891, 0.2529, 7.5, -0.5096, 0, 0.0374, 6.75, 1000, 750, 2.5, 3.2, -0.90875, -0.4219, 0.7023, 0.3847, 0.8008⟩,
  ⟨0.44, 2.90617, 0.0029, -0.09822, -1.237, 0.2529, 7.5, -0.5096, 0, 0.0349, 6.75, 1000, 750, 2.5, 3.2, -0.91922, -0.40903, 0.6956, 0.3908, 0.7979⟩,
  ⟨0.46, 2.85484, 0.0029, -0.10132, -1.22822, 0.2529, 7.5, -0.5096, 0, 0.0323, 6.75, 1000, 750, 2.5, 3.2, -0.9267, -0.39442, 0.6893, 0.3986, 0.7963⟩,
  ⟨0.48, 2.8172, 0.0029, -0.1056, -1.21874, 0.2529, 7.5, -0.5096, 0, 0.0297, 6.75, 1000, 750, 2.5, 3.2, -0.9372, -0.38462, 0.6852, 0.4017, 0.7943⟩,
  ⟨0.5, 2.77997, 0.0029, -0.10964, -1.20953, 0.2529, 7.5, -0.5096, 0, 0.0271, 6.75, 1000, 750, 2.5, 3.2, -0.94614, -0.37408, 0.6821, 0.4017, 0.7916⟩,
  ⟨0.55, 2.62299, 0.0029, -0.11701, -1.1801, 0.2529, 7.5, -0.5096, 0, 0.0245, 6.75, 1000, 750, 2.5, 3.2, -0.96564, -0.35582, 0.6866, 0.4044, 0.7968⟩,
  ⟨0.6, 2.42234, 0.0029, -0.12106, -1.14424, 0.2529, 7.5, -0.5096, 0, 0.0219, 6.75, 1000, 750, 2.5, 3.2, -0.98499, -0.34053, 0.6926, 0.4005, 0.8001⟩,
  ⟨0.65, 2.2277, 0.0029, -0.12555, -1.10853, 0.2529, 7.5, -0.5096, 0, 0.0193, 6.75, 1000, 750, 2.5, 3.2, -0.99733, -0.30949, 0.6949, 0.3981, 0.8009⟩,
  ⟨0.7, 2.08102, 0.0029, -0.13074, -1.08192, 0.2529, 7.5, -0.5096, 0, 0.0167, 6.75, 1000, 750, 2.5, 3.2, -1.00469, -0.28772, 0.6993, 0.3967, 0.804⟩,
  ⟨0.75, 1.91625, 0.0029, -0.13547, -1.05027, 0.2529, 7.5, -0.5096, 0, 0.0141, 6.75, 1000, 750, 2.5, 3.2, -1.00786, -0.28957, 0.7028, 0.389, 0.8033⟩,
  ⟨0.8, 1.81167, 0.0029, -0.13856, -1.03514, 0.2529, 7.5, -0.5096, 0, 0.0115, 6.75, 1000, 750, 2.5, 3.2, -1.00606, -0.28555, 0.6981, 0.3824, 0.796⟩
]

/-- src/pygmm/data/akkar-sandikkaya-bommer-2014-dist_hyp.csv, part 2 of 2 -/
def hyp1 : List Row := [
  ⟨0.85, 1.71853, 0.0029, -0.14294, -1.0201, 0.2529, 7.5, -0.5096, 0, 0.0089, 6.75, 1000, 750, 2.5, 3.2, -1.01093, -0.28364, 0.6959, 0.3831, 0.7944⟩,
  ⟨0.9, 1.60822, 0.0029, -0.14669, -1.00315, 0.2529, 7.5, -0.5096, 0, 0.0062, 6.75, 1000, 750, 2.5, 3.2, -1.01576, -0.28037, 0.6983, 0.3825, 0.7962⟩,
  ⟨0.95, 1.51532, 0.0029, -0.15056, -0.98859, 0.2529, 7.5, -0.5096, 0, 0.0016, 6.75, 1000, 750, 2.5, 3.2, -1.01353, -0.2839, 0.7006, 0.3797, 0.7969⟩,
  ⟨1, 1.43982, 0.0029, -0.15427, -0.97812, 0.2529, 7.5, -0.5096, 0, 0, 6.75, 1000, 750, 2.5, 3.2, -1.01331, -0.28702, 0.7022, 0.3826, 0.7997⟩,
  ⟨1.1, 1.26728, 0.0029, -0.16107, -0.95163, 0.2529, 7.5, -0.5096, 0, 0, 6.75, 1000, 750, 2.5, 3.2, -1.0124, -0.27669, 0.7137, 0.3721, 0.8049⟩,
  ⟨1.2, 1.11475, 0.0029, -0.1663, -0.93048, 0.2529, 7.5, -0.5096, 0, 0, 6.75, 1000, 750, 2.5, 3.2, -1.00489, -0.27538, 0.7224, 0.3723, 0.8127⟩,
  ⟨1.3, 0.95965, 0.0029, -0.1717, -0.90604, 0.2529, 7.5, -0.5096, 0, 0, 6.75, 1000, 750, 2.5, 3.2, -0.98876, -0.25008, 0.7226, 0.3746, 0.8139⟩,
  ⟨1.4, 0.85203, 0.0029, -0.17699, -0.89379, 0.2529, 7.5, -0.5096, 0, 0, 6.75, 1000, 750, 2.5, 3.2, -0.9776, -0.23508, 0.7349, 0.3697, 0.8227⟩,
  ⟨1.5, 0.83007, 0.0029, -0.18248, -0.90319, 0.2529, 7.5, -0.5096, 0, 0, 6.75, 1000, 750, 2.5, 3.2, -0.98071, -0.24695, 0.7378, 0.3758, 0.828⟩,
  ⟨1.6, 0.74487, 0.0029, -0.18787, -0.89323, 0.2529, 7.5, -0.5096, 0, 0, 6.75, 1000, 750, 2.5, 3.2, -0.96369, -0.2287, 0.7406, 0.3794, 0.8321⟩,
  ⟨1.7, 0.63568, 0.0029, -0.18961, -0.88392, 0.2529, 7.5, -0.5096, 0, 0, 6.75, 1000, 750, 2.5, 3.2, -0.94634, -0.21655, 0.7418, 0.3686, 0.8283⟩,
  ⟨1.8, 0.56996, 0.0029, -0.19551, -0.87459, 0.2529, 7.5, -0.5096, 0, -0.003, 6.75, 1000, 750, 2.5, 3.2, -0.93606, -0.20302, 0.7431, 0.3692, 0.8298⟩,
  ⟨1.9, 0.485, 0.0029, -0.19853, -0.86659, 0.2529, 7.5, -0.5096, 0, -0.006, 6.75, 1000, 750, 2.5, 3.2, -0.91408, -0.18228, 0.7457, 0.3705, 0.8327⟩,
  ⟨2, 0.40614, 0.0029, -0.20136, -0.86343, 0.2529, 7.5, -0.5096, 0, -0.009, 6.75, 1000, 750, 2.5, 3.2, -0.91007, -0.17336, 0.7446, 0.3676, 0.8304⟩,
  ⟨2.2, 0.28608, 0.0029, -0.20791, -0.86086, 0.2529, 7.5, -0.5096, 0, -0.0141, 6.75, 1000, 750, 2.5, 3.2, -0.89376, -0.15463, 0.7391, 0.3718, 0.8273⟩,
  ⟨2.4, 0.15432, 0.0029, -0.2148, -0.84778, 0.2529, 7.5, -0.5096, 0, -0.0284, 6.75, 1000, 750, 2.5, 3.2, -0.87052, -0.13181, 0.7311, 0.3941, 0.8306⟩,
  ⟨2.6, 0.0225, 0.0029, -0.21843, -0.83937, 0.2529, 7.5, -0.5096, 0, -0.0408, 6.75, 1000, 750, 2.5, 3.2, -0.85889, -0.14066, 0.7281, 0.3967, 0.8292⟩,
  ⟨2.8, -0.07822, 0.0029, -0.22224, -0.83964, 0.2529, 7.5, -0.5096, 0, -0.0534, 6.75, 1000, 750, 2.5, 3.2, -0.86106, -0.13882, 0.7279, 0.3987, 0.8299⟩,
  ⟨3, -0.22534, 0.0029, -0.22564, -0.83314, 0.2529, 7.5, -0.5096, 0, -0.0683, 6.75, 1000, 750, 2.5, 3.2, -0.85793, -0.13336, 0.7154, 0.4019, 0.8206⟩,
  ⟨3.2, -0.36165, 0.0029, -0.22496, -0.81702, 0.2529, 7.5, -0.5096, 0, -0.078, 6.75, 1000, 750, 2.5, 3.2, -0.82094, -0.1377, 0.6984, 0.4113, 0.8105⟩,
  ⟨3.4, -0.39423, 0.0029, -0.23237, -0.82109, 0.2529, 7.5, -0.5096, 0, -0.0943, 6.75, 1000, 750, 2.5, 3.2, -0.84449, -0.15337, 0.6867, 0.38, 0.7848⟩,
  ⟨3.6, -0.54126, 0.0029, -0.24003, -0.79431, 0.2529, 7.5, -0.5096, 0, -0.1278, 6.75, 1000, 750, 2.5, 3.2, -0.83216, -0.10884, 0.6687, 0.4009, 0.7797⟩,
  ⟨3.8, -0.59607, 0.0029, -0.24448, -0.78785, 0.2529, 7.5, -0.5096, 0, -0.1744, 6.75, 1000, 750, 2.5, 3.2, -0.79216, -0.08884, 0.6565, 0.3952, 0.7663⟩,
  ⟨4, -0.51893, 0.0029, -0.25256, -0.80922, 0.2529, 7.5, -0.5096, 0, -0.2231, 6.75, 1000, 750, 2.5, 3.2, -0.75645, -0.07749, 0.6364, 0.3318, 0.7177⟩
]

/-- src/pygmm/data/akkar-sandikkaya-bommer-2014-dist_hyp.csv, all rows -/
def hyp : List Row := hyp0 ++ hyp1

/-- src/pygmm/data/akkar-sandikkaya-bommer-2014-dist_epi.csv, part 1 of 2 -/
def epi0 : List Row := [
  ⟨0, 2.52977, 0.0029, -0.05496, -1.31001, 0.2529, 7.5, -0.5096, -0.1091, 0.0937, 6.75, 1000, 750, 2.5, 3.2, -0.41997, -0.28846, 0.6375, 0.3581, 0.7312⟩,
  ⟨-1, 6.13498, 0.0029, -0.12091, -1.04013, 0.2529, 7.5, -0.5096, -0.0616, 0.063, 6.75, 1000, 750, 2.5, 3.2, -0.72057, -0.19688, 0.6143, 0.3485, 0.7063⟩,
  ⟨0.01, 2.54832, 0.0029, -0.05434, -1.31268, 0.2529, 7.5, -0.5096, -0.1115, 0.0953, 6.75, 1000, 750, 2.5, 3.2, -0.41729, -0.28685, 0.6389, 0.3607, 0.7337⟩,
  ⟨0.02, 2.6442, 0.0029, -0.05452, -1.33135, 0.2529, 7.5, -0.5096, -0.104, 0.1029, 6.75, 1000, 750, 2.5, 3.2, -0.39998, -0.28241, 0.6434, 0.3615, 0.738⟩,
  ⟨0.03, 2.77723, 0.0029, -0.05196, -1.35509, 0.2529, 7.5, -0.5096, -0.0973, 0.1148, 6.75, 1000, 750, 2.5, 3.2, -0.34799, -0.26842, 0.6569, 0.3617, 0.7499⟩,
  ⟨0.04, 2.92666, 0.0029, -0.04657, -1.38259, 0.2529, 7.5, -0.5096, -0.0884, 0.1073, 6.75, 1000, 750, 2.5, 3.2, -0.27572, -0.24759, 0.6693, 0.353, 0.7567⟩,
  ⟨0.05, 3.09355, 0.0029, -0.04168, -1.41008, 0.2529, 7.5, -0.5096, -0.0853, 0.1052, 6.75, 1000, 750, 2.5, 3.2, -0.21231, -0.22385, 0.6773, 0.3612, 0.7676⟩,
  ⟨0.075, 3.38462, 0.0029, -0.03506, -1.44268, 0.2529, 7.5, -0.5096, -0.0779, 0.0837, 6.75, 1000, 750, 2.5, 3.2, -0.14427, -0.17525, 0.6791, 0.3853, 0.7808⟩,
  ⟨0.1, 3.61906, 0.0029, -0.03936, -1.4687, 0.2529, 7.5, -0.5096, -0.0749, 0.0761, 6.75, 1000, 750, 2.5, 3.2, -0.27064, -0.29293, 0.6851, 0.416, 0.8015⟩,
  ⟨0.11, 3.66537, 0.0029, -0.04081, -1.47079, 0.2529, 7.5, -0.5096, -0.0704, 0.0707, 6.75, 1000, 750, 2.5, 3.2, -0.31025, -0.31837, 0.6884, 0.4163, 0.8045⟩,
  ⟨0.12, 3.68544, 0.0029, -0.04295, -1.4652, 0.2529, 7.5, -0.5096, -0.0604, 0.0653, 6.75, 1000, 750, 2.5, 3.2, -0.34796, -0.3386, 0.696, 0.4118, 0.8087⟩,
  ⟨0.13, 3.70155, 0.0029, -0.04581, -1.45986, 0.2529, 7.5, -0.5096, -0.049, 0.0617, 6.75, 1000, 750, 2.5, 3.2, -0.39668, -0.36646, 0.6997, 0.4102, 0.8111⟩,
  ⟨0.14, 3.70871, 0.0029, -0.04848, -1.45433, 0.2529, 7.5, -0.5096, -0.0377, 0.0581, 6.75, 1000, 750, 2.5, 3.2, -0.43996, -0.38417, 0.7032, 0.4028, 0.8104⟩,
  ⟨0.15, 3.70477, 0.0029, -0.05156, -1.44613, 0.2529, 7.5, -0.5096, -0.0265, 0.0545, 6.75, 1000, 750, 2.5, 3.2, -0.48313, -0.39551, 0.7011, 0.3978, 0.8061⟩,
  ⟨0.16, 3.65565, 0.0029, -0.0535, -1.42989, 0.2529, 7.5, -0.5096, -0.0194, 0.0509, 6.75, 1000, 750, 2.5, 3.2, -0.52431, -0.40869, 0.6997, 0.3989, 0.8054⟩,
  ⟨0.17, 3.59764, 0.0029, -0.05583, -1.4111, 0.2529, 7.5, -0.5096, -0.0125, 0.0507, 6.75, 1000, 750, 2.5, 3.2, -0.5568, -0.41528, 0.697, 0.403, 0.8051⟩,
  ⟨0.18, 3.53732, 0.0029, -0.0583, -1.39329, 0.2529, 7.5, -0.5096, -0.0056, 0.0502, 6.75, 1000, 750, 2.5, 3.2, -0.58922, -0.42717, 0.6956, 0.4041, 0.8045⟩,
  ⟨0.19, 3.47722, 0.0029, -0.0609, -1.37648, 0.2529, 7.5, -0.5096, 0, 0.0497, 6.75, 1000, 750, 2.5, 3.2, -0.62635, -0.4413, 0.6915, 0.4017, 0.7997⟩,
  ⟨0.2, 3.40112, 0.0029, -0.0621, -1.3577, 0.2529, 7.5, -0.5096, 0, 0.0493, 6.75, 1000, 750, 2.5, 3.2, -0.65315, -0.44644, 0.6922, 0.3965, 0.7977⟩,
  ⟨0.22, 3.27214, 0.0029, -0.06461, -1.32624, 0.2529, 7.5, -0.5096, 0, 0.0488, 6.75, 1000, 750, 2.5, 3.2, -0.68711, -0.44872, 0.6893, 0.4005, 0.7972⟩,
  ⟨0.24, 3.15842, 0.0029, -0.06791, -1.29833, 0.2529, 7.5, -0.5096, 0, 0.0483, 6.75, 1000, 750, 2.5, 3.2, -0.72744, -0.46341, 0.6942, 0.3919, 0.7972⟩,
  ⟨0.26, 3.09498, 0.0029, -0.07344, -1.27945, 0.2529, 7.5, -0.5096, 0, 0.0478, 6.75, 1000, 750, 2.5, 3.2, -0.77335, -0.48705, 0.6938, 0.3898, 0.7958⟩,
  ⟨0.28, 2.9809, 0.0029, -0.07698, -1.25442, 0.2529, 7.5, -0.5096, 0, 0.0474, 6.75, 1000, 750, 2.5, 3.2, -0.80508, -0.47334, 0.6877, 0.3883, 0.7898⟩,
  ⟨0.3, 2.87449, 0.0029, -0.08126, -1.22665, 0.2529, 7.5, -0.5096, 0, 0.0469, 6.75, 1000, 750, 2.5, 3.2, -0.82609, -0.4573, 0.6897, 0.3894, 0.792⟩,
  ⟨0.32, 2.72364, 0.0029, -0.08387, -1.19143, 0.2529, 7.5, -0.5096, 0, 0.0464, 6.75, 1000, 750, 2.5, 3.2, -0.8408, -0.44267, 0.6947, 0.3941, 0.7987⟩,
  ⟨0.34, 2.60904, 0.0029, -0.08816, -1.16231, 0.2529, 7.5, -0.5096, 0, 0.0459, 6.75, 1000, 750, 2.5, 3.2, -0.86251, -0.43888, 0.6939, 0.3937, 0.7978⟩,
  ⟨0.36, 2.54266, 0.0029, -0.09239, -1.14444, 0.2529, 7.5, -0.5096, 0, 0.0459, 6.75, 1000, 750, 2.5, 3.2, -0.87479, -0.4382, 0.6945, 0.3997, 0.8013⟩,
  ⟨0.38, 2.46615, 0.0029, -0.09576, -1.127, 0.2529, 7.5, -0.5096, 0, 0.0429, 6.75, 1000, 750, 2.5, 3.2, -0.88522, -0.43678, 0.6971, 0.4012, 0.8043⟩,
  ⟨0.4, 2.40119, 0.0029, -0.09885, -1.11318, 0.2529, 7.5, -0.5096, 0, 0.04, 6.75, 1000, 750, 2.5, 3.2, -0.89517, -0.43008, 0.6971, 0.4012, 0.8043⟩,
  ⟨0.42, 2.3454, 0.0029, -0.10198, -1.10318, 0.2529, 7.5, -0.5096, 0, 0.0374, 6.75, 1000, 750, 2.5, 3.2, -0.90875, -0.4219, 0.6955, 0.3946, 0.7996⟩,
  ⟨0.44, 2.28213, 0.0029, -0.10464, -1.09241, 0.2529, 7.5, -0.5096, 0, 0.0349, 6.75, 1000, 750, 2.5, 3.2, -0.91922, -0.40903, 0.6891, 0.3985, 0.796⟩,
  ⟨0.46, 2.2344, 0.0029, -0.10771, -1.08445, 0.2529, 7.5, -0.5096, 0, 0.0323, 6.75, 1000, 750, 2.5, 3.2, -0.9267, -0.39442, 0.6825, 0.4056, 0.7939⟩,
  ⟨0.48, 2.20123, 0.0029, -0.11199, -1.07592, 0.2529, 7.5, -0.5096, 0, 0.0297, 6.75, 1000, 750, 2.5, 3.2, -0.9372, -0.38462, 0.6785, 0.4068, 0.7911⟩,
  ⟨0.5, 2.16953, 0.0029, -0.11604, -1.06795, 0.2529, 7.5, -0.5096, 0, 0.0271, 6.75, 1000, 750, 2.5, 3.2, -0.94614, -0.37408, 0.6751, 0.4065, 0.788⟩,
  ⟨0.55, 2.03012, 0.0029, -0.12344, -1.04242, 0.2529, 7.5, -0.5096, 0, 0.0245, 6.75, 1000, 750, 2.5, 3.2, -0.96564, -0.35582, 0.6788, 0.4087, 0.7923⟩,
  ⟨0.6, 1.84644, 0.0029, -0.12745, -1.01046, 0.2529, 7.5, -0.5096, 0, 0.0219, 6.75, 1000, 750, 2.5, 3.2, -0.98499, -0.34053, 0.6845, 0.4085, 0.7971⟩,
  ⟨0.65, 1.6676, 0.0029, -0.13195, -0.97801, 0.2529, 7.5, -0.5096, 0, 0.0193, 6.75, 1000, 750, 2.5, 3.2, -0.99733, -0.30949, 0.6857, 0.4128, 0.8004⟩,
  ⟨0.7, 1.53432, 0.0029, -0.13715, -0.95428, 0.2529, 7.5, -0.5096, 0, 0.0167, 6.75, 1000, 750, 2.5, 3.2, -1.00469, -0.28772, 0.6902, 0.4101, 0.8028⟩,
  ⟨0.75, 1.38296, 0.0029, -0.14169, -0.92585, 0.2529, 7.5, -0.5096, 0, 0.0141, 6.75, 1000, 750, 2.5, 3.2, -1.00786, -0.28957, 0.6937, 0.4011, 0.8013⟩,
  ⟨0.8, 1.28662, 0.0029, -0.14485, -0.91241, 0.2529, 7.5, -0.5096, 0, 0.0115, 6.75, 1000, 750, 2.5, 3.2, -1.00606, -0.28555, 0.6884, 0.3962, 0.7943⟩
]

/-- src/pygmm/data/akkar-sandikkaya-bommer-2014-dist_epi.csv, part 2 of 2 -/
def epi1 : List Row := [
  ⟨0.85, 1.20114, 0.0029, -0.14922, -0.89909, 0.2529, 7.5, -0.5096, 0, 0.0089, 6.75, 1000, 750, 2.5, 3.2, -1.01093, -0.28364, 0.6866, 0.3951, 0.7922⟩,
  ⟨0.9, 1.09991, 0.0029, -0.1532, -0.88377, 0.2529, 7.5, -0.5096, 0, 0.0062, 6.75, 1000, 750, 2.5, 3.2, -1.01576, -0.28037, 0.6881, 0.3979, 0.7949⟩,
  ⟨0.95, 1.01256, 0.0029, -0.157, -0.8705, 0.2529, 7.5, -0.5096, 0, 0.0016, 6.75, 1000, 750, 2.5, 3.2, -1.01353, -0.2839, 0.6904, 0.3955, 0.7957⟩,
  ⟨1, 0.94162, 0.0029, -0.16069, -0.86109, 0.2529, 7.5, -0.5096, 0, 0, 6.75, 1000, 750, 2.5, 3.2, -1.01331, -0.28702, 0.6922, 0.3965, 0.7977⟩,
  ⟨1.1, 0.78017, 0.0029, -0.16727, -0.83743, 0.2529, 7.5, -0.5096, 0, 0, 6.75, 1000, 750, 2.5, 3.2, -1.0124, -0.27669, 0.7047, 0.3819, 0.8015⟩,
  ⟨1.2, 0.63219, 0.0029, -0.17174, -0.81877, 0.2529, 7.5, -0.5096, 0, 0, 6.75, 1000, 750, 2.5, 3.2, -1.00489, -0.27538, 0.7138, 0.3807, 0.809⟩,
  ⟨1.3, 0.48905, 0.0029, -0.17712, -0.79698, 0.2529, 7.5, -0.5096, 0, 0, 6.75, 1000, 750, 2.5, 3.2, -0.98876, -0.25008, 0.7137, 0.3827, 0.8098⟩,
  ⟨1.4, 0.38492, 0.0029, -0.18237, -0.78548, 0.2529, 7.5, -0.5096, 0, 0, 6.75, 1000, 750, 2.5, 3.2, -0.9776, -0.23508, 0.7263, 0.3787, 0.8191⟩,
  ⟨1.5, 0.36315, 0.0029, -0.1879, -0.79498, 0.2529, 7.5, -0.5096, 0, 0, 6.75, 1000, 750, 2.5, 3.2, -0.98071, -0.24695, 0.7287, 0.3821, 0.8228⟩,
  ⟨1.6, 0.28812, 0.0029, -0.19363, -0.78665, 0.2529, 7.5, -0.5096, 0, 0, 6.75, 1000, 750, 2.5, 3.2, -0.96369, -0.2287, 0.7307, 0.3854, 0.8261⟩,
  ⟨1.7, 0.18172, 0.0029, -0.19545, -0.77778, 0.2529, 7.5, -0.5096, 0, 0, 6.75, 1000, 750, 2.5, 3.2, -0.94634, -0.21655, 0.7322, 0.3751, 0.8227⟩,
  ⟨1.8, 0.13021, 0.0029, -0.20069, -0.77282, 0.2529, 7.5, -0.5096, 0, -0.003, 6.75, 1000, 750, 2.5, 3.2, -0.93606, -0.20302, 0.7316, 0.3749, 0.8221⟩,
  ⟨1.9, 0.05074, 0.0029, -0.20386, -0.76574, 0.2529, 7.5, -0.5096, 0, -0.006, 6.75, 1000, 750, 2.5, 3.2, -0.91408, -0.18228, 0.7341, 0.3761, 0.8248⟩,
  ⟨2, -0.02806, 0.0029, -0.20666, -0.7626, 0.2529, 7.5, -0.5096, 0, -0.009, 6.75, 1000, 750, 2.5, 3.2, -0.91007, -0.17336, 0.7333, 0.3734, 0.8229⟩,
  ⟨2.2, -0.15016, 0.0029, -0.21319, -0.75952, 0.2529, 7.5, -0.5096, 0, -0.0141, 6.75, 1000, 750, 2.5, 3.2, -0.89376, -0.15463, 0.7277, 0.3794, 0.8207⟩,
  ⟨2.4, -0.26608, 0.0029, -0.2196, -0.75011, 0.2529, 7.5, -0.5096, 0, -0.0284, 6.75, 1000, 750, 2.5, 3.2, -0.87052, -0.13181, 0.7199, 0.4025, 0.8248⟩,
  ⟨2.6, -0.39025, 0.0029, -0.2233, -0.74326, 0.2529, 7.5, -0.5096, 0, -0.0408, 6.75, 1000, 750, 2.5, 3.2, -0.85889, -0.14066, 0.7171, 0.4049, 0.8235⟩,
  ⟨2.8, -0.49742, 0.0029, -0.22716, -0.74185, 0.2529, 7.5, -0.5096, 0, -0.0534, 6.75, 1000, 750, 2.5, 3.2, -0.86106, -0.13882, 0.7175, 0.409, 0.8259⟩,
  ⟨3, -0.64241, 0.0029, -0.23038, -0.73634, 0.2529, 7.5, -0.5096, 0, -0.0683, 6.75, 1000, 750, 2.5, 3.2, -0.85793, -0.13336, 0.7051, 0.4115, 0.8164⟩,
  ⟨3.2, -0.7667, 0.0029, -0.23049, -0.72149, 0.2529, 7.5, -0.5096, 0, -0.078, 6.75, 1000, 750, 2.5, 3.2, -0.82094, -0.1377, 0.6876, 0.428, 0.8099⟩,
  ⟨3.4, -0.80566, 0.0029, -0.23726, -0.72539, 0.2529, 7.5, -0.5096, 0, -0.0943, 6.75, 1000, 750, 2.5, 3.2, -0.84449, -0.15337, 0.675, 0.4029, 0.7861⟩,
  ⟨3.6, -0.945, 0.0029, -0.24437, -0.70115, 0.2529, 7.5, -0.5096, 0, -0.1278, 6.75, 1000, 750, 2.5, 3.2, -0.83216, -0.10884, 0.6571, 0.4252, 0.7827⟩,
  ⟨3.8, -0.98457, 0.0029, -0.2493, -0.69696, 0.2529, 7.5, -0.5096, 0, -0.1744, 6.75, 1000, 750, 2.5, 3.2, -0.79216, -0.08884, 0.6438, 0.4243, 0.771⟩,
  ⟨4, -0.93329, 0.0029, -0.25756, -0.7121, 0.2529, 7.5, -0.5096, 0, -0.2231, 6.75, 1000, 750, 2.5, 3.2, -0.75645, -0.07749, 0.6241, 0.3659, 0.7235⟩
]

/-- src/pygmm/data/akkar-sandikkaya-bommer-2014-dist_epi.csv, all rows -/
def epi : List Row := epi0 ++ epi1

end AKB14
