import Mathlib.Data.Rat.Defs
import Mathlib.Algebra.Order.Ring.Rat
import Mathlib.Tactic.NormNum

/-! Generated by tools/gen_data.py from src/pygmm/data/bayless_abrahamson_2018.csv
(loaded in src/pygmm/bayless_abrahamson_2018.py line 25).  Do not edit. -/

namespace BA18

/-- one row of bayless_abrahamson_2018.csv: the columns of the file, in order -/
structure Row where
  freq_hz : ℚ
  A : ℚ
  B : ℚ
  C : ℚ
  D : ℚ
  tau : ℚ
  phi_s2s : ℚ
  phi_s : ℚ
  sigma : ℚ

/-- src/pygmm/data/bayless_abrahamson_2018.csv, part 1 of 6 -/
def table0 : List Row := [
  ⟨0.1, 1.0477, -0.5461, 1.6879, -10.4778, 0.5613, 0.2441, 0.4036, 0.7332⟩,
  ⟨0.1023, 1.0497, -0.5474, 1.6847, -10.9655, 0.5688, 0.2588, 0.4083, 0.7465⟩,
  ⟨0.1047, 1.0517, -0.5487, 1.6815, -11.453, 0.5664, 0.2657, 0.4073, 0.7465⟩,
  ⟨0.1072, 1.0537, -0.5501, 1.6783, -11.9401, 0.5667, 0.277, 0.4025, 0.7482⟩,
  ⟨0.1096, 1.0557, -0.5514, 1.6751, -12.4268, 0.5612, 0.2797, 0.4038, 0.7458⟩,
  ⟨0.1122, 1.0577, -0.5528, 1.672, -12.9132, 0.556, 0.2785, 0.4044, 0.7418⟩,
  ⟨0.1148, 1.0597, -0.5541, 1.6688, -13.3992, 0.5392, 0.2711, 0.4082, 0.7286⟩,
  ⟨0.1175, 1.0616, -0.5555, 1.6657, -13.8849, 0.5348, 0.2713, 0.4093, 0.7261⟩,
  ⟨0.1202, 1.0636, -0.5568, 1.6626, -14.3701, 0.5388, 0.2787, 0.4033, 0.7285⟩,
  ⟨0.123, 1.0656, -0.5582, 1.6594, -14.855, 0.5354, 0.2884, 0.3987, 0.7272⟩,
  ⟨0.1259, 1.0676, -0.5596, 1.6563, -15.3395, 0.5351, 0.3132, 0.4068, 0.7415⟩,
  ⟨0.1288, 1.0696, -0.5609, 1.6533, -15.8235, 0.5428, 0.3201, 0.4062, 0.7497⟩,
  ⟨0.1318, 1.0716, -0.5623, 1.6502, -16.3072, 0.5484, 0.3275, 0.4019, 0.7547⟩,
  ⟨0.1349, 1.0736, -0.5637, 1.6471, -16.7904, 0.5564, 0.3363, 0.399, 0.7628⟩,
  ⟨0.138, 1.0755, -0.5651, 1.6441, -17.2732, 0.5815, 0.349, 0.3957, 0.7852⟩,
  ⟨0.1413, 1.0775, -0.5665, 1.641, -17.7556, 0.5721, 0.3646, 0.3927, 0.7838⟩,
  ⟨0.1445, 1.0795, -0.5679, 1.638, -18.2376, 0.5661, 0.3688, 0.3958, 0.783⟩,
  ⟨0.1479, 1.0815, -0.5693, 1.635, -18.7191, 0.5624, 0.3609, 0.4047, 0.7812⟩,
  ⟨0.1514, 1.0835, -0.5707, 1.632, -19.2001, 0.578, 0.364, 0.4027, 0.7929⟩,
  ⟨0.1549, 1.0854, -0.5721, 1.629, -19.6807, 0.5786, 0.371, 0.3967, 0.7936⟩,
  ⟨0.1585, 1.0874, -0.5735, 1.626, -20.1609, 0.5708, 0.3663, 0.3979, 0.7863⟩,
  ⟨0.1622, 1.0894, -0.575, 1.623, -20.6406, 0.5886, 0.3603, 0.4016, 0.7985⟩,
  ⟨0.166, 1.0914, -0.5764, 1.6201, -21.1198, 0.5807, 0.3519, 0.4139, 0.7952⟩,
  ⟨0.1698, 1.0933, -0.5778, 1.6171, -21.5986, 0.5748, 0.3444, 0.4227, 0.7923⟩,
  ⟨0.1738, 1.0953, -0.5793, 1.6142, -22.0768, 0.5581, 0.3466, 0.4257, 0.7828⟩,
  ⟨0.1778, 1.0973, -0.5807, 1.6113, -22.5547, 0.5547, 0.3526, 0.4214, 0.7808⟩,
  ⟨0.182, 1.0992, -0.5822, 1.6083, -23.032, 0.5579, 0.3646, 0.4152, 0.7852⟩,
  ⟨0.1862, 1.1012, -0.5836, 1.6054, -23.5088, 0.5588, 0.371, 0.414, 0.7882⟩,
  ⟨0.1905, 1.1032, -0.5851, 1.6025, -23.9852, 0.576, 0.3693, 0.4224, 0.8041⟩,
  ⟨0.195, 1.1051, -0.5865, 1.5997, -24.4611, 0.58, 0.3747, 0.4178, 0.807⟩,
  ⟨0.1995, 1.1071, -0.588, 1.5968, -24.9364, 0.5853, 0.3685, 0.4184, 0.8084⟩,
  ⟨0.2042, 1.1091, -0.5895, 1.5939, -25.4113, 0.5847, 0.3615, 0.4189, 0.805⟩,
  ⟨0.2089, 1.111, -0.591, 1.5911, -25.8857, 0.575, 0.3521, 0.4241, 0.7965⟩,
  ⟨0.2138, 1.113, -0.5924, 1.5883, -26.3596, 0.5826, 0.343, 0.4285, 0.8004⟩,
  ⟨0.2188, 1.1149, -0.5939, 1.5854, -26.8329, 0.5879, 0.3375, 0.4293, 0.8023⟩,
  ⟨0.2239, 1.1169, -0.5954, 1.5826, -27.3058, 0.5869, 0.3392, 0.4251, 0.8002⟩,
  ⟨0.2291, 1.1188, -0.5969, 1.5798, -27.7782, 0.5727, 0.3513, 0.4242, 0.7946⟩,
  ⟨0.2344, 1.1208, -0.5984, 1.577, -28.25, 0.5626, 0.3583, 0.4235, 0.7901⟩,
  ⟨0.2399, 1.1227, -0.5999, 1.5742, -28.7214, 0.5646, 0.3606, 0.4229, 0.7922⟩,
  ⟨0.2455, 1.1247, -0.6014, 1.5714, -29.1922, 0.5501, 0.3548, 0.4284, 0.7823⟩
]

/-- src/pygmm/data/bayless_abrahamson_2018.csv, part 2 of 6 -/
def table1 : List Row := [
  ⟨0.2512, 1.1267, -0.6029, 1.5687, -29.6625, 0.5684, 0.3531, 0.4329, 0.7969⟩,
  ⟨0.257, 1.1286, -0.6045, 1.5659, -30.1324, 0.5699, 0.3563, 0.4326, 0.7993⟩,
  ⟨0.263, 1.1305, -0.606, 1.5632, -30.6017, 0.5842, 0.3571, 0.4307, 0.8088⟩,
  ⟨0.2692, 1.1325, -0.6075, 1.5604, -31.0705, 0.5868, 0.361, 0.4292, 0.8117⟩,
  ⟨0.2754, 1.1344, -0.609, 1.5577, -31.5388, 0.5771, 0.3605, 0.4322, 0.8061⟩,
  ⟨0.2818, 1.1364, -0.6106, 1.555, -32.0065, 0.5837, 0.3691, 0.4268, 0.8118⟩,
  ⟨0.2884, 1.1383, -0.6121, 1.5522, -32.4738, 0.5966, 0.3757, 0.427, 0.8243⟩,
  ⟨0.2951, 1.1403, -0.6137, 1.5495, -32.9406, 0.5947, 0.3806, 0.4289, 0.8261⟩,
  ⟨0.302, 1.1422, -0.6152, 1.5468, -33.4069, 0.6013, 0.3772, 0.4327, 0.8313⟩,
  ⟨0.309, 1.1442, -0.6168, 1.5441, -33.8727, 0.5978, 0.3719, 0.4376, 0.829⟩,
  ⟨0.3162, 1.1461, -0.6183, 1.5414, -34.3381, 0.6027, 0.3821, 0.4337, 0.8351⟩,
  ⟨0.3236, 1.148, -0.6199, 1.5388, -34.803, 0.6068, 0.3887, 0.4329, 0.8406⟩,
  ⟨0.3311, 1.15, -0.6214, 1.5361, -35.2674, 0.6028, 0.3908, 0.4338, 0.8392⟩,
  ⟨0.3388, 1.1519, -0.623, 1.5334, -35.7314, 0.612, 0.3857, 0.437, 0.8451⟩,
  ⟨0.3467, 1.1538, -0.6246, 1.5307, -36.195, 0.6173, 0.3765, 0.4355, 0.8441⟩,
  ⟨0.3548, 1.1558, -0.6261, 1.5281, -36.6582, 0.6214, 0.3751, 0.4328, 0.8451⟩,
  ⟨0.3631, 1.1577, -0.6277, 1.5254, -37.1209, 0.6275, 0.3863, 0.4356, 0.8561⟩,
  ⟨0.3715, 1.1596, -0.6293, 1.5227, -37.5834, 0.6209, 0.4036, 0.4302, 0.8564⟩,
  ⟨0.3802, 1.1616, -0.6309, 1.5201, -38.0454, 0.6057, 0.3901, 0.4417, 0.8451⟩,
  ⟨0.389, 1.1635, -0.6324, 1.5174, -38.5072, 0.6085, 0.3891, 0.4406, 0.846⟩,
  ⟨0.3981, 1.1654, -0.634, 1.5148, -38.9685, 0.6033, 0.3899, 0.4429, 0.8439⟩,
  ⟨0.4074, 1.1674, -0.6356, 1.5122, -39.4296, 0.5986, 0.3859, 0.4481, 0.8414⟩,
  ⟨0.4169, 1.1693, -0.6372, 1.5095, -39.8902, 0.6068, 0.3845, 0.4456, 0.8454⟩,
  ⟨0.4266, 1.1712, -0.6388, 1.5069, -40.3503, 0.6063, 0.3895, 0.4415, 0.8451⟩,
  ⟨0.4365, 1.1732, -0.6404, 1.5043, -40.8099, 0.596, 0.3912, 0.4425, 0.8391⟩,
  ⟨0.4467, 1.1751, -0.642, 1.5018, -41.2686, 0.5931, 0.3916, 0.4426, 0.8373⟩,
  ⟨0.4571, 1.177, -0.6437, 1.4992, -41.7263, 0.5973, 0.3924, 0.4366, 0.8375⟩,
  ⟨0.4677, 1.1789, -0.6453, 1.4967, -42.1825, 0.6067, 0.3955, 0.4369, 0.8458⟩,
  ⟨0.4786, 1.1808, -0.647, 1.4943, -42.6367, 0.6084, 0.4001, 0.4378, 0.8496⟩,
  ⟨0.4898, 1.1828, -0.6487, 1.4919, -43.0884, 0.6105, 0.4066, 0.4396, 0.8552⟩,
  ⟨0.5012, 1.1845, -0.6508, 1.4903, -43.4794, 0.6073, 0.4094, 0.4352, 0.852⟩,
  ⟨0.5129, 1.1863, -0.6529, 1.4888, -43.8645, 0.605, 0.4003, 0.4391, 0.848⟩,
  ⟨0.5248, 1.1881, -0.655, 1.4874, -44.2437, 0.5965, 0.4012, 0.438, 0.8417⟩,
  ⟨0.537, 1.1899, -0.6572, 1.4859, -44.6167, 0.5886, 0.4039, 0.4409, 0.8391⟩,
  ⟨0.5495, 1.1917, -0.6593, 1.4846, -44.9834, 0.5884, 0.4084, 0.4349, 0.8379⟩,
  ⟨0.5623, 1.1934, -0.6615, 1.4832, -45.3436, 0.5893, 0.4126, 0.4305, 0.8384⟩,
  ⟨0.5754, 1.1952, -0.6637, 1.482, -45.6973, 0.5791, 0.4165, 0.4313, 0.8336⟩,
  ⟨0.5888, 1.1969, -0.666, 1.4807, -46.0443, 0.5749, 0.418, 0.4298, 0.8306⟩,
  ⟨0.6026, 1.1987, -0.6682, 1.4795, -46.3845, 0.5717, 0.4195, 0.4315, 0.8301⟩,
  ⟨0.6166, 1.2004, -0.6705, 1.4783, -46.7177, 0.5748, 0.408, 0.436, 0.8288⟩
]

/-- src/pygmm/data/bayless_abrahamson_2018.csv, part 3 of 6 -/
def table2 : List Row := [
  ⟨0.631, 1.2021, -0.6728, 1.4772, -47.0437, 0.582, 0.4018, 0.4445, 0.8353⟩,
  ⟨0.6457, 1.2039, -0.6751, 1.4761, -47.3626, 0.574, 0.4115, 0.4365, 0.8303⟩,
  ⟨0.6607, 1.2056, -0.6774, 1.475, -47.674, 0.5781, 0.4083, 0.4325, 0.8294⟩,
  ⟨0.6761, 1.2073, -0.6798, 1.474, -47.9779, 0.5835, 0.4109, 0.4307, 0.8336⟩,
  ⟨0.6918, 1.209, -0.6821, 1.4729, -48.2742, 0.5813, 0.4096, 0.437, 0.8347⟩,
  ⟨0.7079, 1.2108, -0.6845, 1.4719, -48.5628, 0.5771, 0.4107, 0.4384, 0.833⟩,
  ⟨0.7244, 1.2125, -0.6868, 1.4709, -48.8434, 0.5687, 0.4058, 0.4403, 0.8258⟩,
  ⟨0.7413, 1.2142, -0.6892, 1.4699, -49.1161, 0.5613, 0.4042, 0.443, 0.8214⟩,
  ⟨0.7586, 1.2159, -0.6916, 1.4689, -49.3807, 0.5668, 0.4039, 0.4449, 0.826⟩,
  ⟨0.7762, 1.2177, -0.694, 1.4679, -49.6371, 0.573, 0.4055, 0.44, 0.8285⟩,
  ⟨0.7943, 1.2194, -0.6964, 1.4669, -49.8851, 0.5657, 0.4119, 0.4351, 0.824⟩,
  ⟨0.8128, 1.2211, -0.6988, 1.4659, -50.1247, 0.5624, 0.4119, 0.4361, 0.8222⟩,
  ⟨0.8318, 1.2228, -0.7013, 1.4649, -50.3558, 0.5623, 0.4137, 0.4372, 0.8237⟩,
  ⟨0.8511, 1.2246, -0.7037, 1.4639, -50.5784, 0.5571, 0.4162, 0.4381, 0.8219⟩,
  ⟨0.871, 1.2263, -0.7061, 1.4628, -50.7922, 0.5486, 0.4118, 0.4365, 0.8131⟩,
  ⟨0.8913, 1.2281, -0.7086, 1.4617, -50.9972, 0.5482, 0.414, 0.4332, 0.8122⟩,
  ⟨0.912, 1.2298, -0.711, 1.4606, -51.1934, 0.5477, 0.412, 0.4391, 0.8139⟩,
  ⟨0.9333, 1.2316, -0.7134, 1.4595, -51.3806, 0.542, 0.4028, 0.4368, 0.8043⟩,
  ⟨0.955, 1.2334, -0.7159, 1.4583, -51.5589, 0.5363, 0.4159, 0.4294, 0.803⟩,
  ⟨0.9772, 1.2352, -0.7183, 1.4571, -51.7281, 0.5354, 0.4144, 0.427, 0.8005⟩,
  ⟨1, 1.237, -0.7208, 1.4559, -51.8882, 0.5328, 0.4123, 0.4324, 0.8005⟩,
  ⟨1.0233, 1.2388, -0.7232, 1.4546, -52.0392, 0.5312, 0.4148, 0.4311, 0.8001⟩,
  ⟨1.0471, 1.2406, -0.7257, 1.4532, -52.181, 0.5211, 0.4216, 0.434, 0.7985⟩,
  ⟨1.0715, 1.2425, -0.7281, 1.4518, -52.3136, 0.5189, 0.4169, 0.4374, 0.7965⟩,
  ⟨1.0965, 1.2443, -0.7306, 1.4503, -52.4369, 0.5121, 0.4129, 0.4395, 0.7911⟩,
  ⟨1.122, 1.2462, -0.733, 1.4488, -52.5511, 0.5012, 0.4178, 0.4372, 0.7854⟩,
  ⟨1.1482, 1.2481, -0.7355, 1.4472, -52.6559, 0.4941, 0.4203, 0.4345, 0.7808⟩,
  ⟨1.1749, 1.25, -0.7379, 1.4455, -52.7516, 0.493, 0.4179, 0.4417, 0.7828⟩,
  ⟨1.2023, 1.252, -0.7403, 1.4438, -52.8381, 0.489, 0.4177, 0.4417, 0.7802⟩,
  ⟨1.2303, 1.254, -0.7428, 1.4419, -52.9154, 0.4833, 0.4234, 0.4387, 0.778⟩,
  ⟨1.2589, 1.256, -0.7452, 1.44, -52.9836, 0.4721, 0.4232, 0.4356, 0.7692⟩,
  ⟨1.2883, 1.258, -0.7476, 1.438, -53.0427, 0.4682, 0.4202, 0.4379, 0.7665⟩,
  ⟨1.3183, 1.2601, -0.75, 1.436, -53.0928, 0.4644, 0.4202, 0.4401, 0.7654⟩,
  ⟨1.349, 1.2622, -0.7524, 1.4338, -53.1341, 0.4551, 0.4251, 0.4433, 0.7645⟩,
  ⟨1.3804, 1.2643, -0.7548, 1.4316, -53.1665, 0.4608, 0.4229, 0.4428, 0.7663⟩,
  ⟨1.4125, 1.2664, -0.7572, 1.4292, -53.1902, 0.4597, 0.4208, 0.44, 0.7629⟩,
  ⟨1.4454, 1.2686, -0.7596, 1.4268, -53.2053, 0.4575, 0.42, 0.4427, 0.7627⟩,
  ⟨1.4791, 1.2709, -0.762, 1.4243, -53.2119, 0.4518, 0.412, 0.4465, 0.7571⟩,
  ⟨1.5136, 1.2732, -0.7644, 1.4217, -53.2101, 0.4657, 0.4116, 0.4479, 0.7661⟩,
  ⟨1.5488, 1.2755, -0.7668, 1.419, -53.2002, 0.4559, 0.418, 0.4436, 0.7611⟩
]

/-- src/pygmm/data/bayless_abrahamson_2018.csv, part 4 of 6 -/
def table3 : List Row := [
  ⟨1.5849, 1.2778, -0.7692, 1.4162, -53.1822, 0.4475, 0.4208, 0.4412, 0.7563⟩,
  ⟨1.6218, 1.2803, -0.7716, 1.4133, -53.1563, 0.4416, 0.4237, 0.4378, 0.7525⟩,
  ⟨1.6596, 1.2827, -0.774, 1.4103, -53.1227, 0.4476, 0.4186, 0.4419, 0.7555⟩,
  ⟨1.6982, 1.2852, -0.7764, 1.4073, -53.0816, 0.4407, 0.405, 0.4484, 0.7478⟩,
  ⟨1.7378, 1.2878, -0.7787, 1.4041, -53.0331, 0.4269, 0.4084, 0.4491, 0.7421⟩,
  ⟨1.7783, 1.2904, -0.7811, 1.4009, -52.9774, 0.411, 0.4026, 0.4564, 0.7343⟩,
  ⟨1.8197, 1.2931, -0.7835, 1.3976, -52.9147, 0.409, 0.4051, 0.453, 0.7325⟩,
  ⟨1.8621, 1.2958, -0.7859, 1.3942, -52.8452, 0.4105, 0.4047, 0.4478, 0.7299⟩,
  ⟨1.9055, 1.2986, -0.7882, 1.3907, -52.7691, 0.4112, 0.3981, 0.4542, 0.7307⟩,
  ⟨1.9498, 1.3014, -0.7906, 1.3871, -52.6866, 0.4091, 0.3895, 0.4555, 0.7256⟩,
  ⟨1.9953, 1.3043, -0.793, 1.3834, -52.5979, 0.4046, 0.3853, 0.4536, 0.7196⟩,
  ⟨2.0417, 1.3073, -0.7954, 1.3797, -52.5033, 0.4019, 0.3884, 0.4522, 0.7189⟩,
  ⟨2.0893, 1.3103, -0.7977, 1.3759, -52.4029, 0.3993, 0.3974, 0.4524, 0.7225⟩,
  ⟨2.138, 1.3134, -0.8001, 1.372, -52.2969, 0.3965, 0.3937, 0.4519, 0.7186⟩,
  ⟨2.1878, 1.3166, -0.8025, 1.368, -52.1856, 0.3907, 0.3866, 0.4534, 0.7125⟩,
  ⟨2.2387, 1.3198, -0.8049, 1.3639, -52.0692, 0.3792, 0.3912, 0.4549, 0.7098⟩,
  ⟨2.2909, 1.3231, -0.8073, 1.3598, -51.9478, 0.3772, 0.3917, 0.4537, 0.7082⟩,
  ⟨2.3442, 1.3265, -0.8097, 1.3556, -51.8218, 0.3791, 0.3924, 0.455, 0.7105⟩,
  ⟨2.3988, 1.3299, -0.8121, 1.3514, -51.6912, 0.3732, 0.3922, 0.4518, 0.7051⟩,
  ⟨2.4547, 1.3335, -0.8145, 1.3471, -51.5564, 0.3725, 0.3941, 0.4563, 0.7087⟩,
  ⟨2.5119, 1.337, -0.8169, 1.3427, -51.4175, 0.3743, 0.3946, 0.4535, 0.7081⟩,
  ⟨2.5704, 1.3407, -0.8194, 1.3382, -51.2747, 0.3683, 0.3895, 0.4564, 0.7041⟩,
  ⟨2.6303, 1.3444, -0.8218, 1.3337, -51.1282, 0.3546, 0.3895, 0.4575, 0.6977⟩,
  ⟨2.6915, 1.3482, -0.8243, 1.3292, -50.9782, 0.3535, 0.3844, 0.4621, 0.6973⟩,
  ⟨2.7542, 1.3521, -0.8268, 1.3246, -50.825, 0.3586, 0.3849, 0.4595, 0.6985⟩,
  ⟨2.8184, 1.3561, -0.8292, 1.3199, -50.6687, 0.3671, 0.3902, 0.4589, 0.7054⟩,
  ⟨2.884, 1.3601, -0.8317, 1.3152, -50.5096, 0.3609, 0.3852, 0.4651, 0.7036⟩,
  ⟨2.9512, 1.3642, -0.8343, 1.3105, -50.3477, 0.3644, 0.3849, 0.4603, 0.702⟩,
  ⟨3.02, 1.3684, -0.8368, 1.3057, -50.1834, 0.3715, 0.381, 0.4626, 0.7051⟩,
  ⟨3.0903, 1.3727, -0.8393, 1.3009, -50.0167, 0.3733, 0.3824, 0.4637, 0.7075⟩,
  ⟨3.1623, 1.377, -0.8419, 1.296, -49.848, 0.3656, 0.382, 0.4666, 0.7052⟩,
  ⟨3.2359, 1.3814, -0.8445, 1.2911, -49.6773, 0.3613, 0.3844, 0.4679, 0.7051⟩,
  ⟨3.3113, 1.3859, -0.8471, 1.2861, -49.5048, 0.3545, 0.3812, 0.4669, 0.6993⟩,
  ⟨3.3884, 1.3905, -0.8497, 1.2811, -49.3308, 0.3536, 0.3774, 0.4712, 0.6997⟩,
  ⟨3.4674, 1.3951, -0.8524, 1.2761, -49.1553, 0.3514, 0.3749, 0.4698, 0.6962⟩,
  ⟨3.5481, 1.3999, -0.855, 1.2711, -48.9787, 0.3535, 0.3783, 0.4646, 0.6957⟩,
  ⟨3.6308, 1.4047, -0.8577, 1.266, -48.8009, 0.357, 0.3811, 0.4649, 0.6992⟩,
  ⟨3.7154, 1.4096, -0.8605, 1.2609, -48.6223, 0.3603, 0.3817, 0.4705, 0.7049⟩,
  ⟨3.8019, 1.4145, -0.8632, 1.2558, -48.4429, 0.3624, 0.3815, 0.472, 0.7069⟩,
  ⟨3.8905, 1.4196, -0.866, 1.2506, -48.263, 0.3634, 0.387, 0.4711, 0.7097⟩
]

/-- src/pygmm/data/bayless_abrahamson_2018.csv, part 5 of 6 -/
def table4 : List Row := [
  ⟨3.9811, 1.4247, -0.8688, 1.2454, -48.0826, 0.3614, 0.3864, 0.4677, 0.7062⟩,
  ⟨4.0738, 1.4299, -0.8716, 1.2403, -47.902, 0.361, 0.3844, 0.4682, 0.7052⟩,
  ⟨4.1687, 1.4352, -0.8745, 1.2351, -47.7212, 0.3663, 0.3834, 0.4686, 0.7076⟩,
  ⟨4.2658, 1.4405, -0.8774, 1.2299, -47.5406, 0.3702, 0.3816, 0.4684, 0.7086⟩,
  ⟨4.3652, 1.4459, -0.8803, 1.2246, -47.3601, 0.376, 0.3884, 0.4651, 0.7131⟩,
  ⟨4.4668, 1.4514, -0.8832, 1.2194, -47.1799, 0.3754, 0.393, 0.4705, 0.7188⟩,
  ⟨4.5709, 1.457, -0.8862, 1.2142, -47.0002, 0.3706, 0.3918, 0.4708, 0.7159⟩,
  ⟨4.6774, 1.4627, -0.8893, 1.209, -46.8212, 0.3739, 0.3971, 0.4717, 0.7211⟩,
  ⟨4.7863, 1.4684, -0.8923, 1.2037, -46.6429, 0.382, 0.4028, 0.4651, 0.7242⟩,
  ⟨4.8978, 1.4742, -0.8954, 1.1985, -46.4655, 0.3858, 0.407, 0.4635, 0.7276⟩,
  ⟨5.0119, 1.4809, -0.8991, 1.1938, -46.3133, 0.3843, 0.4025, 0.4665, 0.7262⟩,
  ⟨5.1286, 1.4876, -0.9027, 1.1891, -46.1638, 0.3973, 0.4044, 0.4681, 0.7352⟩,
  ⟨5.2481, 1.4944, -0.9064, 1.1845, -46.0165, 0.3967, 0.4072, 0.4672, 0.7359⟩,
  ⟨5.3703, 1.5012, -0.9102, 1.1799, -45.8709, 0.3948, 0.4128, 0.4663, 0.7374⟩,
  ⟨5.4954, 1.508, -0.9139, 1.1753, -45.7264, 0.3951, 0.416, 0.4675, 0.7401⟩,
  ⟨5.6234, 1.5149, -0.9177, 1.1708, -45.5829, 0.3953, 0.4196, 0.4661, 0.7413⟩,
  ⟨5.7544, 1.5217, -0.9215, 1.1662, -45.4399, 0.401, 0.4255, 0.4668, 0.7482⟩,
  ⟨5.8884, 1.5286, -0.9253, 1.1617, -45.2974, 0.4037, 0.4202, 0.4666, 0.7465⟩,
  ⟨6.0256, 1.5355, -0.9291, 1.1572, -45.1551, 0.404, 0.4214, 0.4643, 0.7459⟩,
  ⟨6.1659, 1.5423, -0.9329, 1.1527, -45.0131, 0.4105, 0.4259, 0.4604, 0.7495⟩,
  ⟨6.3096, 1.5492, -0.9367, 1.1482, -44.8713, 0.4146, 0.4294, 0.4598, 0.7534⟩,
  ⟨6.4565, 1.5561, -0.9405, 1.1437, -44.7296, 0.4139, 0.4299, 0.4569, 0.7516⟩,
  ⟨6.6069, 1.563, -0.9443, 1.1392, -44.588, 0.4151, 0.4307, 0.4554, 0.7518⟩,
  ⟨6.7608, 1.5699, -0.9481, 1.1347, -44.4466, 0.4253, 0.4289, 0.4536, 0.7554⟩,
  ⟨6.9183, 1.5768, -0.9519, 1.1302, -44.3053, 0.4337, 0.4271, 0.4589, 0.7623⟩,
  ⟨7.0795, 1.5837, -0.9557, 1.1257, -44.1642, 0.4336, 0.4338, 0.4596, 0.7665⟩,
  ⟨7.2444, 1.5907, -0.9596, 1.1213, -44.0233, 0.4362, 0.4383, 0.4605, 0.771⟩,
  ⟨7.4131, 1.5976, -0.9634, 1.1168, -43.8826, 0.4421, 0.4433, 0.4618, 0.7779⟩,
  ⟨7.5858, 1.6045, -0.9672, 1.1123, -43.7421, 0.4463, 0.4496, 0.4638, 0.7852⟩,
  ⟨7.7625, 1.6115, -0.971, 1.1078, -43.6019, 0.4462, 0.4498, 0.4605, 0.7832⟩,
  ⟨7.9433, 1.6184, -0.9749, 1.1034, -43.4619, 0.4485, 0.4522, 0.4592, 0.7852⟩,
  ⟨8.1283, 1.6254, -0.9787, 1.0989, -43.3222, 0.445, 0.4522, 0.4584, 0.7827⟩,
  ⟨8.3176, 1.6323, -0.9826, 1.0945, -43.1827, 0.4551, 0.4564, 0.4609, 0.7924⟩,
  ⟨8.5114, 1.6393, -0.9864, 1.09, -43.0435, 0.4652, 0.4604, 0.461, 0.8006⟩,
  ⟨8.7096, 1.6463, -0.9903, 1.0856, -42.9047, 0.4677, 0.4672, 0.4578, 0.8041⟩,
  ⟨8.9125, 1.6533, -0.9942, 1.0811, -42.7661, 0.4673, 0.4713, 0.4554, 0.8049⟩,
  ⟨9.1201, 1.6602, -0.9981, 1.0767, -42.6279, 0.4703, 0.4799, 0.4564, 0.8122⟩,
  ⟨9.3325, 1.6673, -1.0019, 1.0723, -42.49, 0.4752, 0.4762, 0.4605, 0.8152⟩,
  ⟨9.5499, 1.6743, -1.0058, 1.0679, -42.3525, 0.4776, 0.4795, 0.4592, 0.8178⟩,
  ⟨9.7724, 1.6813, -1.0097, 1.0635, -42.2153, 0.4809, 0.4803, 0.4604, 0.821⟩
]

/-- src/pygmm/data/bayless_abrahamson_2018.csv, part 6 of 6 -/
def table5 : List Row := [
  ⟨10, 1.6883, -1.0136, 1.0591, -42.0785, 0.4865, 0.4861, 0.4639, 0.8295⟩,
  ⟨10.2329, 1.6953, -1.0175, 1.0547, -41.9421, 0.4946, 0.486, 0.4674, 0.8362⟩,
  ⟨10.4713, 1.7024, -1.0214, 1.0503, -41.8061, 0.4934, 0.4958, 0.4686, 0.842⟩,
  ⟨10.7152, 1.7094, -1.0253, 1.0459, -41.6704, 0.4995, 0.4997, 0.472, 0.8497⟩,
  ⟨10.9648, 1.7165, -1.0293, 1.0416, -41.5351, 0.5094, 0.5043, 0.4714, 0.8579⟩,
  ⟨11.2202, 1.7236, -1.0332, 1.0372, -41.4003, 0.5115, 0.5141, 0.4734, 0.866⟩,
  ⟨11.4815, 1.7307, -1.0371, 1.0329, -41.2659, 0.5138, 0.5195, 0.4731, 0.8705⟩,
  ⟨11.749, 1.7378, -1.0411, 1.0285, -41.1318, 0.5117, 0.527, 0.4757, 0.8751⟩,
  ⟨12.0226, 1.7448, -1.045, 1.0242, -40.9983, 0.5102, 0.5288, 0.4736, 0.8742⟩,
  ⟨12.3027, 1.752, -1.049, 1.0199, -40.8651, 0.5208, 0.5376, 0.4767, 0.8874⟩,
  ⟨12.5893, 1.7591, -1.053, 1.0156, -40.7324, 0.5174, 0.5463, 0.4773, 0.891⟩,
  ⟨12.8825, 1.7662, -1.0569, 1.0113, -40.6001, 0.5213, 0.5455, 0.4792, 0.8939⟩,
  ⟨13.1826, 1.7733, -1.0609, 1.007, -40.4682, 0.5296, 0.5474, 0.4839, 0.9023⟩,
  ⟨13.4896, 1.7805, -1.0649, 1.0028, -40.3369, 0.5346, 0.5482, 0.4863, 0.9071⟩,
  ⟨13.8038, 1.7876, -1.0689, 0.9985, -40.2059, 0.534, 0.5511, 0.4842, 0.9074⟩,
  ⟨14.1254, 1.7948, -1.0729, 0.9943, -40.0754, 0.5403, 0.5519, 0.4864, 0.9128⟩,
  ⟨14.4544, 1.802, -1.0769, 0.99, -39.9454, 0.5409, 0.5653, 0.4913, 0.9238⟩,
  ⟨14.7911, 1.8091, -1.0809, 0.9858, -39.8159, 0.5409, 0.5741, 0.4957, 0.9316⟩,
  ⟨15.1356, 1.8163, -1.0849, 0.9816, -39.6868, 0.5441, 0.5772, 0.502, 0.9387⟩,
  ⟨15.4882, 1.8235, -1.089, 0.9774, -39.5582, 0.5449, 0.5801, 0.5029, 0.9415⟩,
  ⟨15.8489, 1.8307, -1.093, 0.9732, -39.43, 0.5444, 0.5881, 0.5101, 0.95⟩,
  ⟨16.2181, 1.8379, -1.097, 0.969, -39.3023, 0.5431, 0.577, 0.516, 0.9456⟩,
  ⟨16.5959, 1.8452, -1.1011, 0.9648, -39.1751, 0.5492, 0.5738, 0.5225, 0.9507⟩,
  ⟨16.9824, 1.8524, -1.1051, 0.9607, -39.0484, 0.5486, 0.5742, 0.5254, 0.9522⟩,
  ⟨17.378, 1.8596, -1.1092, 0.9565, -38.9222, 0.5527, 0.5735, 0.5315, 0.9575⟩,
  ⟨17.7828, 1.8669, -1.1133, 0.9524, -38.7964, 0.5457, 0.5698, 0.5374, 0.9546⟩,
  ⟨18.197, 1.8741, -1.1174, 0.9483, -38.6711, 0.5457, 0.5731, 0.54, 0.958⟩,
  ⟨18.6209, 1.8814, -1.1214, 0.9442, -38.5463, 0.5343, 0.5823, 0.5458, 0.9605⟩,
  ⟨19.0546, 1.8887, -1.1255, 0.9401, -38.4219, 0.5399, 0.5874, 0.5474, 0.9676⟩,
  ⟨19.4984, 1.8959, -1.1296, 0.936, -38.298, 0.5429, 0.5811, 0.5446, 0.9639⟩,
  ⟨19.9526, 1.9032, -1.1337, 0.9319, -38.1746, 0.5403, 0.5785, 0.5575, 0.9682⟩,
  ⟨20.4174, 1.9105, -1.1378, 0.9279, -38.0516, 0.5392, 0.5817, 0.5566, 0.9689⟩,
  ⟨20.893, 1.9178, -1.142, 0.9238, -37.9291, 0.5475, 0.5931, 0.5496, 0.9765⟩,
  ⟨21.3796, 1.9251, -1.1461, 0.9198, -37.807, 0.5517, 0.6016, 0.5513, 0.985⟩,
  ⟨21.8776, 1.9325, -1.1502, 0.9157, -37.6854, 0.5652, 0.6004, 0.5532, 0.9929⟩,
  ⟨22.3872, 1.9398, -1.1544, 0.9117, -37.5643, 0.5754, 0.6049, 0.5604, 1.0056⟩,
  ⟨22.9087, 1.9471, -1.1585, 0.9077, -37.4436, 0.5811, 0.6034, 0.5603, 1.0078⟩,
  ⟨23.4423, 1.9545, -1.1627, 0.9037, -37.3232, 0.578, 0.6099, 0.5679, 1.0142⟩,
  ⟨23.9883, 1.9618, -1.1668, 0.8997, -37.2034, 0.5676, 0.6174, 0.576, 1.0174⟩
]

/-- src/pygmm/data/bayless_abrahamson_2018.csv, all rows -/
def table : List Row := table0 ++ table1 ++ table2 ++ table3 ++ table4 ++ table5

end BA18
