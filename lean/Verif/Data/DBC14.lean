import Mathlib.Data.Rat.Defs
import Mathlib.Algebra.Order.Ring.Rat
import Mathlib.Tactic.NormNum

/-! Generated by tools/gen_data.py from src/pygmm/data/derras_bard_cotton_2014.json
(loaded in src/pygmm/derras_bard_cotton_2014.py lines 27-33).  Do not edit. -/

namespace DBC14

/-- `min_max` of the five inputs, in the order of `keys` (line 62): log10_dist_jb, mag, log10_v_s30, depth_hyp, mechanism -/
def inputLimits : List (ℚ × ℚ) := [(-1, 2.738), (3.6, 7.6), (1.9638, 3.2035), (0, 25), (1, 4)]

/-- `b_1` -/
def b1 : List ℚ := [-1.271232488, 1.512611028, 0.591089009, -0.126622688, -0.415721222]

/-- `w_1`: one row of weights per hidden neuron -/
def w1 : List (List ℚ) := [[2.647891635, -1.07021796, 0.174087758, 0.092191287, -0.013763679],
  [-1.908675436, -0.535017369, -0.705141623, 0.167611583, -0.02661049],
  [0.203542143, 1.780557636, -0.080494591, 0.013596356, 0.061508209],
  [-0.692737498, 0.441505232, 0.775579973, -0.031717733, -0.16306571],
  [0.016162821, 0.218141339, -1.606099447, -0.041636256, 0.026057983]]

/-- the output layer, one row per period: `period`, `b_2`, `w_2`, `min_max.log10_resp`, `log10_std.total` -/
structure Row where
  period : ℚ
  b2 : ℚ
  w2 : List ℚ
  respMin : ℚ
  respMax : ℚ
  stdTotal : ℚ

/-- all 64 outputs -/
def table : List Row := [
  ⟨-1, -0.076472745, [-0.510826776, 0.070554779, 0.220914175, 0.168815839, 0.170928164], -3.849485002, -0.060923911, 0.298⟩,
  ⟨0, -0.143493078, [-0.54101415, 0.254251327, 0.109777617, 0.075959095, -0.020347572], -2.979303657, 0.98101835, 0.309⟩,
  ⟨0.01, -0.141251167, [-0.539773537, 0.254301257, 0.107974037, 0.074881998, -0.021585429], -2.985196725, 0.99145166, 0.31⟩,
  ⟨0.02, -0.1402921, [-0.539375931, 0.248942044, 0.099446671, 0.081987137, -0.017662836], -2.986059277, 1.007712442, 0.313⟩,
  ⟨0.03, -0.142446238, [-0.537208413, 0.240441278, 0.083145677, 0.087421772, -0.018053459], -2.984175815, 1.08949524, 0.319⟩,
  ⟨0.04, -0.169403545, [-0.520634258, 0.229422592, 0.064081989, 0.087723565, -0.026990211], -2.982552276, 1.156662115, 0.323⟩,
  ⟨0.05, -0.168605778, [-0.536143529, 0.237932202, 0.052958747, 0.079850429, -0.040505524], -2.956637722, 1.157095399, 0.325⟩,
  ⟨0.075, -0.154859216, [-0.554628064, 0.271755601, 0.050356632, 0.055594074, -0.076045335], -2.945980456, 1.260733107, 0.328⟩,
  ⟨0.1, -0.169019709, [-0.532266517, 0.291446897, 0.064617059, 0.055270794, -0.09645035], -2.936307635, 1.410814288, 0.335⟩,
  ⟨0.11, -0.176613627, [-0.521512879, 0.29658671, 0.069576025, 0.056273712, -0.099062435], -2.932216636, 1.457727792, 0.338⟩,
  ⟨0.12, -0.170419807, [-0.5198772, 0.301189055, 0.074326652, 0.054844753, -0.10296585], -2.930531138, 1.444991459, 0.338⟩,
  ⟨0.13, -0.169012965, [-0.514898774, 0.30375476, 0.081772384, 0.055068191, -0.102310668], -2.928542596, 1.453062036, 0.337⟩,
  ⟨0.14, -0.163928953, [-0.516215894, 0.313439795, 0.091938911, 0.052380539, -0.102390682], -2.919667313, 1.385037364, 0.338⟩,
  ⟨0.15, -0.174008354, [-0.4979795, 0.317018727, 0.102152195, 0.049835913, -0.09816729], -2.911697131, 1.471769235, 0.337⟩,
  ⟨0.16, -0.194478386, [-0.493176711, 0.327007863, 0.11418295, 0.049209182, -0.094872584], -2.8705569, 1.489542018, 0.335⟩,
  ⟨0.17, -0.200801472, [-0.485747878, 0.331253599, 0.127205614, 0.046418473, -0.091736341], -2.85933557, 1.490888494, 0.334⟩,
  ⟨0.18, -0.203141294, [-0.478191252, 0.335381467, 0.137325066, 0.044229522, -0.088439399], -2.873058765, 1.486617287, 0.333⟩,
  ⟨0.19, -0.212134795, [-0.472577837, 0.335355736, 0.144140467, 0.044729064, -0.083059358], -2.850059029, 1.50374993, 0.33⟩,
  ⟨0.2, -0.214788445, [-0.460675639, 0.331629622, 0.148101401, 0.05134718, -0.074474238], -2.834673005, 1.535394915, 0.328⟩,
  ⟨0.22, -0.214182427, [-0.455401286, 0.345362019, 0.168485452, 0.057154914, -0.06449186], -2.781647452, 1.409036446, 0.328⟩,
  ⟨0.24, -0.213932639, [-0.45629014, 0.359907531, 0.19163738, 0.058118391, -0.055195467], -2.758712763, 1.261319049, 0.326⟩,
  ⟨0.26, -0.212008293, [-0.448942858, 0.352037712, 0.206011412, 0.061961861, -0.044676346], -2.767214299, 1.232880087, 0.325⟩,
  ⟨0.28, -0.227037484, [-0.437033339, 0.340535007, 0.214707559, 0.064792403, -0.031257631], -2.753912978, 1.267300559, 0.322⟩,
  ⟨0.3, -0.246738859, [-0.449973961, 0.343550607, 0.23202436, 0.066267603, -0.021772794], -2.685249329, 1.269455682, 0.322⟩,
  ⟨0.32, -0.24795058, [-0.435914287, 0.327845458, 0.237413306, 0.068819597, -0.011293778], -2.699180576, 1.248427106, 0.326⟩,
  ⟨0.34, -0.2518272, [-0.42465784, 0.321408865, 0.247731596, 0.077612939, 0.002352304], -2.657061356, 1.26168743, 0.328⟩,
  ⟨0.36, -0.212879565, [-0.415678041, 0.314753909, 0.255990159, 0.081865016, 0.015181998], -2.743779615, 1.245493493, 0.329⟩,
  ⟨0.38, -0.215512278, [-0.415314256, 0.31326253, 0.266736228, 0.090005027, 0.027379773], -2.719549792, 1.212558872, 0.33⟩,
  ⟨0.4, -0.232808829, [-0.414839332, 0.313509014, 0.276335858, 0.101142858, 0.0395314], -2.667871945, 1.206737632, 0.33⟩,
  ⟨0.42, -0.242614348, [-0.418038972, 0.304164889, 0.279426675, 0.109541013, 0.055573293], -2.619043181, 1.183978702, 0.329⟩,
  ⟨0.44, -0.230743172, [-0.412223333, 0.294185023, 0.28018961, 0.10824389, 0.065720829], -2.667081411, 1.188206731, 0.327⟩,
  ⟨0.46, -0.219657843, [-0.405732831, 0.287156033, 0.283138956, 0.108857627, 0.074589338], -2.715295253, 1.187534293, 0.328⟩,
  ⟨0.48, -0.210397231, [-0.404244295, 0.282654061, 0.289679834, 0.110693756, 0.082047467], -2.744937774, 1.195017056, 0.328⟩,
  ⟨0.5, -0.197795308, [-0.398349555, 0.275134246, 0.293426945, 0.11309985, 0.091428891], -2.791616858, 1.162867247, 0.327⟩,
  ⟨0.55, -0.160530216, [-0.382933503, 0.253450948, 0.297505456, 0.122089801, 0.115887837], -2.908517633, 1.149294497, 0.33⟩,
  ⟨0.6, -0.140822986, [-0.373349488, 0.240256546, 0.303362656, 0.136961296, 0.139021525], -2.952789244, 1.226266131, 0.331⟩,
  ⟨0.65, -0.107838684, [-0.373729759, 0.228657553, 0.312794291, 0.14701375, 0.160696896], -3.002621528, 1.174170755, 0.332⟩,
  ⟨0.7, -0.094014862, [-0.359574788, 0.213839065, 0.31311436, 0.151168709, 0.17805053], -3.090715515, 1.128224702, 0.332⟩,
  ⟨0.75, -0.073895337, [-0.345784509, 0.197187139, 0.311285387, 0.158730867, 0.193066308], -3.186100033, 1.052990942, 0.332⟩,
  ⟨0.8, -0.05799372, [-0.341037761, 0.18153626, 0.315005438, 0.166201307, 0.206400745], -3.242837714, 1.035664147, 0.331⟩,
  ⟨0.85, -0.042284114, [-0.336228384, 0.171930075, 0.320637744, 0.170489, 0.214822499], -3.309818391, 1.006674652, 0.33⟩,
  ⟨0.9, -0.043692208, [-0.33108553, 0.161317428, 0.322442037, 0.17349243, 0.222366883], -3.347867863, 1.022366733, 0.331⟩,
  ⟨0.95, -0.027928475, [-0.32867094, 0.149886402, 0.323389852, 0.176411536, 0.229013406], -3.376363292, 0.993946952, 0.333⟩,
  ⟨1, -0.005401146, [-0.323017173, 0.137567256, 0.32307006, 0.180835711, 0.230941347], -3.411540737, 0.96655149, 0.335⟩,
  ⟨1.1, 0.01643085, [-0.318080249, 0.124328971, 0.331785162, 0.188006751, 0.238824085], -3.499349533, 0.88712674, 0.339⟩,
  ⟨1.2, 0.056436981, [-0.314220923, 0.115845087, 0.342820043, 0.196252312, 0.246883255], -3.59867812, 0.786452684, 0.343⟩,
  ⟨1.3, 0.076415498, [-0.310585172, 0.101115508, 0.345417663, 0.202331199, 0.251746491], -3.699971186, 0.773370902, 0.346⟩,
  ⟨1.4, 0.080005285, [-0.30818647, 0.084023406, 0.341089481, 0.200767673, 0.250394494], -3.787935025, 0.749136058, 0.353⟩,
  ⟨1.5, 0.07403565, [-0.306686047, 0.07470381, 0.3420609, 0.202142239, 0.245542794], -3.858485145, 0.780103015, 0.356⟩,
  ⟨1.6, 0.09299877, [-0.313876883, 0.071033507, 0.355192942, 0.204450416, 0.244608387], -3.919735723, 0.735773313, 0.359⟩,
  ⟨1.7, 0.098090915, [-0.314688542, 0.061555107, 0.356189983, 0.205736257, 0.242747231], -3.986529186, 0.64299905, 0.362⟩,
  ⟨1.8, 0.094946234, [-0.315962674, 0.049823613, 0.354471767, 0.201790944, 0.236930639], -4.037034701, 0.610951381, 0.365⟩,
  ⟨1.9, 0.087002098, [-0.313927933, 0.042350961, 0.353760318, 0.199163146, 0.233971037], -4.084673593, 0.59822423, 0.368⟩,
  ⟨2, 0.080633932, [-0.311733532, 0.038001598, 0.35386736, 0.200105369, 0.233066656], -4.123668528, 0.587317187, 0.368⟩,
  ⟨2.2, 0.091510963, [-0.320665749, 0.017504398, 0.355023584, 0.200108312, 0.232755627], -4.238777883, 0.494881369, 0.37⟩,
  ⟨2.4, 0.09495708, [-0.321798843, 0.003176592, 0.352301716, 0.204816304, 0.233308677], -4.343911322, 0.437831896, 0.37⟩,
  ⟨2.6, 0.095220431, [-0.322225722, -0.004659656, 0.353407995, 0.207387911, 0.229388839], -4.425698673, 0.419551103, 0.373⟩,
  ⟨2.8, 0.086504663, [-0.322062703, -0.015891113, 0.347245916, 0.209002388, 0.228579043], -4.470029056, 0.427769901, 0.375⟩,
  ⟨3, 0.080948314, [-0.323754946, -0.022829634, 0.345746481, 0.208617193, 0.229073638], -4.531743129, 0.455067137, 0.377⟩,
  ⟨3.2, 0.069604068, [-0.326085151, -0.025158168, 0.346081206, 0.206000081, 0.228036961], -4.600329725, 0.466260482, 0.378⟩,
  ⟨3.4, 0.059710513, [-0.326322457, -0.028077633, 0.344256668, 0.202713665, 0.222630727], -4.644941317, 0.475656195, 0.378⟩,
  ⟨3.6, 0.051176846, [-0.328791942, -0.033029489, 0.343646922, 0.200033424, 0.219921594], -4.694669918, 0.47363989, 0.376⟩,
  ⟨3.8, 0.053684364, [-0.330966628, -0.03828204, 0.343568322, 0.201457449, 0.219779751], -4.750844723, 0.467695635, 0.375⟩,
  ⟨4, 0.056169376, [-0.331991914, -0.041837648, 0.344006313, 0.203514758, 0.220175879], -4.79929973, 0.444726741, 0.375⟩
]

end DBC14
