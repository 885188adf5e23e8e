import Mathlib.Data.Rat.Defs
import Mathlib.Algebra.Order.Ring.Rat
import Mathlib.Tactic.NormNum

/-! Generated by tools/gen_data.py from src/pygmm/data/coppersmith_bommer_2014.csv
(loaded in src/pygmm/coppersmith_bommer_2014.py line 30).  Do not edit. -/

namespace CoppersmithBommer

/-- one row of coppersmith_bommer_2014.csv: the columns of the file, in order -/
structure Row where
  period : ℚ
  v_lin : ℚ
  b : ℚ
  n : ℚ
  c : ℚ
  c_4 : ℚ
  t_1 : ℚ
  t_2 : ℚ
  t_3 : ℚ
  t_4 : ℚ
  t_5 : ℚ
  t_6 : ℚ
  t_9 : ℚ
  t_12 : ℚ
  t_13 : ℚ
  t_16 : ℚ
  phi : ℚ
  tau : ℚ
  sigma : ℚ

/-- src/pygmm/data/coppersmith_bommer_2014.csv -/
def table : List Row := [
  ⟨0.01, 865.1, -1.186, 1.18, 1.88, 10, 3.8796, -1.1337, 0.1, 0.9, 0, -0.00555, 0.4, 0.98, -0.0135, -0.2247, 0.6, 0.43, 0.738⟩,
  ⟨0.02, 865.1, -1.186, 1.18, 1.88, 10, 3.8796, -1.1337, 0.1, 0.9, 0, -0.00555, 0.4, 0.98, -0.0135, -0.2247, 0.6, 0.43, 0.738⟩,
  ⟨0.03, 944.57, -1.239, 1.18, 1.88, 10, 4.1522, -1.1864, 0.1, 0.9, 0, -0.00555, 0.4, 1.081, -0.0135, -0.24475, 0.6, 0.43, 0.738⟩,
  ⟨0.05, 1053.5, -1.346, 1.18, 1.88, 10, 4.5683, -1.236, 0.1, 0.9, 0, -0.00555, 0.4, 1.288, -0.0138, -0.27108, 0.6, 0.43, 0.738⟩,
  ⟨0.1, 1032.5, -1.624, 1.18, 1.88, 10, 4.9937, -1.215, 0.1, 0.9, 0, -0.0064455, 0.4, 1.613, -0.0145, -0.27869, 0.6, 0.43, 0.738⟩,
  ⟨0.2, 748.2, -2.188, 1.18, 1.88, 10, 5.0182, -1.1468, 0.1, 0.9, 0, -0.0066776, 0.4, 2.076, -0.0162, -0.21139, 0.6, 0.43, 0.738⟩,
  ⟨0.3, 587.1, -2.518, 1.18, 1.88, 10, 4.7475, -1.091, 0.1, 0.9, 0, -0.0064, 0.4, 2.348, -0.0183, -0.13422, 0.6, 0.43, 0.738⟩,
  ⟨0.5, 456.6, -2.669, 1.18, 1.88, 10, 4.1181, -1.0061, 0.1, 0.9, 0, -0.00605, 0.4, 2.399, -0.0231, -0.04057, 0.6, 0.43, 0.738⟩,
  ⟨1, 400, -1.955, 1.18, 1.88, 10, 2.9005, -0.86825, 0.1, 0.9, 0, -0.005576, 0.4, 1.47, -0.0363, -0.01279, 0.6, 0.43, 0.738⟩,
  ⟨2, 400, -0.299, 1.18, 1.88, 10, 1.5317, -0.72143, 0.1, 0.9, 0, -0.005102, 0.4, -0.401, -0.061, -0.00894, 0.6, 0.43, 0.738⟩,
  ⟨3, 400, 0, 1.18, 1.88, 10, 0.69726, -0.63711, 0.1, 0.9, 0, -0.004824, 0.4, -0.673, -0.0798, -0.00669, 0.6, 0.43, 0.738⟩,
  ⟨5, 400, 0, 1.18, 1.88, 10, -0.4776, -0.53089, 0.1, 0.9, 0, -0.004474, 0.4, -0.596, -0.098, -0.00385, 0.6, 0.43, 0.738⟩,
  ⟨7.5, 400, 0, 1.18, 1.88, 10, -1.5093, -0.44657, 0.1, 0.9, 0, -0.004196, 0.4, -0.528, -0.098, -0.0016, 0.6, 0.43, 0.738⟩,
  ⟨10, 400, 0, 1.18, 1.88, 10, -2.2565, -0.38675, 0.1, 0.9, 0, -0.004, 0.4, -0.504, -0.098, 0, 0.6, 0.43, 0.738⟩
]

end CoppersmithBommer
