import Mathlib.Data.Rat.Defs
import Mathlib.Algebra.Order.Ring.Rat
import Mathlib.Tactic.NormNum

/-! Generated by tools/gen_data.py from src/pygmm/data/atkinson_boore_2006-sf.csv
(loaded in src/pygmm/atkinson_boore_2006.py line 35).  Do not edit. -/

namespace AB06

/-- one row of atkinson_boore_2006-sf.csv: the columns of the file, in order -/
structure SfRow where
  period : ℚ
  delta : ℚ
  m_1 : ℚ
  m_h : ℚ

/-- src/pygmm/data/atkinson_boore_2006-sf.csv -/
def sf : List SfRow := [
  ⟨-1, 0.11, 2, 5.5⟩,
  ⟨0.0101, 0.15, 0.5, 5.5⟩,
  ⟨0.025, 0.15, 0, 5⟩,
  ⟨0.0315, 0.15, 0, 5⟩,
  ⟨0.0396, 0.15, 0, 5⟩,
  ⟨0.0499, 0.15, 0, 5⟩,
  ⟨0.0629, 0.15, 0.17, 5.17⟩,
  ⟨0.0791, 0.15, 0.34, 5.34⟩,
  ⟨0.0996, 0.15, 0.5, 5.5⟩,
  ⟨0.1255, 0.15, 1.15, 5.67⟩,
  ⟨0.158, 0.15, 1.85, 5.84⟩,
  ⟨0.1988, 0.15, 2.5, 6⟩,
  ⟨0.2506, 0.15, 2.9, 6.12⟩,
  ⟨0.3155, 0.15, 3.3, 6.25⟩,
  ⟨0.3968, 0.15, 3.65, 6.37⟩,
  ⟨0.5, 0.15, 4, 6.5⟩,
  ⟨0.6289, 0.15, 4.17, 6.7⟩,
  ⟨0.7937, 0.15, 4.34, 6.95⟩,
  ⟨1, 0.15, 4.5, 7.2⟩,
  ⟨1.25, 0.15, 4.67, 7.45⟩,
  ⟨1.5873, 0.15, 4.84, 7.7⟩,
  ⟨2, 0.15, 5, 8⟩,
  ⟨2.5, 0.15, 5.25, 8.12⟩,
  ⟨3.125, 0.15, 5.5, 8.25⟩,
  ⟨4, 0.15, 5.75, 8.37⟩,
  ⟨5, 0.15, 6, 8.5⟩
]

end AB06
