import Lean.Meta.Tactic.Simp.RegisterCommand

/-! The simp set `fsimp`: how value and definedness of an `F` expression unfold. -/

/-- unfolding of `F.val` and `F.ok` -/
register_simp_attr fsimp
