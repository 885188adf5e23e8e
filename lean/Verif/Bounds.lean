import Mathlib.Analysis.Complex.Exponential
import Mathlib.Analysis.SpecialFunctions.Log.Deriv
import Mathlib.Analysis.SpecialFunctions.Pow.Real
import Mathlib.Analysis.SpecialFunctions.Sqrt
import Mathlib.Analysis.Calculus.Deriv.MeanValue
import Mathlib.Data.Rat.Cast.Order

/-!
# Rational bounds for `exp` and `log`, and monotonicity from derivatives

Used to turn statements about coefficient tables into rational arithmetic that the
kernel evaluates.  Nothing here models the code.
-/

namespace Bounds

/-- `1 + x/1 (1 + x/2 (1 + ... ))`: the Taylor polynomial of `exp` of degree `n`,
in Horner form starting from denominator `k`. -/
def taylor : ℕ → ℚ → ℚ → ℚ
  | 0, _, _ => 1
  | n + 1, k, x => 1 + x / k * taylor n (k + 1) x

/-- lower bound of `exp q` for `q ≥ 0` -/
def expLo (q : ℚ) : ℚ := (taylor 7 1 (q / 8)) ^ 8

/-- upper bound of `exp q` for `0 ≤ q ≤ 8` -/
def expHi (q : ℚ) : ℚ := (taylor 7 1 (q / 8) + (q / 8) ^ 8 * 9 / (40320 * 8)) ^ 8

theorem taylor_seven (x : ℝ) (q : ℚ) (h : (q : ℝ) = x) :
    (taylor 7 1 q : ℝ) = ∑ m ∈ Finset.range 8, x ^ m / m.factorial := by
  subst h
  simp only [taylor, Finset.sum_range_succ, Finset.sum_range_zero, Nat.factorial]
  push_cast
  ring

theorem expLo_le {q : ℚ} (h : 0 ≤ q) : (expLo q : ℝ) ≤ Real.exp q := by
  have h0 : (0 : ℝ) ≤ (q : ℝ) / 8 := by
    have : (0 : ℝ) ≤ q := by exact_mod_cast h
    linarith
  have e : Real.exp q = Real.exp ((q : ℝ) / 8) ^ 8 := by
    rw [← Real.exp_nat_mul]; congr 1; push_cast; ring
  have ht := taylor_seven ((q : ℝ) / 8) (q / 8) (by push_cast; ring)
  unfold expLo
  push_cast
  rw [e, ht]
  apply pow_le_pow_left₀
  · apply Finset.sum_nonneg; intro i _; positivity
  · exact Real.sum_le_exp_of_nonneg h0 8

theorem le_expHi {q : ℚ} (h : 0 ≤ q) (h8 : q ≤ 8) : Real.exp q ≤ (expHi q : ℝ) := by
  have h0 : (0 : ℝ) ≤ (q : ℝ) / 8 := by
    have : (0 : ℝ) ≤ q := by exact_mod_cast h
    linarith
  have h1 : (q : ℝ) / 8 ≤ 1 := by
    have : (q : ℝ) ≤ 8 := by exact_mod_cast h8
    linarith
  have e : Real.exp q = Real.exp ((q : ℝ) / 8) ^ 8 := by
    rw [← Real.exp_nat_mul]; congr 1; push_cast; ring
  have ht := taylor_seven ((q : ℝ) / 8) (q / 8) (by push_cast; ring)
  unfold expHi
  push_cast
  rw [e, ht]
  apply pow_le_pow_left₀ (Real.exp_pos _).le
  have := Real.exp_bound' h0 h1 (n := 8) (by norm_num)
  refine this.trans (le_of_eq ?_)
  norm_num [Nat.factorial]

/-- `log x ≤ q` from a rational comparison -/
theorem log_le_of {x : ℝ} {q : ℚ} (hx : 0 < x) (h : 0 ≤ q) (hq : x ≤ expLo q) :
    Real.log x ≤ q := by
  rw [Real.log_le_iff_le_exp hx]
  exact hq.trans (expLo_le h)

/-- `q ≤ log x` from a rational comparison -/
theorem le_log_of {x : ℝ} {q : ℚ} (hx : 0 < x) (h : 0 ≤ q) (h8 : q ≤ 8) (hq : expHi q ≤ x) :
    q ≤ Real.log x := by
  rw [Real.le_log_iff_exp_le hx]
  exact (le_expHi h h8).trans hq

/-- strictly decreasing on an interval where the derivative is negative inside -/
theorem strictAntiOn_Icc {f f' : ℝ → ℝ} {a b : ℝ}
    (hd : ∀ x ∈ Set.Icc a b, HasDerivAt f (f' x) x) (hn : ∀ x ∈ Set.Ioo a b, f' x < 0) :
    StrictAntiOn f (Set.Icc a b) := by
  apply strictAntiOn_of_deriv_neg (convex_Icc a b)
  · intro x hx; exact (hd x hx).continuousAt.continuousWithinAt
  · intro x hx
    rw [interior_Icc] at hx
    rw [(hd x (Set.Ioo_subset_Icc_self hx)).deriv]
    exact hn x hx

/-- strictly increasing on an interval where the derivative is positive inside -/
theorem strictMonoOn_Icc {f f' : ℝ → ℝ} {a b : ℝ}
    (hd : ∀ x ∈ Set.Icc a b, HasDerivAt f (f' x) x) (hn : ∀ x ∈ Set.Ioo a b, 0 < f' x) :
    StrictMonoOn f (Set.Icc a b) := by
  apply strictMonoOn_of_deriv_pos (convex_Icc a b)
  · intro x hx; exact (hd x hx).continuousAt.continuousWithinAt
  · intro x hx
    rw [interior_Icc] at hx
    rw [(hd x (Set.Ioo_subset_Icc_self hx)).deriv]
    exact hn x hx

/-- strictly decreasing on two adjacent intervals gives strictly decreasing on both -/
theorem glue {f : ℝ → ℝ} {a b c : ℝ} (h1 : StrictAntiOn f (Set.Icc a b))
    (h2 : StrictAntiOn f (Set.Icc b c)) (hab : a ≤ b) (hbc : b ≤ c) :
    StrictAntiOn f (Set.Icc a c) := by
  intro x hx y hy hxy
  rcases le_total x b with hxb | hxb
  · rcases le_total y b with hyb | hyb
    · exact h1 ⟨hx.1, hxb⟩ ⟨hy.1, hyb⟩ hxy
    · rcases eq_or_lt_of_le hxb with rfl | hxb'
      · exact h2 ⟨le_refl _, hbc⟩ ⟨hyb, hy.2⟩ hxy
      · rcases eq_or_lt_of_le hyb with rfl | hyb'
        · exact h1 ⟨hx.1, hxb⟩ ⟨hab, le_refl _⟩ hxy
        · exact (h2 ⟨le_refl _, hbc⟩ ⟨hyb, hy.2⟩ hyb').trans
            (h1 ⟨hx.1, hxb⟩ ⟨hab, le_refl _⟩ hxb')
  · exact h2 ⟨hxb, hx.2⟩ ⟨hxb.trans hxy.le, hy.2⟩ hxy

/-- a linear function that is negative at both ends of an interval is negative in it -/
theorem linear_neg {p q a b x : ℝ} (hx : x ∈ Set.Icc a b) (ha : p + q * a < 0)
    (hb : p + q * b < 0) : p + q * x < 0 := by
  rcases le_total 0 q with h | h
  · nlinarith [mul_le_mul_of_nonneg_left hx.2 h]
  · nlinarith [mul_le_mul_of_nonpos_left hx.1 h]

/-- a linear function that is non-positive at both ends of an interval stays so -/
theorem linear_nonpos {p q a b x : ℝ} (hx : x ∈ Set.Icc a b) (ha : p + q * a ≤ 0)
    (hb : p + q * b ≤ 0) : p + q * x ≤ 0 := by
  rcases le_total 0 q with h | h
  · nlinarith [mul_le_mul_of_nonneg_left hx.2 h]
  · nlinarith [mul_le_mul_of_nonpos_left hx.1 h]

/-- a linear function that is positive at both ends of an interval is positive in it -/
theorem linear_pos {p q a b x : ℝ} (hx : x ∈ Set.Icc a b) (ha : 0 < p + q * a)
    (hb : 0 < p + q * b) : 0 < p + q * x := by
  rcases le_total 0 q with h | h
  · nlinarith [mul_le_mul_of_nonneg_left hx.1 h]
  · nlinarith [mul_le_mul_of_nonpos_left hx.2 h]

end Bounds

namespace Bounds

/-- `log (exp x + k)` moves up with `x`, at most as fast as `x` -/
theorem log_exp_add {x' x k : ℝ} (h : x' ≤ x) (hk : 0 ≤ k) :
    0 ≤ Real.log (Real.exp x + k) - Real.log (Real.exp x' + k) ∧
    Real.log (Real.exp x + k) - Real.log (Real.exp x' + k) ≤ x - x' := by
  have h1 := Real.exp_pos x'
  have h2 := Real.exp_le_exp.2 h
  constructor
  · rw [sub_nonneg]; exact Real.log_le_log (by linarith) (by linarith)
  · rw [← Real.log_div (by positivity) (by positivity), Real.log_le_iff_le_exp (by positivity),
      div_le_iff₀ (by positivity), mul_add, ← Real.exp_add, sub_add_cancel]
    have : 1 ≤ Real.exp (x - x') := Real.one_le_exp (by linarith)
    nlinarith

end Bounds

namespace Bounds

/-- `q ≤ a ^ (p/n)` from a comparison of integer powers -/
theorem le_rpow_of {a q : ℝ} (ha : 0 ≤ a) (hq : 0 ≤ q) (p n : ℕ) (hn : n ≠ 0) (h : q ^ n ≤ a ^ p) :
    q ≤ a ^ ((p : ℝ) / n) := by
  have h1 : a ^ ((p : ℝ) / n) = (a ^ p) ^ ((n : ℝ)⁻¹) := by
    rw [← Real.rpow_natCast a p, ← Real.rpow_mul ha]; rfl
  have h2 : q = (q ^ n) ^ ((n : ℝ)⁻¹) := (Real.pow_rpow_inv_natCast hq hn).symm
  rw [h1, h2]
  exact Real.rpow_le_rpow (by positivity) h (by positivity)

/-- The nonlinear site term `log (exp x + k ρ) - log (exp x + k)` grows with `x` at most at
rate `κ = (1 - s)/(1 + s)`, where `s² ≤ ρ`. -/
theorem log_ratio_slope {x' x k ρ s κ : ℝ} (h : x' ≤ x) (hk : 0 < k) (hs : 0 ≤ s) (hρ : s ^ 2 ≤ ρ)
    (hκ0 : 0 ≤ κ) (hκ : 1 - s ≤ κ * (1 + s)) :
    (Real.log (Real.exp x + k * ρ) - Real.log (Real.exp x + k)) -
      (Real.log (Real.exp x' + k * ρ) - Real.log (Real.exp x' + k)) ≤ κ * (x - x') := by
  have hρ0 : 0 ≤ ρ := le_trans (by positivity) hρ
  set f : ℝ → ℝ := fun x => κ * x - (Real.log (Real.exp x + k * ρ) - Real.log (Real.exp x + k))
  have hd : ∀ x, HasDerivAt f (κ * 1 - (Real.exp x / (Real.exp x + k * ρ) -
      Real.exp x / (Real.exp x + k))) x := by
    intro x
    have he := Real.exp_pos x
    have h1 : Real.exp x + k * ρ ≠ 0 := by positivity
    have h2 : Real.exp x + k ≠ 0 := by positivity
    exact ((hasDerivAt_id x).const_mul κ).sub
      (((((Real.hasDerivAt_exp x).add_const _)).log h1).sub
        ((((Real.hasDerivAt_exp x).add_const _)).log h2))
  have hm : Monotone f := by
    apply monotone_of_deriv_nonneg (fun x => (hd x).differentiableAt)
    intro x
    rw [(hd x).deriv]
    have he := Real.exp_pos x
    set y := Real.exp x
    have hq : (y + k * ρ) * (y + k) > 0 := by positivity
    have e : y / (y + k * ρ) - y / (y + k) = y * (k * (1 - ρ)) / ((y + k * ρ) * (y + k)) := by
      have h1 : y + k * ρ ≠ 0 := by positivity
      have h2 : y + k ≠ 0 := by positivity
      field_simp; ring
    rw [mul_one, sub_nonneg, e, div_le_iff₀ hq]
    have a1 : y * (k * (1 - ρ)) ≤ y * (k * (1 - s ^ 2)) := by
      apply mul_le_mul_of_nonneg_left _ he.le
      apply mul_le_mul_of_nonneg_left _ hk.le
      linarith
    have a2 : y * (k * (1 - s ^ 2)) ≤ κ * (y * k * (1 + s) ^ 2) := by
      have : y * (k * (1 - s ^ 2)) = y * k * (1 + s) * (1 - s) := by ring
      rw [this]
      have hp : 0 ≤ y * k * (1 + s) := by positivity
      calc y * k * (1 + s) * (1 - s) ≤ y * k * (1 + s) * (κ * (1 + s)) :=
            mul_le_mul_of_nonneg_left hκ hp
        _ = _ := by ring
    have a3 : y * k * (1 + s) ^ 2 ≤ (y + k * ρ) * (y + k) := by
      have : (y + k * s ^ 2) * (y + k) ≤ (y + k * ρ) * (y + k) := by
        apply mul_le_mul_of_nonneg_right _ (by positivity)
        have := mul_le_mul_of_nonneg_left hρ hk.le
        linarith
      nlinarith [sq_nonneg (y - k * s)]
    exact a1.trans (a2.trans (mul_le_mul_of_nonneg_left a3 hκ0))
  have := hm h
  simp only [f] at this
  linarith

end Bounds
