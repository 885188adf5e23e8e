import Verif.Bounds
import Mathlib.Analysis.Convex.SpecificFunctions.Basic

/-!
# Saturating distances

Inequalities between `log √(R² + h²)` and the logarithms of `R` and `h`: the effective distance
of several models.
-/

namespace Saturate

/-- `t ↦ log √(k² + e^{2t})` lies above its tangent -/
theorem tangent {k a b : ℝ} (ha : 0 < a) (hb : 0 < b) :
    a ^ 2 / (k ^ 2 + a ^ 2) * (Real.log b - Real.log a) ≤
      Real.log √(k ^ 2 + b ^ 2) - Real.log √(k ^ 2 + a ^ 2) := by
  have pa : 0 < k ^ 2 + a ^ 2 := by positivity
  have pb : 0 < k ^ 2 + b ^ 2 := by positivity
  rw [Real.log_sqrt pa.le, Real.log_sqrt pb.le]
  set w := a ^ 2 / (k ^ 2 + a ^ 2) with hw
  have w0 : 0 ≤ w := by positivity
  have w1 : w ≤ 1 := (div_le_one pa).2 (by nlinarith [sq_nonneg k])
  have hc := strictConcaveOn_log_Ioi.concaveOn.2 (x := 1) (y := (b / a) ^ 2)
    (by simp) (by simp; positivity) (by linarith : 0 ≤ 1 - w) w0 (by ring)
  simp only [smul_eq_mul, Real.log_one, mul_zero, zero_add, mul_one] at hc
  have e : 1 - w + w * (b / a) ^ 2 = (k ^ 2 + b ^ 2) / (k ^ 2 + a ^ 2) := by
    rw [hw]; field_simp; ring
  rw [e, Real.log_div pb.ne' pa.ne', Real.log_pow, Real.log_div hb.ne' ha.ne'] at hc
  push_cast at hc
  linarith

/-- growth of the saturation term `h` with a bound on its share -/
theorem upper {k a b ρ : ℝ} (ha : 0 < a) (hab : a ≤ b) (hρ : b ^ 2 ≤ ρ * (k ^ 2 + b ^ 2)) :
    Real.log √(k ^ 2 + b ^ 2) - Real.log √(k ^ 2 + a ^ 2) ≤ ρ * (Real.log b - Real.log a) := by
  have hb : 0 < b := ha.trans_le hab
  have pb : 0 < k ^ 2 + b ^ 2 := by positivity
  have h1 := tangent (k := k) hb ha
  have h2 : b ^ 2 / (k ^ 2 + b ^ 2) ≤ ρ := (div_le_iff₀ pb).2 hρ
  have h3 := mul_le_mul_of_nonneg_right h2 (sub_nonneg.2 (Real.log_le_log ha hab))
  linarith

/-- the same with a lower bound on the share -/
theorem lower {k a b ρ : ℝ} (ha : 0 < a) (hab : a ≤ b) (hρ : ρ * (k ^ 2 + a ^ 2) ≤ a ^ 2) :
    ρ * (Real.log b - Real.log a) ≤ Real.log √(k ^ 2 + b ^ 2) - Real.log √(k ^ 2 + a ^ 2) := by
  have hb : 0 < b := ha.trans_le hab
  have pa : 0 < k ^ 2 + a ^ 2 := by positivity
  have h1 := tangent (k := k) ha hb
  have h2 : ρ ≤ a ^ 2 / (k ^ 2 + a ^ 2) := (le_div_iff₀ pa).2 hρ
  have h3 := mul_le_mul_of_nonneg_right h2 (sub_nonneg.2 (Real.log_le_log ha hab))
  linarith

/-- the effective distance itself grows by no more than the saturation term -/
theorem sqrt_sub_le {k a b : ℝ} (ha : 0 ≤ a) (hab : a ≤ b) :
    √(k ^ 2 + b ^ 2) - √(k ^ 2 + a ^ 2) ≤ b - a := by
  have h1 : a ≤ √(k ^ 2 + a ^ 2) := Real.le_sqrt_of_sq_le (by nlinarith [sq_nonneg k])
  have h3 : √(k ^ 2 + a ^ 2) ^ 2 = k ^ 2 + a ^ 2 := Real.sq_sqrt (by positivity)
  have : √(k ^ 2 + b ^ 2) ≤ √(k ^ 2 + a ^ 2) + (b - a) := by
    rw [Real.sqrt_le_left (by linarith)]
    nlinarith
  linarith

/-- `b - a ≤ b (log b - log a)` -/
theorem sub_le_mul_log {a b : ℝ} (ha : 0 < a) (hab : a ≤ b) :
    b - a ≤ b * (Real.log b - Real.log a) := by
  have hb : 0 < b := ha.trans_le hab
  have := Real.one_sub_inv_le_log_of_pos (div_pos hb ha)
  rw [Real.log_div hb.ne' ha.ne', inv_div] at this
  have h2 := mul_le_mul_of_nonneg_left this hb.le
  have e : b * (1 - a / b) = b - a := by field_simp
  linarith

/-- `a (log b - log a) ≤ b - a` -/
theorem mul_log_le_sub {a b : ℝ} (ha : 0 < a) (hb : 0 < b) :
    a * (Real.log b - Real.log a) ≤ b - a := by
  have := Real.log_le_sub_one_of_pos (div_pos hb ha)
  rw [Real.log_div hb.ne' ha.ne'] at this
  have h2 := mul_le_mul_of_nonneg_left this ha.le
  have e : a * (b / a - 1) = b - a := by field_simp
  linarith

/-- the power 5/2 through square roots -/
theorem rpow_five_half {x : ℝ} (hx : 0 ≤ x) : x ^ (2.5 : ℝ) = √x ^ 5 := by
  rw [Real.sqrt_eq_rpow, ← Real.rpow_natCast, ← Real.rpow_mul hx]
  norm_num

/-- secant slopes of `x^(5/2)` on `[0, A²]` lie between 0 and `5/2 A³` -/
theorem five_half_secant {x x' A : ℝ} (h0 : 0 ≤ x') (h : x' ≤ x) (hA0 : 0 ≤ A) (hA : x ≤ A ^ 2) :
    0 ≤ x ^ (2.5 : ℝ) - x' ^ (2.5 : ℝ) ∧
      x ^ (2.5 : ℝ) - x' ^ (2.5 : ℝ) ≤ 5 / 2 * A ^ 3 * (x - x') := by
  rw [rpow_five_half (h0.trans h), rpow_five_half h0]
  have ha : √x ≤ A := Real.sqrt_le_iff.2 ⟨hA0, hA⟩
  have hb0 := Real.sqrt_nonneg x'
  have hab : √x' ≤ √x := Real.sqrt_le_sqrt h
  have e1 : x = √x ^ 2 := (Real.sq_sqrt (h0.trans h)).symm
  have e2 : x' = √x' ^ 2 := (Real.sq_sqrt h0).symm
  have e3 : x - x' = (√x - √x') * (√x + √x') := by
    linear_combination e1 - e2
  rw [e3]
  set a := √x
  set b := √x'
  have ha0 : 0 ≤ a := hb0.trans hab
  have hbA : b ≤ A := hab.trans ha
  constructor
  · have : b ^ 5 ≤ a ^ 5 := by gcongr
    linarith
  · have f : a ^ 5 - b ^ 5 = (a - b) * (a ^ 4 + a ^ 3 * b + a ^ 2 * b ^ 2 + a * b ^ 3 + b ^ 4) := by
      ring
    rw [f]
    have k1 : a ^ 4 ≤ A ^ 3 * a := by
      calc a ^ 4 = a ^ 3 * a := by ring
        _ ≤ _ := by gcongr
    have k2 : b ^ 4 ≤ A ^ 3 * b := by
      calc b ^ 4 = b ^ 3 * b := by ring
        _ ≤ _ := by gcongr
    have k3 : a ^ 3 * b ≤ A ^ 3 * b := by gcongr
    have k4 : a * b ^ 3 ≤ A ^ 3 * a := by
      calc a * b ^ 3 = b ^ 3 * a := by ring
        _ ≤ _ := by gcongr
    have k5 : a ^ 2 * b ^ 2 ≤ A ^ 3 * b := by
      calc a ^ 2 * b ^ 2 = a ^ 2 * b * b := by ring
        _ ≤ A ^ 2 * A * b := by gcongr
        _ = _ := by ring
    have k6 : a ^ 2 * b ^ 2 ≤ A ^ 3 * a := by
      calc a ^ 2 * b ^ 2 = a * b ^ 2 * a := by ring
        _ ≤ A * A ^ 2 * a := by gcongr
        _ = _ := by ring
    have : a ^ 4 + a ^ 3 * b + a ^ 2 * b ^ 2 + a * b ^ 3 + b ^ 4 ≤ 5 / 2 * A ^ 3 * (a + b) := by
      linarith
    calc _ ≤ (a - b) * (5 / 2 * A ^ 3 * (a + b)) :=
          mul_le_mul_of_nonneg_left this (sub_nonneg.2 hab)
      _ = _ := by ring

/-- secant slopes of `x^(5/2)` on `[B², ∞)` are at least `5/2 B³` -/
theorem five_half_secant_ge {x x' B : ℝ} (h : x' ≤ x) (hB0 : 0 ≤ B) (hB : B ^ 2 ≤ x') :
    5 / 2 * B ^ 3 * (x - x') ≤ x ^ (2.5 : ℝ) - x' ^ (2.5 : ℝ) := by
  have h0 : 0 ≤ x' := (sq_nonneg B).trans hB
  rw [rpow_five_half (h0.trans h), rpow_five_half h0]
  have hb : B ≤ √x' := Real.le_sqrt_of_sq_le hB
  have hab : √x' ≤ √x := Real.sqrt_le_sqrt h
  have e1 : x = √x ^ 2 := (Real.sq_sqrt (h0.trans h)).symm
  have e2 : x' = √x' ^ 2 := (Real.sq_sqrt h0).symm
  have e3 : x - x' = (√x - √x') * (√x + √x') := by
    linear_combination e1 - e2
  rw [e3]
  set a := √x
  set b := √x'
  have hb0 : 0 ≤ b := hB0.trans hb
  have ha0 : 0 ≤ a := hb0.trans hab
  have haB : B ≤ a := hb.trans hab
  have f : a ^ 5 - b ^ 5 = (a - b) * (a ^ 4 + a ^ 3 * b + a ^ 2 * b ^ 2 + a * b ^ 3 + b ^ 4) := by
    ring
  rw [f]
  have k1 : B ^ 3 * a ≤ a ^ 4 := by
    calc _ ≤ a ^ 3 * a := by gcongr
      _ = _ := by ring
  have k2 : B ^ 3 * b ≤ b ^ 4 := by
    calc _ ≤ b ^ 3 * b := by gcongr
      _ = _ := by ring
  have k3 : B ^ 3 * b ≤ a ^ 3 * b := by gcongr
  have k4 : B ^ 3 * a ≤ a * b ^ 3 := by
    calc _ ≤ b ^ 3 * a := by gcongr
      _ = _ := by ring
  have k5 : B ^ 3 * b ≤ a ^ 2 * b ^ 2 := by
    calc B ^ 3 * b = B ^ 2 * B * b := by ring
      _ ≤ a ^ 2 * b * b := by gcongr
      _ = _ := by ring
  have k6 : B ^ 3 * a ≤ a ^ 2 * b ^ 2 := by
    calc B ^ 3 * a = B * B ^ 2 * a := by ring
      _ ≤ a * b ^ 2 * a := by gcongr
      _ = _ := by ring
  have : 5 / 2 * B ^ 3 * (a + b) ≤ a ^ 4 + a ^ 3 * b + a ^ 2 * b ^ 2 + a * b ^ 3 + b ^ 4 := by
    linarith
  calc _ = (a - b) * (5 / 2 * B ^ 3 * (a + b)) := by ring
    _ ≤ _ := mul_le_mul_of_nonneg_left this (sub_nonneg.2 hab)

end Saturate
