import Mathlib.Analysis.SpecialFunctions.Trigonometric.DerivHyp
import Verif.Props.DBC14
import Verif.Bounds
import Verif.Props.HangingWall

/-! # C105: Derras, Bard & Cotton (2014): what the network does with its inputs -/

set_option linter.unusedSimpArgs false
set_option maxHeartbeats 800000

namespace DBC14

/-- derivative of tanh -/
theorem hasDerivAt_tanh (x : ℝ) : HasDerivAt Real.tanh (1 / Real.cosh x ^ 2) x := by
  have h := (Real.hasDerivAt_sinh x).div (Real.hasDerivAt_cosh x) (Real.cosh_pos x).ne'
  have e : Real.tanh = Real.sinh / Real.cosh := by
    funext y; simp [Real.tanh_eq_sinh_div_cosh]
  have e2 : Real.cosh x * Real.cosh x - Real.sinh x * Real.sinh x = 1 := by
    nlinarith [Real.cosh_sq x]
  rw [e2] at h
  rw [e]; exact h

/-- bounds of the slope of `tanh` at `x`, for neuron `j` -/
def Slope (b : List (ℚ × ℚ)) (j : ℕ) (x : ℝ) : Prop :=
  ((b.getD j (0, 0)).1 : ℝ) ≤ 1 / Real.cosh x ^ 2 ∧
    1 / Real.cosh x ^ 2 ≤ ((b.getD j (0, 0)).2 : ℝ)

theorem slope_lo {X l : ℚ} {x : ℝ} (h : |x| ≤ (X : ℝ)) (h0 : 0 ≤ X) (h8 : X ≤ 8)
    (hl : l * (Bounds.expHi X + 1 / Bounds.expLo X) ^ 2 ≤ 4) : (l : ℝ) ≤ 1 / Real.cosh x ^ 2 := by
  have c1 : Real.cosh x ≤ Real.cosh X := by
    rw [Real.cosh_le_cosh, abs_of_nonneg (by exact_mod_cast h0 : (0 : ℝ) ≤ X)]; exact h
  have e1 := Bounds.le_expHi h0 h8
  have e2 := Bounds.expLo_le h0
  have p2 : (0 : ℝ) < Bounds.expLo X := by
    have : 0 < Bounds.expLo X := by
      unfold Bounds.expLo
      simp only [Bounds.taylor]
      positivity
    exact_mod_cast this
  have c2 : Real.cosh X ≤ ((Bounds.expHi X : ℝ) + 1 / Bounds.expLo X) / 2 := by
    rw [Real.cosh_eq, Real.exp_neg]
    have : (Real.exp X)⁻¹ ≤ 1 / (Bounds.expLo X : ℝ) := by
      rw [← one_div]; exact one_div_le_one_div_of_le p2 e2
    linarith
  have c3 := c1.trans c2
  have hl' : (l : ℝ) * ((Bounds.expHi X : ℝ) + 1 / Bounds.expLo X) ^ 2 ≤ 4 := by exact_mod_cast hl
  generalize ((Bounds.expHi X : ℝ) + 1 / Bounds.expLo X) = C at *
  have cp := Real.cosh_pos x
  have : Real.cosh x ^ 2 ≤ (C / 2) ^ 2 := pow_le_pow_left₀ cp.le c3 2
  have hC : 0 < (C / 2) ^ 2 := by have := sq_pos_of_pos cp; linarith
  refine le_trans ?_ (one_div_le_one_div_of_le (by positivity) this)
  rw [le_div_iff₀ hC]
  linarith

theorem slope_hi {Y k : ℚ} {x : ℝ} (h : (Y : ℝ) ≤ x ∨ x ≤ -(Y : ℝ)) (h0 : 0 ≤ Y) (h8 : Y ≤ 8)
    (hk : 4 ≤ k * (Bounds.expLo Y + 1 / Bounds.expHi Y) ^ 2) : 1 / Real.cosh x ^ 2 ≤ (k : ℝ) := by
  have h0' : (0 : ℝ) ≤ Y := by exact_mod_cast h0
  have c1 : Real.cosh Y ≤ Real.cosh x := by
    rw [Real.cosh_le_cosh, abs_of_nonneg h0']
    rcases h with h | h
    · exact h.trans (le_abs_self x)
    · exact (by linarith : (Y : ℝ) ≤ -x).trans (neg_le_abs x)
  have e1 := Bounds.le_expHi h0 h8
  have e2 := Bounds.expLo_le h0
  have p2 : (0 : ℝ) < Bounds.expLo Y := by
    have : 0 < Bounds.expLo Y := by
      unfold Bounds.expLo
      simp only [Bounds.taylor]
      positivity
    exact_mod_cast this
  have p1 : (0 : ℝ) < Bounds.expHi Y := (Real.exp_pos _).trans_le e1
  have c2 : ((Bounds.expLo Y : ℝ) + 1 / Bounds.expHi Y) / 2 ≤ Real.cosh Y := by
    rw [Real.cosh_eq, Real.exp_neg]
    have : 1 / (Bounds.expHi Y : ℝ) ≤ (Real.exp Y)⁻¹ := by
      rw [← one_div]; exact one_div_le_one_div_of_le (Real.exp_pos _) e1
    linarith
  have c3 := c2.trans c1
  have hk' : (4 : ℝ) ≤ (k : ℝ) * ((Bounds.expLo Y : ℝ) + 1 / Bounds.expHi Y) ^ 2 := by
    exact_mod_cast hk
  have hC : 0 < ((Bounds.expLo Y : ℝ) + 1 / Bounds.expHi Y) := by positivity
  generalize ((Bounds.expLo Y : ℝ) + 1 / Bounds.expHi Y) = C at *
  have : (C / 2) ^ 2 ≤ Real.cosh x ^ 2 := pow_le_pow_left₀ (by positivity) c3 2
  refine le_trans (one_div_le_one_div_of_le (by positivity) this) ?_
  rw [div_le_iff₀ (by positivity)]
  linarith

theorem slope_of {X Y : ℚ} {b : List (ℚ × ℚ)} {j : ℕ} {x : ℝ} (h : |x| ≤ (X : ℝ))
    (h' : (Y : ℝ) ≤ x ∨ x ≤ -(Y : ℝ)) (h0 : 0 ≤ X) (h8 : X ≤ 8) (hy : 0 ≤ Y)
    (hl : (b.getD j (0, 0)).1 * (Bounds.expHi X + 1 / Bounds.expLo X) ^ 2 ≤ 4)
    (hk : Y ≤ 8 ∧ 4 ≤ (b.getD j (0, 0)).2 * (Bounds.expLo Y + 1 / Bounds.expHi Y) ^ 2) :
    Slope b j x :=
  ⟨slope_lo h h0 h8 hl, slope_hi h' hy hk.1 hk.2⟩

theorem slope_of0 {X : ℚ} {b : List (ℚ × ℚ)} {j : ℕ} {x : ℝ} (h : |x| ≤ (X : ℝ))
    (h0 : 0 ≤ X) (h8 : X ≤ 8)
    (hl : (b.getD j (0, 0)).1 * (Bounds.expHi X + 1 / Bounds.expLo X) ^ 2 ≤ 4)
    (hk : (b.getD j (0, 0)).2 = 1) : Slope b j x := by
  refine ⟨slope_lo h h0 h8 hl, ?_⟩
  rw [hk, Rat.cast_one, div_le_one (by have := Real.cosh_pos x; positivity)]
  exact one_le_pow₀ (Real.one_le_cosh x)

/-- argument of neuron 1 -/
noncomputable def arg0 (d m v z x : ℝ) : ℝ := -1.271232488 + 2.647891635 * d + (-1.07021796) * m + 0.174087758 * v + 0.092191287 * z + (-0.013763679) * x

/-- argument of neuron 2 -/
noncomputable def arg1 (d m v z x : ℝ) : ℝ := 1.512611028 + (-1.908675436) * d + (-0.535017369) * m + (-0.705141623) * v + 0.167611583 * z + (-0.02661049) * x

/-- argument of neuron 3 -/
noncomputable def arg2 (d m v z x : ℝ) : ℝ := 0.591089009 + 0.203542143 * d + 1.780557636 * m + (-0.080494591) * v + 0.013596356 * z + 0.061508209 * x

/-- argument of neuron 4 -/
noncomputable def arg3 (d m v z x : ℝ) : ℝ := -0.126622688 + (-0.692737498) * d + 0.441505232 * m + 0.775579973 * v + (-0.031717733) * z + (-0.16306571) * x

/-- argument of neuron 5 -/
noncomputable def arg4 (d m v z x : ℝ) : ℝ := -0.415721222 + 0.016162821 * d + 0.218141339 * m + (-1.606099447) * v + (-0.041636256) * z + 0.026057983 * x

/-- slopes of the neurons in box 0 -/
def slM0 : List (ℚ × ℚ) := [(0.0996, 1), (0.0201, 1), (0.4394, 1), (0.1619, 1), (0.1839, 1)]

theorem boxM0 {d m v z x : ℝ} (hd0 : -0.092 ≤ d) (hd1 : d ≤ 0.767) (hm0 : -0.8 ≤ m) (hm1 : m ≤ -0.425) (hv0 : -0.456 ≤ v) (hv1 : v ≤ 0.516) (hz0 : -1 ≤ z) (hz1 : z ≤ 1) (hx0 : -1 ≤ x) (hx1 : x ≤ 1) :
    Slope slM0 0 (arg0 d m v z x) ∧
    Slope slM0 1 (arg1 d m v z x) ∧
    Slope slM0 2 (arg2 d m v z x) ∧
    Slope slM0 3 (arg3 d m v z x) ∧
    Slope slM0 4 (arg4 d m v z x) := by
  exact ⟨slope_of0 (X := 1.82) (abs_le.2 ⟨by simp only [arg0]; push_cast; linarith, by simp only [arg0]; push_cast; linarith⟩)
      (by norm_num) (by norm_num) (by decide +kernel) (by decide +kernel),
    slope_of0 (X := 2.64) (abs_le.2 ⟨by simp only [arg1]; push_cast; linarith, by simp only [arg1]; push_cast; linarith⟩)
      (by norm_num) (by norm_num) (by decide +kernel) (by decide +kernel),
    slope_of0 (X := 0.97) (abs_le.2 ⟨by simp only [arg2]; push_cast; linarith, by simp only [arg2]; push_cast; linarith⟩)
      (by norm_num) (by norm_num) (by decide +kernel) (by decide +kernel),
    slope_of0 (X := 1.56) (abs_le.2 ⟨by simp only [arg3]; push_cast; linarith, by simp only [arg3]; push_cast; linarith⟩)
      (by norm_num) (by norm_num) (by decide +kernel) (by decide +kernel),
    slope_of0 (X := 1.49) (abs_le.2 ⟨by simp only [arg4]; push_cast; linarith, by simp only [arg4]; push_cast; linarith⟩)
      (by norm_num) (by norm_num) (by decide +kernel) (by decide +kernel)⟩

/-- slopes of the neurons in box 1 -/
def slM1 : List (ℚ × ℚ) := [(0.1372, 1), (0.0299, 1), (0.5814, 1), (0.2161, 1), (0.2123, 1)]

theorem boxM1 {d m v z x : ℝ} (hd0 : -0.092 ≤ d) (hd1 : d ≤ 0.767) (hm0 : -0.425 ≤ m) (hm1 : m ≤ -0.05) (hv0 : -0.456 ≤ v) (hv1 : v ≤ 0.516) (hz0 : -1 ≤ z) (hz1 : z ≤ 1) (hx0 : -1 ≤ x) (hx1 : x ≤ 1) :
    Slope slM1 0 (arg0 d m v z x) ∧
    Slope slM1 1 (arg1 d m v z x) ∧
    Slope slM1 2 (arg2 d m v z x) ∧
    Slope slM1 3 (arg3 d m v z x) ∧
    Slope slM1 4 (arg4 d m v z x) := by
  exact ⟨slope_of0 (X := 1.65) (abs_le.2 ⟨by simp only [arg0]; push_cast; linarith, by simp only [arg0]; push_cast; linarith⟩)
      (by norm_num) (by norm_num) (by decide +kernel) (by decide +kernel),
    slope_of0 (X := 2.44) (abs_le.2 ⟨by simp only [arg1]; push_cast; linarith, by simp only [arg1]; push_cast; linarith⟩)
      (by norm_num) (by norm_num) (by decide +kernel) (by decide +kernel),
    slope_of0 (X := 0.77) (abs_le.2 ⟨by simp only [arg2]; push_cast; linarith, by simp only [arg2]; push_cast; linarith⟩)
      (by norm_num) (by norm_num) (by decide +kernel) (by decide +kernel),
    slope_of0 (X := 1.4) (abs_le.2 ⟨by simp only [arg3]; push_cast; linarith, by simp only [arg3]; push_cast; linarith⟩)
      (by norm_num) (by norm_num) (by decide +kernel) (by decide +kernel),
    slope_of0 (X := 1.41) (abs_le.2 ⟨by simp only [arg4]; push_cast; linarith, by simp only [arg4]; push_cast; linarith⟩)
      (by norm_num) (by norm_num) (by decide +kernel) (by decide +kernel)⟩

/-- slopes of the neurons in box 2 -/
def slM2 : List (ℚ × ℚ) := [(0.0641, 1), (0.0443, 1), (0.2012, 0.881), (0.29, 1), (0.2443, 1)]

theorem boxM2 {d m v z x : ℝ} (hd0 : -0.092 ≤ d) (hd1 : d ≤ 0.767) (hm0 : -0.05 ≤ m) (hm1 : m ≤ 0.325) (hv0 : -0.456 ≤ v) (hv1 : v ≤ 0.516) (hz0 : -1 ≤ z) (hz1 : z ≤ 1) (hx0 : -1 ≤ x) (hx1 : x ≤ 1) :
    Slope slM2 0 (arg0 d m v z x) ∧
    Slope slM2 1 (arg1 d m v z x) ∧
    Slope slM2 2 (arg2 d m v z x) ∧
    Slope slM2 3 (arg3 d m v z x) ∧
    Slope slM2 4 (arg4 d m v z x) := by
  exact ⟨slope_of0 (X := 2.05) (abs_le.2 ⟨by simp only [arg0]; push_cast; linarith, by simp only [arg0]; push_cast; linarith⟩)
      (by norm_num) (by norm_num) (by decide +kernel) (by decide +kernel),
    slope_of0 (X := 2.24) (abs_le.2 ⟨by simp only [arg1]; push_cast; linarith, by simp only [arg1]; push_cast; linarith⟩)
      (by norm_num) (by norm_num) (by decide +kernel) (by decide +kernel),
    slope_of (X := 1.44) (Y := 0.36) (abs_le.2 ⟨by simp only [arg2]; push_cast; linarith, by simp only [arg2]; push_cast; linarith⟩) (Or.inl (by simp only [arg2]; push_cast; linarith))
      (by norm_num) (by norm_num) (by norm_num) (by decide +kernel) (by decide +kernel),
    slope_of0 (X := 1.23) (abs_le.2 ⟨by simp only [arg3]; push_cast; linarith, by simp only [arg3]; push_cast; linarith⟩)
      (by norm_num) (by norm_num) (by decide +kernel) (by decide +kernel),
    slope_of0 (X := 1.33) (abs_le.2 ⟨by simp only [arg4]; push_cast; linarith, by simp only [arg4]; push_cast; linarith⟩)
      (by norm_num) (by norm_num) (by decide +kernel) (by decide +kernel)⟩

/-- slopes of the neurons in box 3 -/
def slM3 : List (ℚ × ℚ) := [(0.0293, 1), (0.0653, 1), (0.057, 0.4012), (0.3767, 1), (0.2804, 1)]

theorem boxM3 {d m v z x : ℝ} (hd0 : -0.092 ≤ d) (hd1 : d ≤ 0.767) (hm0 : 0.325 ≤ m) (hm1 : m ≤ 0.7) (hv0 : -0.456 ≤ v) (hv1 : v ≤ 0.516) (hz0 : -1 ≤ z) (hz1 : z ≤ 1) (hx0 : -1 ≤ x) (hx1 : x ≤ 1) :
    Slope slM3 0 (arg0 d m v z x) ∧
    Slope slM3 1 (arg1 d m v z x) ∧
    Slope slM3 2 (arg2 d m v z x) ∧
    Slope slM3 3 (arg3 d m v z x) ∧
    Slope slM3 4 (arg4 d m v z x) := by
  exact ⟨slope_of0 (X := 2.45) (abs_le.2 ⟨by simp only [arg0]; push_cast; linarith, by simp only [arg0]; push_cast; linarith⟩)
      (by norm_num) (by norm_num) (by decide +kernel) (by decide +kernel),
    slope_of0 (X := 2.04) (abs_le.2 ⟨by simp only [arg1]; push_cast; linarith, by simp only [arg1]; push_cast; linarith⟩)
      (by norm_num) (by norm_num) (by decide +kernel) (by decide +kernel),
    slope_of (X := 2.11) (Y := 1.03) (abs_le.2 ⟨by simp only [arg2]; push_cast; linarith, by simp only [arg2]; push_cast; linarith⟩) (Or.inl (by simp only [arg2]; push_cast; linarith))
      (by norm_num) (by norm_num) (by norm_num) (by decide +kernel) (by decide +kernel),
    slope_of0 (X := 1.07) (abs_le.2 ⟨by simp only [arg3]; push_cast; linarith, by simp only [arg3]; push_cast; linarith⟩)
      (by norm_num) (by norm_num) (by decide +kernel) (by decide +kernel),
    slope_of0 (X := 1.25) (abs_le.2 ⟨by simp only [arg4]; push_cast; linarith, by simp only [arg4]; push_cast; linarith⟩)
      (by norm_num) (by norm_num) (by decide +kernel) (by decide +kernel)⟩

/-- slopes of the neurons in box 0 -/
def slD0 : List (ℚ × ℚ) := [(0.0293, 1), (0.0201, 0.8929), (0.0734, 1), (0.3478, 1), (0.1839, 1)]

theorem boxD0 {d m v z x : ℝ} (hd0 : -0.092 ≤ d) (hd1 : d ≤ 0.12275) (hm0 : -0.8 ≤ m) (hm1 : m ≤ 0.7) (hv0 : -0.456 ≤ v) (hv1 : v ≤ 0.516) (hz0 : -1 ≤ z) (hz1 : z ≤ 1) (hx0 : -1 ≤ x) (hx1 : x ≤ 1) :
    Slope slD0 0 (arg0 d m v z x) ∧
    Slope slD0 1 (arg1 d m v z x) ∧
    Slope slD0 2 (arg2 d m v z x) ∧
    Slope slD0 3 (arg3 d m v z x) ∧
    Slope slD0 4 (arg4 d m v z x) := by
  exact ⟨slope_of0 (X := 2.45) (abs_le.2 ⟨by simp only [arg0]; push_cast; linarith, by simp only [arg0]; push_cast; linarith⟩)
      (by norm_num) (by norm_num) (by decide +kernel) (by decide +kernel),
    slope_of (X := 2.64) (Y := 0.34) (abs_le.2 ⟨by simp only [arg1]; push_cast; linarith, by simp only [arg1]; push_cast; linarith⟩) (Or.inl (by simp only [arg1]; push_cast; linarith))
      (by norm_num) (by norm_num) (by norm_num) (by decide +kernel) (by decide +kernel),
    slope_of0 (X := 1.98) (abs_le.2 ⟨by simp only [arg2]; push_cast; linarith, by simp only [arg2]; push_cast; linarith⟩)
      (by norm_num) (by norm_num) (by decide +kernel) (by decide +kernel),
    slope_of0 (X := 1.12) (abs_le.2 ⟨by simp only [arg3]; push_cast; linarith, by simp only [arg3]; push_cast; linarith⟩)
      (by norm_num) (by norm_num) (by decide +kernel) (by decide +kernel),
    slope_of0 (X := 1.49) (abs_le.2 ⟨by simp only [arg4]; push_cast; linarith, by simp only [arg4]; push_cast; linarith⟩)
      (by norm_num) (by norm_num) (by decide +kernel) (by decide +kernel)⟩

/-- slopes of the neurons in box 1 -/
def slD1 : List (ℚ × ℚ) := [(0.0872, 1), (0.0451, 1), (0.0679, 1), (0.271, 1), (0.1839, 1)]

theorem boxD1 {d m v z x : ℝ} (hd0 : 0.12275 ≤ d) (hd1 : d ≤ 0.3375) (hm0 : -0.8 ≤ m) (hm1 : m ≤ 0.7) (hv0 : -0.456 ≤ v) (hv1 : v ≤ 0.516) (hz0 : -1 ≤ z) (hz1 : z ≤ 1) (hx0 : -1 ≤ x) (hx1 : x ≤ 1) :
    Slope slD1 0 (arg0 d m v z x) ∧
    Slope slD1 1 (arg1 d m v z x) ∧
    Slope slD1 2 (arg2 d m v z x) ∧
    Slope slD1 3 (arg3 d m v z x) ∧
    Slope slD1 4 (arg4 d m v z x) := by
  exact ⟨slope_of0 (X := 1.89) (abs_le.2 ⟨by simp only [arg0]; push_cast; linarith, by simp only [arg0]; push_cast; linarith⟩)
      (by norm_num) (by norm_num) (by decide +kernel) (by decide +kernel),
    slope_of0 (X := 2.23) (abs_le.2 ⟨by simp only [arg1]; push_cast; linarith, by simp only [arg1]; push_cast; linarith⟩)
      (by norm_num) (by norm_num) (by decide +kernel) (by decide +kernel),
    slope_of0 (X := 2.02) (abs_le.2 ⟨by simp only [arg2]; push_cast; linarith, by simp only [arg2]; push_cast; linarith⟩)
      (by norm_num) (by norm_num) (by decide +kernel) (by decide +kernel),
    slope_of0 (X := 1.27) (abs_le.2 ⟨by simp only [arg3]; push_cast; linarith, by simp only [arg3]; push_cast; linarith⟩)
      (by norm_num) (by norm_num) (by decide +kernel) (by decide +kernel),
    slope_of0 (X := 1.49) (abs_le.2 ⟨by simp only [arg4]; push_cast; linarith, by simp only [arg4]; push_cast; linarith⟩)
      (by norm_num) (by norm_num) (by decide +kernel) (by decide +kernel)⟩

/-- slopes of the neurons in box 2 -/
def slD2 : List (ℚ × ℚ) := [(0.2486, 1), (0.0996, 1), (0.0617, 1), (0.2086, 1), (0.1839, 1)]

theorem boxD2 {d m v z x : ℝ} (hd0 : 0.3375 ≤ d) (hd1 : d ≤ 0.55225) (hm0 : -0.8 ≤ m) (hm1 : m ≤ 0.7) (hv0 : -0.456 ≤ v) (hv1 : v ≤ 0.516) (hz0 : -1 ≤ z) (hz1 : z ≤ 1) (hx0 : -1 ≤ x) (hx1 : x ≤ 1) :
    Slope slD2 0 (arg0 d m v z x) ∧
    Slope slD2 1 (arg1 d m v z x) ∧
    Slope slD2 2 (arg2 d m v z x) ∧
    Slope slD2 3 (arg3 d m v z x) ∧
    Slope slD2 4 (arg4 d m v z x) := by
  exact ⟨slope_of0 (X := 1.32) (abs_le.2 ⟨by simp only [arg0]; push_cast; linarith, by simp only [arg0]; push_cast; linarith⟩)
      (by norm_num) (by norm_num) (by decide +kernel) (by decide +kernel),
    slope_of0 (X := 1.82) (abs_le.2 ⟨by simp only [arg1]; push_cast; linarith, by simp only [arg1]; push_cast; linarith⟩)
      (by norm_num) (by norm_num) (by decide +kernel) (by decide +kernel),
    slope_of0 (X := 2.07) (abs_le.2 ⟨by simp only [arg2]; push_cast; linarith, by simp only [arg2]; push_cast; linarith⟩)
      (by norm_num) (by norm_num) (by decide +kernel) (by decide +kernel),
    slope_of0 (X := 1.42) (abs_le.2 ⟨by simp only [arg3]; push_cast; linarith, by simp only [arg3]; push_cast; linarith⟩)
      (by norm_num) (by norm_num) (by decide +kernel) (by decide +kernel),
    slope_of0 (X := 1.49) (abs_le.2 ⟨by simp only [arg4]; push_cast; linarith, by simp only [arg4]; push_cast; linarith⟩)
      (by norm_num) (by norm_num) (by decide +kernel) (by decide +kernel)⟩

/-- slopes of the neurons in box 3 -/
def slD3 : List (ℚ × ℚ) := [(0.0996, 1), (0.2123, 1), (0.057, 1), (0.1619, 1), (0.1873, 1)]

theorem boxD3 {d m v z x : ℝ} (hd0 : 0.55225 ≤ d) (hd1 : d ≤ 0.767) (hm0 : -0.8 ≤ m) (hm1 : m ≤ 0.7) (hv0 : -0.456 ≤ v) (hv1 : v ≤ 0.516) (hz0 : -1 ≤ z) (hz1 : z ≤ 1) (hx0 : -1 ≤ x) (hx1 : x ≤ 1) :
    Slope slD3 0 (arg0 d m v z x) ∧
    Slope slD3 1 (arg1 d m v z x) ∧
    Slope slD3 2 (arg2 d m v z x) ∧
    Slope slD3 3 (arg3 d m v z x) ∧
    Slope slD3 4 (arg4 d m v z x) := by
  exact ⟨slope_of0 (X := 1.82) (abs_le.2 ⟨by simp only [arg0]; push_cast; linarith, by simp only [arg0]; push_cast; linarith⟩)
      (by norm_num) (by norm_num) (by decide +kernel) (by decide +kernel),
    slope_of0 (X := 1.41) (abs_le.2 ⟨by simp only [arg1]; push_cast; linarith, by simp only [arg1]; push_cast; linarith⟩)
      (by norm_num) (by norm_num) (by decide +kernel) (by decide +kernel),
    slope_of0 (X := 2.11) (abs_le.2 ⟨by simp only [arg2]; push_cast; linarith, by simp only [arg2]; push_cast; linarith⟩)
      (by norm_num) (by norm_num) (by decide +kernel) (by decide +kernel),
    slope_of0 (X := 1.56) (abs_le.2 ⟨by simp only [arg3]; push_cast; linarith, by simp only [arg3]; push_cast; linarith⟩)
      (by norm_num) (by norm_num) (by decide +kernel) (by decide +kernel),
    slope_of0 (X := 1.48) (abs_le.2 ⟨by simp only [arg4]; push_cast; linarith, by simp only [arg4]; push_cast; linarith⟩)
      (by norm_num) (by norm_num) (by decide +kernel) (by decide +kernel)⟩

/-- output weight of neuron `j` -/
def w (c : Row) (j : ℕ) : ℚ := c.w2.getD j 0

/-- the network before the output bias -/
noncomputable def net (c : Row) (d m v z x : ℝ) : ℝ :=
  w c 0 * Real.tanh (arg0 d m v z x) + w c 1 * Real.tanh (arg1 d m v z x) +
    w c 2 * Real.tanh (arg2 d m v z x) + w c 3 * Real.tanh (arg3 d m v z x) +
    w c 4 * Real.tanh (arg4 d m v z x)

/-- largest value of `s * k` for a slope `k` of neuron `j` -/
def up (b : List (ℚ × ℚ)) (j : ℕ) (s : ℚ) : ℚ :=
  if 0 ≤ s then s * (b.getD j (0, 0)).2 else s * (b.getD j (0, 0)).1

/-- smallest value -/
def dn (b : List (ℚ × ℚ)) (j : ℕ) (s : ℚ) : ℚ :=
  if 0 ≤ s then s * (b.getD j (0, 0)).1 else s * (b.getD j (0, 0)).2

theorem le_up {b : List (ℚ × ℚ)} {j : ℕ} {x : ℝ} (h : Slope b j x) (p q : ℚ) :
    (p : ℝ) * (1 / Real.cosh x ^ 2 * q) ≤ (up b j (p * q) : ℝ) := by
  obtain ⟨h1, h2⟩ := h
  unfold up
  generalize (1 / Real.cosh x ^ 2) = k at *
  have e : (p : ℝ) * (k * q) = ((p * q : ℚ) : ℝ) * k := by push_cast; ring
  rw [e]
  generalize p * q = s
  split_ifs with hs
  · rw [Rat.cast_mul]
    exact mul_le_mul_of_nonneg_left h2 (by exact_mod_cast hs)
  · rw [Rat.cast_mul]
    exact mul_le_mul_of_nonpos_left h1 (by exact_mod_cast (not_le.1 hs).le)

theorem dn_le {b : List (ℚ × ℚ)} {j : ℕ} {x : ℝ} (h : Slope b j x) (p q : ℚ) :
    (dn b j (p * q) : ℝ) ≤ (p : ℝ) * (1 / Real.cosh x ^ 2 * q) := by
  obtain ⟨h1, h2⟩ := h
  unfold dn
  generalize (1 / Real.cosh x ^ 2) = k at *
  have e : (p : ℝ) * (k * q) = ((p * q : ℚ) : ℝ) * k := by push_cast; ring
  rw [e]
  generalize p * q = s
  split_ifs with hs
  · rw [Rat.cast_mul]
    exact mul_le_mul_of_nonneg_left h1 (by exact_mod_cast hs)
  · rw [Rat.cast_mul]
    exact mul_le_mul_of_nonpos_left h2 (by exact_mod_cast (not_le.1 hs).le)

/-- weight from input `k` to neuron `j` -/
def u (j k : ℕ) : ℚ := (w1.getD j []).getD k 0

/-- bound from above of the slope of the network in input `k` -/
def rise (b : List (ℚ × ℚ)) (c : Row) (k : ℕ) : ℚ :=
  up b 0 (w c 0 * u 0 k) + up b 1 (w c 1 * u 1 k) + up b 2 (w c 2 * u 2 k) +
    up b 3 (w c 3 * u 3 k) + up b 4 (w c 4 * u 4 k)

/-- bound from below -/
def climb (b : List (ℚ × ℚ)) (c : Row) (k : ℕ) : ℚ :=
  dn b 0 (w c 0 * u 0 k) + dn b 1 (w c 1 * u 1 k) + dn b 2 (w c 2 * u 2 k) +
    dn b 3 (w c 3 * u 3 k) + dn b 4 (w c 4 * u 4 k)

theorem neuron {f : ℝ → ℝ} {q : ℚ} (p : ℚ) {t : ℝ} (h : HasDerivAt f q t) :
    HasDerivAt (fun t => (p : ℝ) * Real.tanh (f t)) (p * (1 / Real.cosh (f t) ^ 2 * q)) t :=
  ((hasDerivAt_tanh (f t)).comp t h).const_mul _

theorem falls {b : List (ℚ × ℚ)} {c : Row} {k : ℕ} {f0 f1 f2 f3 f4 : ℝ → ℝ} {l r : ℝ}
    (h0 : ∀ t, HasDerivAt f0 (u 0 k) t) (h1 : ∀ t, HasDerivAt f1 (u 1 k) t)
    (h2 : ∀ t, HasDerivAt f2 (u 2 k) t) (h3 : ∀ t, HasDerivAt f3 (u 3 k) t)
    (h4 : ∀ t, HasDerivAt f4 (u 4 k) t)
    (hs : ∀ t ∈ Set.Icc l r, Slope b 0 (f0 t) ∧ Slope b 1 (f1 t) ∧ Slope b 2 (f2 t) ∧
      Slope b 3 (f3 t) ∧ Slope b 4 (f4 t)) (hr : rise b c k < 0) :
    StrictAntiOn (fun t => w c 0 * Real.tanh (f0 t) + w c 1 * Real.tanh (f1 t) +
      w c 2 * Real.tanh (f2 t) + w c 3 * Real.tanh (f3 t) + w c 4 * Real.tanh (f4 t))
      (Set.Icc l r) := by
  apply Bounds.strictAntiOn_Icc
  · intro t _
    exact ((((neuron _ (h0 t)).add (neuron _ (h1 t))).add (neuron _ (h2 t))).add
      (neuron _ (h3 t))).add (neuron _ (h4 t))
  · intro t ht
    obtain ⟨s0, s1, s2, s3, s4⟩ := hs t (Set.Ioo_subset_Icc_self ht)
    have e : ((rise b c k : ℚ) : ℝ) < ((0 : ℚ) : ℝ) := by exact_mod_cast hr
    simp only [rise, Rat.cast_add, Rat.cast_zero] at e
    have a0 := le_up s0 (w c 0) (u 0 k)
    have a1 := le_up s1 (w c 1) (u 1 k)
    have a2 := le_up s2 (w c 2) (u 2 k)
    have a3 := le_up s3 (w c 3) (u 3 k)
    have a4 := le_up s4 (w c 4) (u 4 k)
    linarith

theorem grows {b : List (ℚ × ℚ)} {c : Row} {k : ℕ} {f0 f1 f2 f3 f4 : ℝ → ℝ} {l r : ℝ}
    (h0 : ∀ t, HasDerivAt f0 (u 0 k) t) (h1 : ∀ t, HasDerivAt f1 (u 1 k) t)
    (h2 : ∀ t, HasDerivAt f2 (u 2 k) t) (h3 : ∀ t, HasDerivAt f3 (u 3 k) t)
    (h4 : ∀ t, HasDerivAt f4 (u 4 k) t)
    (hs : ∀ t ∈ Set.Icc l r, Slope b 0 (f0 t) ∧ Slope b 1 (f1 t) ∧ Slope b 2 (f2 t) ∧
      Slope b 3 (f3 t) ∧ Slope b 4 (f4 t)) (hr : 0 < climb b c k) :
    StrictMonoOn (fun t => w c 0 * Real.tanh (f0 t) + w c 1 * Real.tanh (f1 t) +
      w c 2 * Real.tanh (f2 t) + w c 3 * Real.tanh (f3 t) + w c 4 * Real.tanh (f4 t))
      (Set.Icc l r) := by
  apply Bounds.strictMonoOn_Icc
  · intro t _
    exact ((((neuron _ (h0 t)).add (neuron _ (h1 t))).add (neuron _ (h2 t))).add
      (neuron _ (h3 t))).add (neuron _ (h4 t))
  · intro t ht
    obtain ⟨s0, s1, s2, s3, s4⟩ := hs t (Set.Ioo_subset_Icc_self ht)
    have e : ((0 : ℚ) : ℝ) < ((climb b c k : ℚ) : ℝ) := by exact_mod_cast hr
    simp only [climb, Rat.cast_add, Rat.cast_zero] at e
    have a0 := dn_le s0 (w c 0) (u 0 k)
    have a1 := dn_le s1 (w c 1) (u 1 k)
    have a2 := dn_le s2 (w c 2) (u 2 k)
    have a3 := dn_le s3 (w c 3) (u 3 k)
    have a4 := dn_le s4 (w c 4) (u 4 k)
    linarith

theorem lin_deriv {a p : ℝ} {q : ℚ} (h : (q : ℝ) = p) (t : ℝ) :
    HasDerivAt (fun t => a + p * t) q t := by
  rw [h]; simpa using ((hasDerivAt_id t).const_mul p).const_add a

/-- the rows that fall with distance, in every magnitude box -/
theorem rows_distance : ∀ i : Fin table.length, i.val < 58 →
    rise slM0 table[i] 0 < 0 ∧ rise slM1 table[i] 0 < 0 ∧ rise slM2 table[i] 0 < 0 ∧
      rise slM3 table[i] 0 < 0 := by decide +kernel

/-- the rows that fall with depth -/
theorem rows_depth : ∀ i : Fin table.length, 55 ≤ i.val →
    rise slM0 table[i] 3 < 0 ∧ rise slM1 table[i] 3 < 0 ∧ rise slM2 table[i] 3 < 0 ∧
      rise slM3 table[i] 3 < 0 := by decide +kernel

/-- the rows that grow with magnitude, in every distance box -/
theorem rows_mag : ∀ i : Fin table.length, i.val = 0 ∨ 41 ≤ i.val →
    0 < climb slD0 table[i] 1 ∧ 0 < climb slD1 table[i] 1 ∧ 0 < climb slD2 table[i] 1 ∧
      0 < climb slD3 table[i] 1 := by decide +kernel

/-- the normalised inputs, as real numbers -/
noncomputable def nd (r : ℝ) : ℝ := 2000 * (Real.logb 10 r + 1) / 3738 - 1
noncomputable def nm (m : ℝ) : ℝ := 2 * (m - 3.6) / 4 - 1
noncomputable def nv (v : ℝ) : ℝ := 20000 * (Real.logb 10 v - 1.9638) / 12397 - 1
noncomputable def nz (z : ℝ) : ℝ := 2 * z / 25 - 1
noncomputable def nx (x : ℝ) : ℝ := 2 * (x - 1) / 3 - 1

theorem five {l : List ℚ} (h : l.length = 5) :
    l = [l.getD 0 0, l.getD 1 0, l.getD 2 0, l.getD 3 0, l.getD 4 0] := by
  match l, h with
  | [a, b, c, d, e], _ => rfl

theorem w2_length : ∀ c ∈ table, c.w2.length = 5 := by decide +kernel

theorem dot_net {c : Row} (hc : c ∈ table) (r m v z x : ℝ) :
    (dot c.w2 (hidden (inputs (F.ofReal r) (F.ofReal m) (F.ofReal v) (F.ofReal z)
      (F.ofReal x)))).val = net c (nd r) (nm m) (nv v) (nz z) (nx x) := by
  rw [five (w2_length c hc)]
  simp only [dot, hidden, inputs, inputLimits, b1, w1, List.zipWith_cons_cons,
    List.zipWith_nil_left, normalise, fsimp, net, w, nd, nm, nv, nz, nx, arg0, arg1, arg2, arg3, arg4]
  push_cast
  have e : ∀ a b a' b' : ℝ, a = a' → b = b' → a + b = a' + b' := fun _ _ _ _ h h' => by rw [h, h']
  have e2 : ∀ a b b' : ℝ, b = b' → a * Real.tanh b = a * Real.tanh b' := fun _ _ _ h => by rw [h]
  rw [← add_assoc, ← add_assoc, ← add_assoc, ← add_assoc, add_zero]
  refine e _ _ _ _ (e _ _ _ _ (e _ _ _ _ (e _ _ _ _ ?_ ?_) ?_) ?_) ?_ <;>
    · apply e2
      norm_num
      ring

/-- ordinate `i` of the constructed object -/
theorem resp_eq {i : ℕ} (hi : i < table.length) (r m v z x : ℝ) :
    (out (F.ofReal r) (F.ofReal m) (F.ofReal v) (F.ofReal z) (F.ofReal x)).resp i =
      (0.5 * (table[i].b2 + net table[i] (nd r) (nm m) (nv v) (nz z) (nx x) + 1) *
        (table[i].respMax - table[i].respMin) + table[i].respMin - Real.logb 10 (scale i).val) *
      Real.log 10 := by
  have h : (out (F.ofReal r) (F.ofReal m) (F.ofReal v) (F.ofReal z) (F.ofReal x)).resp i =
      (lnResp table[i] i (hidden (inputs (F.ofReal r) (F.ofReal m) (F.ofReal v) (F.ofReal z)
        (F.ofReal x)))).val := by
    simp [GmmOut.resp, out, hi]
  rw [h]
  simp only [lnResp, fsimp]
  rw [Real.log_rpow (by norm_num), dot_net (List.getElem_mem hi)]

theorem row_lt : ∀ c ∈ table, c.respMin < c.respMax := by decide +kernel

theorem resp_lt {i : ℕ} (hi : i < table.length) {r m v z x r' m' v' z' x' : ℝ}
    (h : net table[i] (nd r') (nm m') (nv v') (nz z') (nx x') <
      net table[i] (nd r) (nm m) (nv v) (nz z) (nx x)) :
    (out (F.ofReal r') (F.ofReal m') (F.ofReal v') (F.ofReal z') (F.ofReal x')).resp i <
      (out (F.ofReal r) (F.ofReal m) (F.ofReal v) (F.ofReal z) (F.ofReal x)).resp i := by
  rw [resp_eq hi, resp_eq hi]
  have hp : (0 : ℝ) < table[i].respMax - table[i].respMin := by
    have : (table[i].respMin : ℝ) < table[i].respMax := by
      exact_mod_cast row_lt _ (List.getElem_mem hi)
    linarith
  have h2 := mul_lt_mul_of_pos_right h hp
  apply mul_lt_mul_of_pos_right _ (Real.log_pos (by norm_num))
  linarith

theorem logb_bounds {a b : ℕ} (hb : b ≠ 0) {x : ℝ} (hx : 0 < x) :
    (x ^ b ≤ 10 ^ a → Real.logb 10 x ≤ (a : ℝ) / b) ∧
      ((10 : ℝ) ^ a ≤ x ^ b → (a : ℝ) / b ≤ Real.logb 10 x) := by
  have hb' : (0 : ℝ) < b := by exact_mod_cast Nat.pos_of_ne_zero hb
  have e : Real.logb 10 (x ^ b) = b * Real.logb 10 x := by
    rw [← Real.rpow_natCast, Real.logb_rpow_eq_mul_logb_of_pos hx]
  have e2 : Real.logb 10 ((10 : ℝ) ^ a) = a := by
    rw [← Real.rpow_natCast, Real.logb_rpow (by norm_num) (by norm_num)]
  constructor <;> intro h
  · have := Real.logb_le_logb_of_le (b := 10) (by norm_num) (by positivity) h
    rw [e, e2] at this
    rw [le_div_iff₀ hb']; linarith
  · have := Real.logb_le_logb_of_le (b := 10) (by norm_num) (by positivity) h
    rw [e, e2] at this
    rw [div_le_iff₀ hb']; linarith

theorem log2_bounds : 0.30102 ≤ Real.logb 10 2 ∧ Real.logb 10 2 ≤ 0.30108 := by
  have a := (logb_bounds (a := 59) (b := 196) (by norm_num) (by norm_num : (0 : ℝ) < 2)).2
    (by norm_num)
  have b := (logb_bounds (a := 28) (b := 93) (by norm_num) (by norm_num : (0 : ℝ) < 2)).1
    (by norm_num)
  norm_num at a b ⊢
  constructor <;> linarith

theorem log_ten : Real.logb 10 10 = 1 := Real.logb_self_eq_one (by norm_num)

theorem nd_range {r : ℝ} (h0 : 5 ≤ r) (h1 : r ≤ 200) : -0.092 ≤ nd r ∧ nd r ≤ 0.767 := by
  obtain ⟨a, b⟩ := log2_bounds
  have l5 : Real.logb 10 5 = 1 - Real.logb 10 2 := by
    rw [← log_ten, ← Real.logb_div (by norm_num) (by norm_num)]; norm_num
  have l200 : Real.logb 10 200 = 1 + 1 + Real.logb 10 2 := by
    rw [← log_ten, ← Real.logb_mul (by norm_num) (by norm_num),
      ← Real.logb_mul (by norm_num) (by norm_num)]; norm_num
  have c := Real.logb_le_logb_of_le (b := 10) (by norm_num) (by norm_num) h0
  have d := Real.logb_le_logb_of_le (b := 10) (by norm_num) (by linarith) h1
  rw [l5] at c; rw [l200] at d
  unfold nd
  constructor <;> linarith

theorem nv_range {v : ℝ} (h0 : 200 ≤ v) (h1 : v ≤ 800) : -0.456 ≤ nv v ∧ nv v ≤ 0.516 := by
  obtain ⟨a, b⟩ := log2_bounds
  have l800 : Real.logb 10 800 = 1 + 1 + (Real.logb 10 2 + Real.logb 10 2 + Real.logb 10 2) := by
    rw [← log_ten, ← Real.logb_mul (by norm_num) (by norm_num),
      ← Real.logb_mul (by norm_num) (by norm_num), ← Real.logb_mul (by norm_num) (by norm_num),
      ← Real.logb_mul (by norm_num) (by norm_num)]; norm_num
  have l200 : Real.logb 10 200 = 1 + 1 + Real.logb 10 2 := by
    rw [← log_ten, ← Real.logb_mul (by norm_num) (by norm_num),
      ← Real.logb_mul (by norm_num) (by norm_num)]; norm_num
  have c := Real.logb_le_logb_of_le (b := 10) (by norm_num) (by norm_num) h0
  have d := Real.logb_le_logb_of_le (b := 10) (by norm_num) (by linarith) h1
  rw [l200] at c; rw [l800] at d
  unfold nv
  constructor <;> linarith

theorem nm_range {m : ℝ} (h0 : 4 ≤ m) (h1 : m ≤ 7) : -0.8 ≤ nm m ∧ nm m ≤ 0.7 := by
  unfold nm; constructor <;> linarith

theorem nz_range {z : ℝ} (h0 : 0 ≤ z) (h1 : z ≤ 25) : -1 ≤ nz z ∧ nz z ≤ 1 := by
  unfold nz; constructor <;> linarith

theorem nx_range (t : String) : -1 ≤ nx (mechCode t) ∧ nx (mechCode t) ≤ 1 := by
  unfold nx mechCode; split_ifs <;> norm_num

theorem nd_lt {r r' : ℝ} (h0 : 0 < r) (h : r < r') : nd r < nd r' := by
  have := Real.logb_lt_logb (b := 10) (by norm_num) h0 h
  unfold nd; linarith

theorem net_distance {i : ℕ} (hl : i < table.length) (hi : i < 58) {m v z x : ℝ} (hm : -0.8 ≤ m ∧ m ≤ 0.7) (hv : -0.456 ≤ v ∧ v ≤ 0.516) (hz : -1 ≤ z ∧ z ≤ 1) (hx : -1 ≤ x ∧ x ≤ 1) :
    StrictAntiOn (fun d => net table[i] d m v z x) (Set.Icc (-0.092) 0.767) := by
  have hr := rows_distance ⟨i, hl⟩ hi
  simp only [Fin.getElem_fin] at hr
  obtain ⟨r0, r1, r2, r3⟩ := hr
  have g : ∀ b : List (ℚ × ℚ), (∀ d ∈ Set.Icc ((-0.092) : ℝ) 0.767,
      Slope b 0 (arg0 d m v z x) ∧ Slope b 1 (arg1 d m v z x) ∧ Slope b 2 (arg2 d m v z x) ∧
      Slope b 3 (arg3 d m v z x) ∧ Slope b 4 (arg4 d m v z x)) → _ := fun b hb =>
    falls (b := b) (c := table[i]) (k := 0)
      (f0 := fun d => arg0 d m v z x) (f1 := fun d => arg1 d m v z x)
      (f2 := fun d => arg2 d m v z x) (f3 := fun d => arg3 d m v z x)
      (f4 := fun d => arg4 d m v z x)
      (fun t => (lin_deriv (a := arg0 0 m v z x) (p := 2.647891635) (by norm_num [u, w1])
        t).congr_of_eventuallyEq (.of_forall fun y => by simp only [arg0]; ring))
      (fun t => (lin_deriv (a := arg1 0 m v z x) (p := -1.908675436) (by norm_num [u, w1])
        t).congr_of_eventuallyEq (.of_forall fun y => by simp only [arg1]; ring))
      (fun t => (lin_deriv (a := arg2 0 m v z x) (p := 0.203542143) (by norm_num [u, w1])
        t).congr_of_eventuallyEq (.of_forall fun y => by simp only [arg2]; ring))
      (fun t => (lin_deriv (a := arg3 0 m v z x) (p := -0.692737498) (by norm_num [u, w1])
        t).congr_of_eventuallyEq (.of_forall fun y => by simp only [arg3]; ring))
      (fun t => (lin_deriv (a := arg4 0 m v z x) (p := 0.016162821) (by norm_num [u, w1])
        t).congr_of_eventuallyEq (.of_forall fun y => by simp only [arg4]; ring))
      hb
  rcases le_total m (-0.425) with a | a
  · exact g slM0 (fun _ ht => boxM0 ht.1 ht.2 hm.1 a hv.1 hv.2 hz.1 hz.2 hx.1 hx.2) r0
  · rcases le_total m (-0.05) with b | b
    · exact g slM1 (fun _ ht => boxM1 ht.1 ht.2 a b hv.1 hv.2 hz.1 hz.2 hx.1 hx.2) r1
    · rcases le_total m 0.325 with c | c
      · exact g slM2 (fun _ ht => boxM2 ht.1 ht.2 b c hv.1 hv.2 hz.1 hz.2 hx.1 hx.2) r2
      · exact g slM3 (fun _ ht => boxM3 ht.1 ht.2 c hm.2 hv.1 hv.2 hz.1 hz.2 hx.1 hx.2) r3

theorem net_depth {i : ℕ} (hl : i < table.length) (hi : 55 ≤ i) {d m v x : ℝ} (hd : -0.092 ≤ d ∧ d ≤ 0.767) (hm : -0.8 ≤ m ∧ m ≤ 0.7) (hv : -0.456 ≤ v ∧ v ≤ 0.516) (hx : -1 ≤ x ∧ x ≤ 1) :
    StrictAntiOn (fun z => net table[i] d m v z x) (Set.Icc (-1) 1) := by
  have hr := rows_depth ⟨i, hl⟩ hi
  simp only [Fin.getElem_fin] at hr
  obtain ⟨r0, r1, r2, r3⟩ := hr
  have g : ∀ b : List (ℚ × ℚ), (∀ z ∈ Set.Icc ((-1) : ℝ) 1,
      Slope b 0 (arg0 d m v z x) ∧ Slope b 1 (arg1 d m v z x) ∧ Slope b 2 (arg2 d m v z x) ∧
      Slope b 3 (arg3 d m v z x) ∧ Slope b 4 (arg4 d m v z x)) → _ := fun b hb =>
    falls (b := b) (c := table[i]) (k := 3)
      (f0 := fun z => arg0 d m v z x) (f1 := fun z => arg1 d m v z x)
      (f2 := fun z => arg2 d m v z x) (f3 := fun z => arg3 d m v z x)
      (f4 := fun z => arg4 d m v z x)
      (fun t => (lin_deriv (a := arg0 d m v 0 x) (p := 0.092191287) (by norm_num [u, w1])
        t).congr_of_eventuallyEq (.of_forall fun y => by simp only [arg0]; ring))
      (fun t => (lin_deriv (a := arg1 d m v 0 x) (p := 0.167611583) (by norm_num [u, w1])
        t).congr_of_eventuallyEq (.of_forall fun y => by simp only [arg1]; ring))
      (fun t => (lin_deriv (a := arg2 d m v 0 x) (p := 0.013596356) (by norm_num [u, w1])
        t).congr_of_eventuallyEq (.of_forall fun y => by simp only [arg2]; ring))
      (fun t => (lin_deriv (a := arg3 d m v 0 x) (p := -0.031717733) (by norm_num [u, w1])
        t).congr_of_eventuallyEq (.of_forall fun y => by simp only [arg3]; ring))
      (fun t => (lin_deriv (a := arg4 d m v 0 x) (p := -0.041636256) (by norm_num [u, w1])
        t).congr_of_eventuallyEq (.of_forall fun y => by simp only [arg4]; ring))
      hb
  rcases le_total m (-0.425) with a | a
  · exact g slM0 (fun _ ht => boxM0 hd.1 hd.2 hm.1 a hv.1 hv.2 ht.1 ht.2 hx.1 hx.2) r0
  · rcases le_total m (-0.05) with b | b
    · exact g slM1 (fun _ ht => boxM1 hd.1 hd.2 a b hv.1 hv.2 ht.1 ht.2 hx.1 hx.2) r1
    · rcases le_total m 0.325 with c | c
      · exact g slM2 (fun _ ht => boxM2 hd.1 hd.2 b c hv.1 hv.2 ht.1 ht.2 hx.1 hx.2) r2
      · exact g slM3 (fun _ ht => boxM3 hd.1 hd.2 c hm.2 hv.1 hv.2 ht.1 ht.2 hx.1 hx.2) r3

theorem net_mag {i : ℕ} (hl : i < table.length) (hi : i = 0 ∨ 41 ≤ i) {d v z x : ℝ} (hd : -0.092 ≤ d ∧ d ≤ 0.767) (hv : -0.456 ≤ v ∧ v ≤ 0.516) (hz : -1 ≤ z ∧ z ≤ 1) (hx : -1 ≤ x ∧ x ≤ 1) :
    StrictMonoOn (fun m => net table[i] d m v z x) (Set.Icc (-0.8) 0.7) := by
  have hr := rows_mag ⟨i, hl⟩ hi
  simp only [Fin.getElem_fin] at hr
  obtain ⟨r0, r1, r2, r3⟩ := hr
  have g : ∀ b : List (ℚ × ℚ), (∀ m ∈ Set.Icc ((-0.8) : ℝ) 0.7,
      Slope b 0 (arg0 d m v z x) ∧ Slope b 1 (arg1 d m v z x) ∧ Slope b 2 (arg2 d m v z x) ∧
      Slope b 3 (arg3 d m v z x) ∧ Slope b 4 (arg4 d m v z x)) → _ := fun b hb =>
    grows (b := b) (c := table[i]) (k := 1)
      (f0 := fun m => arg0 d m v z x) (f1 := fun m => arg1 d m v z x)
      (f2 := fun m => arg2 d m v z x) (f3 := fun m => arg3 d m v z x)
      (f4 := fun m => arg4 d m v z x)
      (fun t => (lin_deriv (a := arg0 d 0 v z x) (p := -1.07021796) (by norm_num [u, w1])
        t).congr_of_eventuallyEq (.of_forall fun y => by simp only [arg0]; ring))
      (fun t => (lin_deriv (a := arg1 d 0 v z x) (p := -0.535017369) (by norm_num [u, w1])
        t).congr_of_eventuallyEq (.of_forall fun y => by simp only [arg1]; ring))
      (fun t => (lin_deriv (a := arg2 d 0 v z x) (p := 1.780557636) (by norm_num [u, w1])
        t).congr_of_eventuallyEq (.of_forall fun y => by simp only [arg2]; ring))
      (fun t => (lin_deriv (a := arg3 d 0 v z x) (p := 0.441505232) (by norm_num [u, w1])
        t).congr_of_eventuallyEq (.of_forall fun y => by simp only [arg3]; ring))
      (fun t => (lin_deriv (a := arg4 d 0 v z x) (p := 0.218141339) (by norm_num [u, w1])
        t).congr_of_eventuallyEq (.of_forall fun y => by simp only [arg4]; ring))
      hb
  rcases le_total d 0.12275 with a | a
  · exact g slD0 (fun _ ht => boxD0 hd.1 a ht.1 ht.2 hv.1 hv.2 hz.1 hz.2 hx.1 hx.2) r0
  · rcases le_total d 0.3375 with b | b
    · exact g slD1 (fun _ ht => boxD1 a b ht.1 ht.2 hv.1 hv.2 hz.1 hz.2 hx.1 hx.2) r1
    · rcases le_total d 0.55225 with c | c
      · exact g slD2 (fun _ ht => boxD2 b c ht.1 ht.2 hv.1 hv.2 hz.1 hz.2 hx.1 hx.2) r2
      · exact g slD3 (fun _ ht => boxD3 c hd.2 ht.1 ht.2 hv.1 hv.2 hz.1 hz.2 hx.1 hx.2) r3

theorem std_facts : ∀ c ∈ table, 0.298 ≤ c.stdTotal ∧ c.stdTotal ≤ 0.378 := by decide +kernel

/-- the same scenario inputs, read off a scenario -/
structure Holds (s : Scenario) (m r v z : ℝ) (t : String) : Prop where
  mag : s.get "mag" = .num m
  dist : s.get "dist_jb" = .num r
  vs : s.get "v_s30" = .num v
  depth : s.get "depth_hyp" = .num z
  mech : s.get "mechanism" = .str t
  known : t ∈ ["SS", "NS", "RS"]

theorem Holds.gives {s : Scenario} {m r v z : ℝ} {t : String} (h : Holds s m r v z t) :
    Gives cls s (out (F.ofReal r) (F.ofReal m) (F.ofReal v) (F.ofReal z)
      (F.ofReal (mechCode t))) :=
  gives' s h.mag h.dist h.vs h.depth h.mech h.known

theorem table_length : table.length = 64 := rfl

end DBC14

/-- DerrasBardCotton2014: the standard deviation of every ordinate is the same number for
every scenario, and it is a base-ten standard deviation between 0.298 and 0.378 put into
natural logarithms (multiplied by ln 10): 0.298 for the first ordinate (PGV) and 0.309 for
the second (PGA). -/
theorem C105_std (s s' : Scenario) (m r v z m' r' v' z' : ℝ) (t t' : String)
    (h : DBC14.Holds s m r v z t) (h' : DBC14.Holds s' m' r' v' z' t')
    {o o' : GmmOut} (ho : Gives DBC14.cls s o) (ho' : Gives DBC14.cls s' o') :
    o.lnStd = o'.lnStd ∧ ∃ l, o.lnStd = some l ∧ l.length = 64 ∧
      (∀ y ∈ l, y.ok ∧ 0.298 * Real.log 10 ≤ y.val ∧ y.val ≤ 0.378 * Real.log 10) ∧
      (l.getD 0 F.nan).val = 0.298 * Real.log 10 ∧
      (l.getD 1 F.nan).val = 0.309 * Real.log 10 := by
  have e := ho.unique h.gives
  have e' := ho'.unique h'.gives
  subst e; subst e'
  have val : ∀ c : DBC14.Row, (DBC14.lnStd c).val = c.stdTotal * Real.log 10 := by
    intro c
    simp only [DBC14.lnStd, fsimp]
    rw [Real.log_rpow (by norm_num)]
  have lp : 0 < Real.log 10 := Real.log_pos (by norm_num)
  refine ⟨rfl, _, rfl, by rw [List.length_map, DBC14.table_length], ?_, ?_, ?_⟩
  · intro y hy
    obtain ⟨c, hc, rfl⟩ := List.mem_map.1 hy
    obtain ⟨a, b⟩ := DBC14.std_facts c hc
    have a' : ((0.298 : ℚ) : ℝ) ≤ c.stdTotal := by exact_mod_cast a
    have b' : (c.stdTotal : ℝ) ≤ ((0.378 : ℚ) : ℝ) := by exact_mod_cast b
    push_cast at a' b'
    refine ⟨?_, ?_, ?_⟩
    · simp only [DBC14.lnStd, fsimp]
      exact ⟨Or.inl (by norm_num), Real.rpow_pos_of_pos (by norm_num) _⟩
    · rw [val]; exact mul_le_mul_of_nonneg_right a' lp.le
    · rw [val]; exact mul_le_mul_of_nonneg_right b' lp.le
  · rw [getD_row _ _ (by rw [DBC14.table_length]; norm_num), val]
    norm_num [DBC14.table]
  · rw [getD_row _ _ (by rw [DBC14.table_length]; norm_num), val]
    norm_num [DBC14.table]

/-- DerrasBardCotton2014: in the declared range of magnitudes, velocities and depths, the
response falls strictly with the Joyner-Boore distance between 5 and 200 km, for PGV, PGA
and the spectral ordinates up to index 57, whatever the mechanism. -/
theorem C105_distance (s s' : Scenario) (m r r' v z : ℝ) (t : String)
    (h : DBC14.Holds s m r v z t) (h' : DBC14.Holds s' m r' v z t)
    (hm : 4 ≤ m ∧ m ≤ 7) (hv : 200 ≤ v ∧ v ≤ 800) (hz : 0 ≤ z ∧ z ≤ 25)
    (hr : 5 ≤ r) (hlt : r < r') (hr' : r' ≤ 200)
    {o o' : GmmOut} (ho : Gives DBC14.cls s o) (ho' : Gives DBC14.cls s' o') :
    ∀ i < 58, o'.resp i < o.resp i := by
  have e := ho.unique h.gives
  have e' := ho'.unique h'.gives
  subst e; subst e'
  intro i hi
  have hl : i < DBC14.table.length := by rw [DBC14.table_length]; omega
  apply DBC14.resp_lt hl
  have b := DBC14.nd_range hr (by linarith)
  have b' := DBC14.nd_range (by linarith : 5 ≤ r') hr'
  exact DBC14.net_distance hl hi (DBC14.nm_range hm.1 hm.2) (DBC14.nv_range hv.1 hv.2)
    (DBC14.nz_range hz.1 hz.2) (DBC14.nx_range t) ⟨b.1, b.2⟩ ⟨b'.1, b'.2⟩
    (DBC14.nd_lt (by linarith) hlt)

/-- DerrasBardCotton2014: in the declared range, the long-period ordinates (index 55 and
above) fall strictly with the hypocentral depth. -/
theorem C105_depth (s s' : Scenario) (m r v z z' : ℝ) (t : String)
    (h : DBC14.Holds s m r v z t) (h' : DBC14.Holds s' m r v z' t)
    (hm : 4 ≤ m ∧ m ≤ 7) (hr : 5 ≤ r ∧ r ≤ 200) (hv : 200 ≤ v ∧ v ≤ 800)
    (hz : 0 ≤ z) (hlt : z < z') (hz' : z' ≤ 25)
    {o o' : GmmOut} (ho : Gives DBC14.cls s o) (ho' : Gives DBC14.cls s' o') :
    ∀ i, 55 ≤ i → i < 64 → o'.resp i < o.resp i := by
  have e := ho.unique h.gives
  have e' := ho'.unique h'.gives
  subst e; subst e'
  intro i hi h64
  have hl : i < DBC14.table.length := by rw [DBC14.table_length]; omega
  apply DBC14.resp_lt hl
  have b := DBC14.nz_range hz (by linarith)
  have b' := DBC14.nz_range (by linarith : 0 ≤ z') hz'
  exact DBC14.net_depth hl hi (DBC14.nd_range hr.1 hr.2) (DBC14.nm_range hm.1 hm.2)
    (DBC14.nv_range hv.1 hv.2) (DBC14.nx_range t) ⟨b.1, b.2⟩ ⟨b'.1, b'.2⟩
    (by unfold DBC14.nz; linarith)

/-- DerrasBardCotton2014: in the declared range, PGV and the ordinates of index 41 and above
grow strictly with magnitude. -/
theorem C105_magnitude (s s' : Scenario) (m m' r v z : ℝ) (t : String)
    (h : DBC14.Holds s m r v z t) (h' : DBC14.Holds s' m' r v z t)
    (hr : 5 ≤ r ∧ r ≤ 200) (hv : 200 ≤ v ∧ v ≤ 800) (hz : 0 ≤ z ∧ z ≤ 25)
    (hm : 4 ≤ m) (hlt : m < m') (hm' : m' ≤ 7)
    {o o' : GmmOut} (ho : Gives DBC14.cls s o) (ho' : Gives DBC14.cls s' o') :
    ∀ i, i = 0 ∨ 41 ≤ i → i < 64 → o.resp i < o'.resp i := by
  have e := ho.unique h.gives
  have e' := ho'.unique h'.gives
  subst e; subst e'
  intro i hi h64
  have hl : i < DBC14.table.length := by rw [DBC14.table_length]; omega
  apply DBC14.resp_lt hl
  have b := DBC14.nm_range hm (by linarith)
  have b' := DBC14.nm_range (by linarith : 4 ≤ m') hm'
  exact DBC14.net_mag hl hi (DBC14.nd_range hr.1 hr.2) (DBC14.nv_range hv.1 hv.2)
    (DBC14.nz_range hz.1 hz.2) (DBC14.nx_range t) ⟨b.1, b.2⟩ ⟨b'.1, b'.2⟩
    (by unfold DBC14.nm; linarith)

namespace DBC14

/-- a scenario for the examples -/
noncomputable def exS (m r v z : ℝ) (t : String) : Scenario :=
  ⟨[("mag", .num m), ("dist_jb", .num r), ("v_s30", .num v), ("depth_hyp", .num z),
    ("mechanism", .str t)], []⟩

theorem exS_holds (m r v z : ℝ) {t : String} (ht : t ∈ ["SS", "NS", "RS"]) :
    Holds (exS m r v z t) m r v z t := by
  constructor <;> first | exact ht | simp [exS, Scenario.get, Dict.get?]

end DBC14

example : ∃ o o', Gives DBC14.cls (DBC14.exS 6 20 500 10 "NS") o ∧
    Gives DBC14.cls (DBC14.exS 6 30 500 10 "NS") o' ∧ o'.resp 1 < o.resp 1 :=
  ⟨_, _, (DBC14.exS_holds 6 20 500 10 (by simp)).gives, (DBC14.exS_holds 6 30 500 10 (by simp)).gives,
    C105_distance _ _ 6 20 30 500 10 "NS" (DBC14.exS_holds _ _ _ _ (by simp))
      (DBC14.exS_holds _ _ _ _ (by simp)) (by norm_num) (by norm_num) (by norm_num) (by norm_num)
      (by norm_num) (by norm_num) (DBC14.exS_holds 6 20 500 10 (by simp)).gives
      (DBC14.exS_holds 6 30 500 10 (by simp)).gives 1 (by norm_num)⟩

example : ∃ o o', Gives DBC14.cls (DBC14.exS 6 20 500 10 "NS") o ∧
    Gives DBC14.cls (DBC14.exS 6 20 500 12 "NS") o' ∧ o'.resp 60 < o.resp 60 :=
  ⟨_, _, (DBC14.exS_holds 6 20 500 10 (by simp)).gives, (DBC14.exS_holds 6 20 500 12 (by simp)).gives,
    C105_depth _ _ 6 20 500 10 12 "NS" (DBC14.exS_holds _ _ _ _ (by simp))
      (DBC14.exS_holds _ _ _ _ (by simp)) (by norm_num) (by norm_num) (by norm_num) (by norm_num)
      (by norm_num) (by norm_num) (DBC14.exS_holds 6 20 500 10 (by simp)).gives
      (DBC14.exS_holds 6 20 500 12 (by simp)).gives 60 (by norm_num) (by norm_num)⟩

example : ∃ o o', Gives DBC14.cls (DBC14.exS 5 20 500 10 "SS") o ∧
    Gives DBC14.cls (DBC14.exS 6 20 500 10 "SS") o' ∧ o.resp 0 < o'.resp 0 ∧
    o.lnStd = o'.lnStd :=
  ⟨_, _, (DBC14.exS_holds 5 20 500 10 (by simp)).gives, (DBC14.exS_holds 6 20 500 10 (by simp)).gives,
    C105_magnitude _ _ 5 6 20 500 10 "SS" (DBC14.exS_holds _ _ _ _ (by simp))
      (DBC14.exS_holds _ _ _ _ (by simp)) (by norm_num) (by norm_num) (by norm_num) (by norm_num)
      (by norm_num) (by norm_num) (DBC14.exS_holds 5 20 500 10 (by simp)).gives
      (DBC14.exS_holds 6 20 500 10 (by simp)).gives 0 (Or.inl rfl) (by norm_num),
    (C105_std _ _ 5 20 500 10 6 20 500 10 "SS" "SS" (DBC14.exS_holds _ _ _ _ (by simp))
      (DBC14.exS_holds _ _ _ _ (by simp)) (DBC14.exS_holds 5 20 500 10 (by simp)).gives
      (DBC14.exS_holds 6 20 500 10 (by simp)).gives).1⟩
