import Verif.Models.Pea11
import Verif.Bounds

/-! # C56: Pezeshk, Zandieh & Tavakoli (2011) -/

open Bounds

set_option linter.unusedSimpArgs false

namespace Pea11

theorem row_facts : ∀ c ∈ table, 0 < c.c_11 ∧ c.c_12 < 0 ∧ 0 < c.c_12 * 7 + c.c_13 ∧
    0 < -6.95e-3 * 40 + c.c_14 ∧ 0 < c.sigma_reg ∧
    (c.c_12 * 7 + c.c_13) - (-6.95e-3 * 7 + c.c_14) ≤ 1e-4 ∧
    -1e-4 ≤ (c.c_12 * 7 + c.c_13) - (-6.95e-3 * 7 + c.c_14) := by
  decide +kernel

/-- the effective distance is at least the (positive) saturation term -/
theorem dist_pos {c : Row} (hc : c ∈ table) (R : ℝ) :
    0 < R ^ 2 + (c.c_11 : ℝ) ^ 2 := by
  have h : (0 : ℝ) < c.c_11 := by exact_mod_cast (row_facts c hc).1
  positivity

theorem lnResp_ok {c : Row} (hc : c ∈ table) (m R : ℝ) :
    (lnResp c (F.ofReal m) (F.ofReal R)).ok := by
  have hp := dist_pos hc R
  have h10 : (0 : ℝ) < 10 := by norm_num
  have hs := Real.sqrt_pos.2 hp
  simp only [lnResp, log10Resp, distR, fsimp]
  refine ⟨⟨?_, Or.inl h10⟩, Real.rpow_pos_of_pos h10 _⟩
  norm_num [hp.le, hs]

theorem lnResp_val (c : Row) (m R : ℝ) :
    (lnResp c (F.ofReal m) (F.ofReal R)).val =
      Real.log 10 * ((c.c_1 + c.c_2 * m + c.c_3 * m ^ 2)
        + (c.c_4 + c.c_5 * m) * min (Real.logb 10 (Real.sqrt (R ^ 2 + c.c_11 ^ 2))) (Real.logb 10 70)
        + (c.c_6 + c.c_7 * m) *
          max (min (Real.logb 10 (Real.sqrt (R ^ 2 + c.c_11 ^ 2) / 70)) (Real.logb 10 (140 / 70))) 0
        + (c.c_8 + c.c_9 * m) * max (Real.logb 10 (Real.sqrt (R ^ 2 + c.c_11 ^ 2) / 140)) 0
        + c.c_10 * Real.sqrt (R ^ 2 + c.c_11 ^ 2)) := by
  simp only [lnResp, log10Resp, distR, fsimp]
  rw [Real.log_rpow (by norm_num)]
  ring

/-- continuity in (magnitude, distance) jointly -/
theorem lnResp_continuous {c : Row} (hc : c ∈ table) :
    Continuous fun p : ℝ × ℝ => (lnResp c (F.ofReal p.1) (F.ofReal p.2)).val := by
  have hp := dist_pos hc
  have hs : ∀ R : ℝ, Real.sqrt (R ^ 2 + (c.c_11 : ℝ) ^ 2) ≠ 0 :=
    fun R => (Real.sqrt_pos.2 (hp R)).ne'
  simp only [lnResp_val, Real.logb]
  have c1 : Continuous fun p : ℝ × ℝ => Real.log (Real.sqrt (p.2 ^ 2 + (c.c_11 : ℝ) ^ 2)) :=
    Continuous.log (by fun_prop) fun p => hs p.2
  have c2 : Continuous fun p : ℝ × ℝ => Real.log (Real.sqrt (p.2 ^ 2 + (c.c_11 : ℝ) ^ 2) / 70) :=
    Continuous.log (by fun_prop) fun p => div_ne_zero (hs p.2) (by norm_num)
  have c3 : Continuous fun p : ℝ × ℝ => Real.log (Real.sqrt (p.2 ^ 2 + (c.c_11 : ℝ) ^ 2) / 140) :=
    Continuous.log (by fun_prop) fun p => div_ne_zero (hs p.2) (by norm_num)
  fun_prop

theorem std_facts_real {c : Row} (hc : c ∈ table) : (c.c_12 : ℝ) < 0 ∧
    0 < (c.c_12 : ℝ) * 7 + c.c_13 ∧ 0 < -6.95e-3 * 40 + (c.c_14 : ℝ) ∧ (0 : ℝ) < c.sigma_reg ∧
    ((c.c_12 : ℝ) * 7 + c.c_13) - (-6.95e-3 * 7 + c.c_14) ≤ 1e-4 ∧
    -1e-4 ≤ ((c.c_12 : ℝ) * 7 + c.c_13) - (-6.95e-3 * 7 + c.c_14) := by
  obtain ⟨-, k1, k2, k3, k4, k5, k6⟩ := row_facts c hc
  have r2 : (0 : ℝ) < ((c.c_12 * 7 + c.c_13 : ℚ) : ℝ) := by exact_mod_cast k2
  have r3 : (0 : ℝ) < ((-6.95e-3 * 40 + c.c_14 : ℚ) : ℝ) := by exact_mod_cast k3
  have r5 : (((c.c_12 * 7 + c.c_13) - (-6.95e-3 * 7 + c.c_14) : ℚ) : ℝ) ≤ ((1e-4 : ℚ) : ℝ) := by
    exact_mod_cast k5
  have r6 : ((-1e-4 : ℚ) : ℝ) ≤ (((c.c_12 * 7 + c.c_13) - (-6.95e-3 * 7 + c.c_14) : ℚ) : ℝ) := by
    exact_mod_cast k6
  push_cast at r2 r3 r5 r6
  exact ⟨by exact_mod_cast k1, r2, r3, by exact_mod_cast k4, r5, r6⟩

end Pea11

/-- PezeshkZandiehTavakoli2011: for every numeric magnitude and distance (also outside
the limits, also a negative distance) all 23 log responses and standard deviations are
defined, and the standard deviation of each period exceeds the regression term
`sigma_reg` of that period whenever the magnitude is at most 40. -/
theorem C56_defined (s : Scenario) (m R : ℝ)
    (hm : s.get "mag" = .num m) (hr : s.get "dist_rup" = .num R) :
    ∃ o sd, Gives Pea11.cls s o ∧ o.lnStd = some sd ∧ o.lnResp.length = 23 ∧ sd.length = 23 ∧
      (∀ y ∈ o.lnResp, y.ok) ∧ (∀ y ∈ sd, y.ok) ∧
      (m ≤ 40 → List.Forall₂ (fun (y : F) (q : ℚ) => (q : ℝ) < y.val) sd
        (Pea11.table.map Pea11.Row.sigma_reg)) := by
  refine ⟨_, _, Pea11.gives s hm hr, rfl, by simp [Pea11.out, Pea11.table],
    by simp [Pea11.table], ?_, ?_, ?_⟩
  · intro y hy
    obtain ⟨c, hc, rfl⟩ := List.mem_map.1 hy
    exact Pea11.lnResp_ok hc m R
  · intro y hy
    obtain ⟨c, hc, rfl⟩ := List.mem_map.1 hy
    simp [Pea11.lnStd]
    positivity
  · intro h40
    rw [List.forall₂_map_left_iff, List.forall₂_map_right_iff, List.forall₂_same]
    intro c hc
    obtain ⟨r1, r2, r3, r4, -, -⟩ := Pea11.std_facts_real hc
    have key : ∀ x : ℝ, 0 < x → (c.sigma_reg : ℝ) < Real.sqrt (x ^ 2 + (c.sigma_reg : ℝ) ^ 2) := by
      intro x hx
      apply Real.lt_sqrt_of_sq_lt
      nlinarith [sq_pos_of_pos hx]
    simp only [Pea11.lnStd, fsimp]
    apply key
    split
    · nlinarith
    · nlinarith

/-- The median is continuous in magnitude and distance jointly, at every period, for all
real magnitudes and distances; in particular across the hinges at 70 and 140 km. -/
theorem C56_continuous (S : ℝ × ℝ → Scenario) (hm : ∀ p, (S p).get "mag" = .num p.1)
    (hr : ∀ p, (S p).get "dist_rup" = .num p.2) :
    ∃ O : ℝ × ℝ → GmmOut, (∀ p, Gives Pea11.cls (S p) (O p) ∧ (O p).lnResp.length = 23) ∧
      ∀ i < 23, Continuous fun p => ((O p).lnResp.getD i F.nan).val := by
  refine ⟨_, fun p => ⟨Pea11.gives (S p) (hm p) (hr p), by simp [Pea11.out, Pea11.table]⟩, fun i hi => ?_⟩
  have hi' : i < Pea11.table.length := by simpa [Pea11.table] using hi
  simp only [Pea11.out, List.getD_eq_getElem?_getD, List.getElem?_map, List.getElem?_eq_getElem hi',
    Option.map_some, Option.getD_some]
  exact Pea11.lnResp_continuous (List.getElem_mem _)

open Filter Topology in
/-- the jump of one row -/
theorem Pea11.row_std_jump (c : Pea11.Row) (hc : c ∈ Pea11.table) :
    ∃ L, Tendsto (fun m => (Pea11.lnStd c (F.ofReal m)).val) (𝓝[>] 7) (𝓝 L) ∧
      |L - (Pea11.lnStd c (F.ofReal 7)).val| ≤ 1e-4 := by
  obtain ⟨r1, r2, r3, r4, r5, r6⟩ := Pea11.std_facts_real hc
  refine ⟨_, tendsto_right
    (g := fun m => Real.sqrt ((-6.95e-3 * m + c.c_14) ^ 2 + (c.sigma_reg : ℝ) ^ 2))
    (by fun_prop) ?_, ?_⟩
  · intro x hx; simp [Pea11.lnStd, hx.not_ge]
  · simp only [Pea11.lnStd, fsimp, le_refl]
    set a : ℝ := -6.95e-3 * 7 + c.c_14
    set b : ℝ := c.c_12 * 7 + c.c_13
    have ha : 0 < a := by simp only [a]; norm_num at r3 ⊢; linarith
    -- |√(a²+σ²) - √(b²+σ²)| ≤ |a - b|
    have key : ∀ x y : ℝ, 0 < x → 0 < y →
        Real.sqrt (x ^ 2 + (c.sigma_reg : ℝ) ^ 2) - Real.sqrt (y ^ 2 + (c.sigma_reg : ℝ) ^ 2)
          ≤ |x - y| := by
      intro x y hx hy
      have h1 : Real.sqrt (x ^ 2 + (c.sigma_reg : ℝ) ^ 2) ≤
          Real.sqrt (y ^ 2 + (c.sigma_reg : ℝ) ^ 2) + |x - y| := by
        apply Real.sqrt_le_iff.2
        constructor
        · positivity
        · have h2 := Real.sq_sqrt (show 0 ≤ y ^ 2 + (c.sigma_reg : ℝ) ^ 2 by positivity)
          have h3 : y ≤ Real.sqrt (y ^ 2 + (c.sigma_reg : ℝ) ^ 2) :=
            Real.le_sqrt_of_sq_le (by nlinarith [sq_nonneg (c.sigma_reg : ℝ)])
          have h4 := abs_nonneg (x - y)
          have h5 := le_abs_self (x - y)
          have h6 := sq_abs (x - y)
          nlinarith [mul_le_mul_of_nonneg_right h3 h4, mul_le_mul_of_nonneg_left h5 hy.le]
      linarith
    have h1 := key a b ha r2
    have h2 := key b a r2 ha
    have h3 : |a - b| ≤ 1e-4 := by rw [abs_le]; constructor <;> linarith
    have h4 : |b - a| ≤ 1e-4 := by rw [abs_sub_comm]; exact h3
    rw [abs_le]
    constructor <;> linarith

open Filter Topology in
/-- The standard deviation jumps by at most 1e-4 when the magnitude crosses 7. -/
theorem C56_std_jump (S : ℝ → Scenario) (R : ℝ) (hm : ∀ m, (S m).get "mag" = .num m)
    (hr : ∀ m, (S m).get "dist_rup" = .num R) :
    ∃ (O : ℝ → GmmOut) (sd : ℝ → List F), (∀ m, Gives Pea11.cls (S m) (O m) ∧ (O m).lnStd = some (sd m)) ∧
      ∀ i < 23, ∃ L, Tendsto (fun m => ((sd m).getD i F.nan).val) (𝓝[>] 7) (𝓝 L) ∧
        |L - ((sd 7).getD i F.nan).val| ≤ 1e-4 := by
  refine ⟨_, _, fun m => ⟨Pea11.gives (S m) (hm m) (hr m), rfl⟩, fun i hi => ?_⟩
  have hi' : i < Pea11.table.length := by simpa [Pea11.table] using hi
  simp only [List.getD_eq_getElem?_getD, List.getElem?_map, List.getElem?_eq_getElem hi',
    Option.map_some, Option.getD_some]
  exact Pea11.row_std_jump _ (List.getElem_mem _)

/-- a family of scenarios for the two theorems above -/
example : ∀ p : ℝ × ℝ, (⟨[("mag", .num p.1), ("dist_rup", .num p.2)], []⟩ : Scenario).get "mag" = .num p.1 ∧
    (⟨[("mag", .num p.1), ("dist_rup", .num p.2)], []⟩ : Scenario).get "dist_rup" = .num p.2 :=
  fun _ => ⟨by simp [Scenario.get, Dict.get?], by simp [Scenario.get, Dict.get?]⟩

example : ∃ o sd, Gives Pea11.cls ⟨[("mag", .num 7.5), ("dist_rup", .num 100)], []⟩ o ∧
    o.lnStd = some sd ∧ ∀ y ∈ sd, y.ok := by
  obtain ⟨o, sd, h1, h2, -, -, -, h3, -⟩ :=
    C56_defined ⟨[("mag", .num 7.5), ("dist_rup", .num 100)], []⟩ 7.5 100
    (by simp [Scenario.get, Dict.get?]) (by simp [Scenario.get, Dict.get?])
  exact ⟨o, sd, h1, h2, h3⟩
