import Verif.Interp
import Mathlib.Tactic.Linarith

/-! # Slopes of piecewise linear interpolation -/

namespace Interp

/-- every segment rises by at least `lo` per unit -/
def SlopeGe (lo : ℝ) : List (ℝ × ℝ) → Prop
  | (x0, y0) :: (x1, y1) :: t => lo * (x1 - x0) ≤ y1 - y0 ∧ SlopeGe lo ((x1, y1) :: t)
  | _ => True

theorem seg_ge {x0 y0 x1 y1 lo x y : ℝ} (h : x0 < x1) (hs : lo * (x1 - x0) ≤ y1 - y0) (hxy : x ≤ y) :
    lo * (y - x) ≤ ((y1 - y0) / (x1 - x0) * (y - x0) + y0) - ((y1 - y0) / (x1 - x0) * (x - x0) + y0) := by
  have h1 : lo ≤ (y1 - y0) / (x1 - x0) := by rw [le_div_iff₀ (by linarith)]; exact hs
  have := mul_le_mul_of_nonneg_right h1 (sub_nonneg.2 hxy)
  linarith

/-- the value at the first node -/
theorem at_head (x0 y0 : ℝ) (t : List (ℝ × ℝ)) {x : ℝ} (h : x ≤ x0) : interpR ((x0, y0) :: t) x = y0 := by
  cases t with
  | nil => rfl
  | cons p t => obtain ⟨x1, y1⟩ := p; rw [interpR, if_pos h]

theorem end_seg {x0 y0 x1 y1 : ℝ} (h : x0 < x1) : (y1 - y0) / (x1 - x0) * (x1 - x0) + y0 = y1 := by
  rw [div_mul_cancel₀ _ (by linarith)]; ring

/-- a lower bound of the segments' slopes, not above the 0 outside the nodes, bounds all
difference quotients -/
theorem slope_ge {lo : ℝ} (hlo : lo ≤ 0) : ∀ l : List (ℝ × ℝ), Sorted l → SlopeGe lo l → ∀ {x y : ℝ}, x ≤ y →
    lo * (y - x) ≤ interpR l y - interpR l x
  | [], _, _, x, y, h => by
    simp only [interpR, sub_self]; exact mul_nonpos_of_nonpos_of_nonneg hlo (by linarith)
  | [(x0, y0)], _, _, x, y, h => by
    simp only [interpR, sub_self]; exact mul_nonpos_of_nonpos_of_nonneg hlo (by linarith)
  | (x0, y0) :: (x1, y1) :: t, hs, hg, x, y, h => by
    have hs' := List.pairwise_cons.1 hs
    have hlt : x0 < x1 := hs'.1 (x1, y1) (by simp)
    have ih := fun {x y : ℝ} (h : x ≤ y) => slope_ge hlo ((x1, y1) :: t) hs'.2 hg.2 h
    have e1 := at_head x1 y1 t (le_refl x1)
    have neg : ∀ {a b : ℝ}, a ≤ b → lo * (b - a) ≤ 0 := fun h =>
      mul_nonpos_of_nonpos_of_nonneg hlo (by linarith)
    have e0 : (y1 - y0) / (x1 - x0) * (x0 - x0) + y0 = y0 := by ring
    rw [interpR, interpR]
    by_cases hx0 : x ≤ x0
    · rw [if_pos hx0]
      by_cases hy0 : y ≤ x0
      · rw [if_pos hy0, sub_self]; exact neg h
      rw [if_neg hy0]
      have n := neg hx0
      by_cases hy1 : y < x1
      · rw [if_pos hy1]
        have := seg_ge hlt hg.1 (x := x0) (y := y) (by linarith)
        rw [e0] at this
        linarith
      · rw [if_neg hy1]
        have := ih (not_lt.1 hy1)
        have := hg.1
        rw [e1] at *
        linarith
    · rw [if_neg hx0, if_neg (show ¬ y ≤ x0 by linarith)]
      by_cases hx1 : x < x1
      · rw [if_pos hx1]
        by_cases hy1 : y < x1
        · rw [if_pos hy1]; exact seg_ge hlt hg.1 h
        · rw [if_neg hy1]
          have a := ih (not_lt.1 hy1)
          have b := seg_ge hlt hg.1 (x := x) (y := x1) hx1.le
          rw [end_seg hlt] at b
          rw [e1] at a
          linarith
      · rw [if_neg hx1, if_neg (show ¬ y < x1 by linarith)]; exact ih h

/-- every segment rises by at most `hi` per unit -/
def SlopeLe (hi : ℝ) : List (ℝ × ℝ) → Prop
  | (x0, y0) :: (x1, y1) :: t => y1 - y0 ≤ hi * (x1 - x0) ∧ SlopeLe hi ((x1, y1) :: t)
  | _ => True

theorem seg_le {x0 y0 x1 y1 hi x y : ℝ} (h : x0 < x1) (hs : y1 - y0 ≤ hi * (x1 - x0)) (hxy : x ≤ y) :
    ((y1 - y0) / (x1 - x0) * (y - x0) + y0) - ((y1 - y0) / (x1 - x0) * (x - x0) + y0) ≤ hi * (y - x) := by
  have h1 : (y1 - y0) / (x1 - x0) ≤ hi := by rw [div_le_iff₀ (by linarith)]; exact hs
  have := mul_le_mul_of_nonneg_right h1 (sub_nonneg.2 hxy)
  linarith

/-- between the first and the last node an upper bound of the segments' slopes bounds all
difference quotients -/
theorem slope_le {hi : ℝ} : ∀ l : List (ℝ × ℝ), Sorted l → SlopeLe hi l → ∀ {x y : ℝ}, x ≤ y →
    (∃ p ∈ l, p.1 ≤ x) → (∃ p ∈ l, y ≤ p.1) → interpR l y - interpR l x ≤ hi * (y - x)
  | [], _, _, x, y, h, ⟨_, hp, _⟩, _ => by simp at hp
  | [(x0, y0)], _, _, x, y, h, ⟨p, hp, h1⟩, ⟨q, hq, h2⟩ => by
    simp only [List.mem_singleton] at hp hq
    subst hp; subst hq
    have : y = x := le_antisymm (h2.trans h1) h
    simp [this]
  | (x0, y0) :: (x1, y1) :: t, hs, hg, x, y, h, ⟨p, hp, hpx⟩, ⟨q, hq, hqy⟩ => by
    have hs' := List.pairwise_cons.1 hs
    have hlt : x0 < x1 := hs'.1 (x1, y1) (by simp)
    have e1 := at_head x1 y1 t (le_refl x1)
    have e0 : (y1 - y0) / (x1 - x0) * (x0 - x0) + y0 = y0 := by ring
    have h0 : x0 ≤ x := by
      rcases List.mem_cons.1 hp with rfl | hp
      · exact hpx
      · exact (hs'.1 p hp).le.trans hpx
    have hq' : ∀ w, x1 ≤ w → w ≤ y → ∃ q ∈ (x1, y1) :: t, y ≤ q.1 := fun w h1 h2 => by
      rcases List.mem_cons.1 hq with rfl | hq
      · exact absurd (h1.trans (h2.trans hqy)) (not_le.2 hlt)
      · exact ⟨q, hq, hqy⟩
    have ih := fun {x y : ℝ} (h : x ≤ y) => slope_le ((x1, y1) :: t) hs'.2 hg.2 h
    have val : ∀ w, x0 ≤ w → w < x1 → interpR ((x0, y0) :: (x1, y1) :: t) w =
        (y1 - y0) / (x1 - x0) * (w - x0) + y0 := fun w h1 h2 => by
      rw [interpR]
      rcases h1.eq_or_lt with rfl | h1
      · rw [if_pos le_rfl]; ring
      · rw [if_neg (not_le.2 h1), if_pos h2]
    have val2 : ∀ w, x1 ≤ w → interpR ((x0, y0) :: (x1, y1) :: t) w = interpR ((x1, y1) :: t) w := fun w h1 => by
      rw [interpR, if_neg (by linarith), if_neg (not_lt.2 h1)]
    by_cases hx1 : x < x1
    · rw [val x h0 hx1]
      by_cases hy1 : y < x1
      · rw [val y (h0.trans h) hy1]; exact seg_le hlt hg.1 h
      · have hy1' := not_lt.1 hy1
        rw [val2 y hy1']
        have a := ih hy1' ⟨(x1, y1), by simp, le_rfl⟩ (hq' y hy1' le_rfl)
        have b := seg_le hlt hg.1 (x := x) (y := x1) hx1.le
        rw [end_seg hlt] at b
        rw [e1] at a
        linarith
    · have hx1' := not_lt.1 hx1
      rw [val2 x hx1', val2 y (hx1'.trans h)]
      exact ih h ⟨(x1, y1), by simp, hx1'⟩ (hq' y (hx1'.trans h) le_rfl)

end Interp
