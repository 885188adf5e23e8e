import Verif.Models.Stafford
import Verif.Bounds
import Verif.Compute
import Verif.Props.BJ08

/-! # C38, C39, C75, C76: Stafford (2017) -/

open Bounds

set_option linter.unusedSimpArgs false

namespace Stafford

theorem cov_of {freqs : List ℝ} {sE sS sA : Option (List ℝ)} {mag : ℝ} {c : List (List F)}
    (h : cov freqs sE sS sA mag = pure c) :
    c = (List.range freqs.length).map fun i => (List.range freqs.length).map fun j =>
      covEntry freqs (variances freqs sE sS sA) mag i j := by
  unfold cov at h
  simp only at h
  split at h
  · have := congrArg Py.res h; simp at this
  · have := congrArg Py.res h
    simpa using this.symm

theorem entry_of {n i j : ℕ} (f : ℕ → ℕ → F) (hi : i < n) (hj : j < n) :
    at' ((List.range n).map fun i => (List.range n).map fun j => f i j) i j = f i j := by
  unfold at'
  simp [List.getD_eq_getElem?_getD, hi, hj]

theorem min_comm' (a b : F) : F.min a b = F.min b a := by
  ext
  · simp only [fsimp, min_comm]
  · simp only [fsimp, and_comm]

theorem max_comm' (a b : F) : F.max a b = F.max b a := by
  ext
  · simp only [fsimp, max_comm]
  · simp only [fsimp, and_comm]

theorem betweenEvent_symm (a b m : F) : betweenEvent a b m = betweenEvent b a m := by
  unfold betweenEvent; rw [min_comm', max_comm']

theorem nugget_symm (e g : F → F) (a b : F) : nuggetCorrelation e g a b = nuggetCorrelation e g b a := by
  unfold nuggetCorrelation; rw [min_comm', max_comm']

theorem withinEvent_symm {f g : ℝ} (h : IsClose f g ↔ IsClose g f) : withinEvent f g = withinEvent g f := by
  unfold withinEvent
  rw [nugget_symm]
  by_cases hc : IsClose f g
  · rw [if_pos hc, if_pos (h.1 hc)]
  · rw [if_neg hc, if_neg fun hc' => hc (h.2 hc')]

theorem betweenSite_symm {f g : ℝ} (h : IsClose f g ↔ IsClose g f) : betweenSite f g = betweenSite g f := by
  unfold betweenSite
  rw [nugget_symm]
  by_cases hc : IsClose f g
  · rw [if_pos hc, if_pos (h.1 hc)]
  · rw [if_neg hc, if_neg fun hc' => hc (h.2 hc')]

theorem mul_swap (a b c : F) : a * b * c = a * c * b := by
  ext
  · simp only [fsimp]; ring
  · simp only [fsimp]; tauto

theorem covEntry_symm {freqs : List ℝ} {v : List F × List F × List F} {mag : ℝ} {i j : ℕ}
    (h : IsClose (freqs.getD i 0) (freqs.getD j 0) ↔ IsClose (freqs.getD j 0) (freqs.getD i 0)) :
    covEntry freqs v mag i j = covEntry freqs v mag j i := by
  unfold covEntry
  simp only
  rw [betweenEvent_symm, withinEvent_symm h, betweenSite_symm h, mul_swap _ (v.1.getD i F.nan),
    mul_swap _ (v.2.1.getD i F.nan), mul_swap _ (v.2.2.getD i F.nan)]

theorem getD_mem {l : List ℝ} {i : ℕ} (h : i < l.length) : l.getD i 0 ∈ l := by
  rw [List.getD_eq_getElem?_getD, List.getElem?_eq_getElem h]; simp

end Stafford

open Stafford in
/-- Stafford: the covariance matrix is a square matrix over the frequencies and symmetric, for all
sigmas and magnitudes, provided the closeness test `|f - g| <= 1e-8 + 1e-5 |g|` that decides between
the two formulas is symmetric on the given frequencies (it is not in general: `C38_asymmetric`). -/
theorem C38_symmetric (freqs : List ℝ) (sE sS sA : Option (List ℝ)) (mag : ℝ) (c : List (List F))
    (h : cov freqs sE sS sA mag = pure c)
    (hc : ∀ f ∈ freqs, ∀ g ∈ freqs, |f - g| ≤ 1e-8 + 1e-5 * |g| ↔ |g - f| ≤ 1e-8 + 1e-5 * |f|) :
    c.length = freqs.length ∧ (∀ r ∈ c, r.length = freqs.length) ∧
      ∀ i < freqs.length, ∀ j < freqs.length, at' c i j = at' c j i := by
  rw [cov_of h]
  refine ⟨by simp, ?_, ?_⟩
  · intro r hr
    obtain ⟨i, -, rfl⟩ := List.mem_map.1 hr
    simp
  · intro i hi j hj
    rw [entry_of _ hi hj, entry_of _ hj hi]
    exact covEntry_symm (hc _ (getD_mem hi) _ (getD_mem hj))

namespace Stafford

/-! ### The formulas on real numbers -/

noncomputable def sigR (f a0 a1 a2 : ℝ) : ℝ := a0 / (1 + Real.exp (-a2 * Real.log (f / a1)))

theorem sig_den (f a1 a2 : ℝ) : 1 < 1 + Real.exp (-a2 * Real.log (f / a1)) := by
  have := Real.exp_pos (-a2 * Real.log (f / a1)); linarith

theorem sigmoid_val (f a0 a1 a2 : F) : (sigmoid f a0 a1 a2).val = sigR f.val a0.val a1.val a2.val := by
  simp only [sigmoid, sigR, fsimp]

theorem sigmoid_ok {f a0 a1 a2 : F} (hf : f.ok) (h : 0 < f.val) (h0 : a0.ok) (h1 : a1.ok) (h1' : 0 < a1.val)
    (h2 : a2.ok) : (sigmoid f a0 a1 a2).ok := by
  have := sig_den f.val a1.val a2.val
  simp only [sigmoid, fsimp, hf, h0, h1, h2, true_and, and_true]
  exact ⟨⟨h1'.ne', div_pos h h1'⟩, by linarith⟩

theorem sigR_pos {f a0 a1 a2 : ℝ} (h : 0 < a0) : 0 < sigR f a0 a1 a2 ∧ sigR f a0 a1 a2 < a0 := by
  have := sig_den f a1 a2
  unfold sigR
  constructor
  · exact div_pos h (by linarith)
  · rw [div_lt_iff₀ (by linarith)]; nlinarith

theorem sigR_neg {f a0 a1 a2 : ℝ} (h : a0 < 0) : a0 < sigR f a0 a1 a2 ∧ sigR f a0 a1 a2 < 0 := by
  have := sig_den f a1 a2
  unfold sigR
  constructor
  · rw [lt_div_iff₀ (by linarith)]; nlinarith
  · exact div_neg_of_neg_of_pos h (by linarith)

/-- the exponent part -/
theorem betweenEvent_diag {f m : ℝ} (h : 0 < f) :
    (betweenEvent (F.ofReal f) (F.ofReal f) (F.ofReal m)).ok ∧
      (betweenEvent (F.ofReal f) (F.ofReal f) (F.ofReal m)).val = 1 := by
  have hc : (0 : ℝ) < (10 : ℝ) ^ (2.181 - 0.496 * m) := Real.rpow_pos_of_pos (by norm_num) _
  have ha : 0 < f / (10 : ℝ) ^ (2.181 - 0.496 * m) := div_pos h hc
  have hx : 0 < f / (10 : ℝ) ^ (2.181 - 0.496 * m) / (10 : ℝ) ^ (2.181 - 0.496 * m) := div_pos ha hc
  constructor
  · simp only [betweenEvent, gammaE, cornerFrequency, sigmoid, fsimp, min_self, max_self, hc.ne', ha.ne',
      ne_eq, not_false_eq_true, div_self]
    have hd := sig_den (f / (10 : ℝ) ^ (2.181 - 0.496 * m) / (10 : ℝ) ^ (2.181 - 0.496 * m)) 0.7793 3.0324
    have h10 : (0 : ℝ) < 10 := by norm_num
    have h77 : (0.7793 : ℝ) ≠ 0 := by norm_num
    have hq := div_pos hx (by norm_num : (0 : ℝ) < 0.7793)
    simp only [h10, h77, hq, true_or, not_false_eq_true, true_and, and_true, zero_lt_one]
    exact ne_of_gt (by linarith)
  · simp only [betweenEvent, gammaE, cornerFrequency, sigmoid, fsimp, min_self, max_self,
      div_self ha.ne', Real.log_one, mul_zero, Real.exp_zero]

theorem close_self (f : ℝ) : IsClose f f := by
  unfold IsClose; simp only [sub_self, abs_zero]; positivity

theorem within_diag (f : ℝ) : (withinEvent f f).ok ∧ (withinEvent f f).val = 1 := by
  unfold withinEvent; rw [if_pos (close_self f)]
  constructor
  · simp only [fsimp]
  · simp only [fsimp]; norm_num

theorem site_diag (f : ℝ) : (betweenSite f f).ok ∧ (betweenSite f f).val = 1 := by
  unfold betweenSite; rw [if_pos (close_self f)]
  constructor
  · simp only [fsimp]
  · simp only [fsimp]; norm_num

theorem covEntry_diag {freqs : List ℝ} {v : List F × List F × List F} {mag : ℝ} {i : ℕ}
    (h : 0 < freqs.getD i 0) :
    (covEntry freqs v mag i i).val = (v.1.getD i F.nan).val ^ 2 + (v.2.1.getD i F.nan).val ^ 2 +
      (v.2.2.getD i F.nan).val ^ 2 ∧
    ((v.1.getD i F.nan).ok → (v.2.1.getD i F.nan).ok → (v.2.2.getD i F.nan).ok →
      (covEntry freqs v mag i i).ok) := by
  obtain ⟨a, a'⟩ := betweenEvent_diag (m := mag) h
  obtain ⟨b, b'⟩ := within_diag (freqs.getD i 0)
  obtain ⟨c, c'⟩ := site_diag (freqs.getD i 0)
  constructor
  · simp only [covEntry, fsimp, a', b', c']; ring
  · intro k1 k2 k3
    simp only [covEntry, fsimp, a, b, c, k1, k2, k3]

theorem map_getD {l : List ℝ} {f : ℝ → F} {i : ℕ} (h : i < l.length) :
    (l.map f).getD i F.nan = f (l.getD i 0) := by
  simp [List.getD_eq_getElem?_getD, h]

theorem sigmaE_ok {f : ℝ} (h : 0 < f) : (sigmaE (F.ofReal f)).ok := by
  unfold sigmaE
  rw [F.ok_add, F.ok_add]
  refine ⟨⟨trivial, sigmoid_ok ?_ ?_ ?_ ?_ ?_ ?_⟩, sigmoid_ok ?_ ?_ ?_ ?_ ?_ ?_⟩
  all_goals simp only [fsimp]
  all_goals first | exact h | norm_num

theorem sigmaS_ok {f : ℝ} (h : 0 < f) : (sigmaS (F.ofReal f)).ok := by
  unfold sigmaS
  rw [F.ok_add, F.ok_add]
  refine ⟨⟨trivial, sigmoid_ok ?_ ?_ ?_ ?_ ?_ ?_⟩, sigmoid_ok ?_ ?_ ?_ ?_ ?_ ?_⟩
  all_goals simp only [fsimp]
  all_goals first | exact h | norm_num

theorem sigmaA_ok (f : ℝ) : (sigmaA (F.ofReal f)).ok := by
  have : (0 : ℝ) < max f 5.0 := lt_of_lt_of_le (by norm_num) (le_max_right _ _)
  simp only [sigmaA, fsimp]
  exact ⟨by norm_num, by positivity⟩

end Stafford

open Stafford in
/-- Stafford: with the three sigma lists given, the covariance has on its diagonal
`sigma_E² + sigma_S² + sigma_A²` of each (positive) frequency, for every magnitude. -/
theorem C38_diagonal (freqs e s a : List ℝ) (mag : ℝ) (hp : ∀ f ∈ freqs, 0 < f)
    (he : e.length = freqs.length) (hs : s.length = freqs.length) (ha : a.length = freqs.length) :
    ∃ c, cov freqs (some e) (some s) (some a) mag = pure c ∧ ∀ i < freqs.length,
      (at' c i i).ok ∧ (at' c i i).val = e.getD i 0 ^ 2 + s.getD i 0 ^ 2 + a.getD i 0 ^ 2 := by
  refine ⟨_, by
    unfold cov
    simp only [variances, List.length_map]
    rw [if_neg (by rw [he, hs, ha]; simp)], fun i hi => ?_⟩
  rw [entry_of _ hi hi]
  obtain ⟨h1, h2⟩ := covEntry_diag (v := variances freqs (some e) (some s) (some a)) (mag := mag)
    (hp _ (getD_mem hi))
  have k1 : (e.map F.ofReal).getD i F.nan = F.ofReal (e.getD i 0) := map_getD (by omega)
  have k2 : (s.map F.ofReal).getD i F.nan = F.ofReal (s.getD i 0) := map_getD (by omega)
  have k3 : (a.map F.ofReal).getD i F.nan = F.ofReal (a.getD i 0) := map_getD (by omega)
  simp only [variances] at h1 h2
  rw [k1, k2, k3] at h1 h2
  exact ⟨h2 trivial trivial trivial, by simpa only [fsimp] using h1⟩

open Stafford in
/-- Stafford: without given sigmas, the diagonal is the sum of the squares of the three standard
deviations that `compute_variances` gives for that frequency; all are defined. -/
theorem C38_diagonal_default (freqs : List ℝ) (mag : ℝ) (hp : ∀ f ∈ freqs, 0 < f) :
    ∃ c, cov freqs none none none mag = pure c ∧ ∀ i < freqs.length, ∃ vE vS vA : F,
      (computeVariances freqs).1[i]? = some vE ∧ (computeVariances freqs).2.1[i]? = some vS ∧
      (computeVariances freqs).2.2[i]? = some vA ∧ vE.ok ∧ vS.ok ∧ vA.ok ∧
      (at' c i i).ok ∧ (at' c i i).val = vE.val ^ 2 + vS.val ^ 2 + vA.val ^ 2 := by
  refine ⟨_, by
    unfold cov
    simp only [variances, computeVariances, List.length_map]
    rw [if_neg (by simp)], fun i hi => ?_⟩
  rw [entry_of _ hi hi]
  have hf := hp _ (getD_mem hi)
  obtain ⟨h1, h2⟩ := covEntry_diag (v := variances freqs none none none) (mag := mag) hf
  simp only [variances, computeVariances] at h1 h2 ⊢
  rw [map_getD hi, map_getD hi, map_getD hi] at h1 h2
  have hi' : freqs[i]? = some (freqs.getD i 0) := by
    rw [List.getD_eq_getElem?_getD, List.getElem?_eq_getElem hi, Option.getD_some]
  exact ⟨_, _, _, BJ08.map_get hi' _, BJ08.map_get hi' _, BJ08.map_get hi' _, sigmaE_ok hf, sigmaS_ok hf,
    sigmaA_ok _, h2 (sigmaE_ok hf) (sigmaS_ok hf) (sigmaA_ok _), h1⟩

open Stafford in
/-- Stafford: `cor` has unit diagonal wherever one of the three given sigmas of the (positive)
frequency is not zero, and it is symmetric under the condition of `C38_symmetric`. -/
theorem C38_cor (freqs e s a : List ℝ) (mag : ℝ) (hp : ∀ f ∈ freqs, 0 < f)
    (he : e.length = freqs.length) (hs : s.length = freqs.length) (ha : a.length = freqs.length) :
    ∃ r, cor freqs (some e) (some s) (some a) mag = pure r ∧ r.length = freqs.length ∧
      (∀ i < freqs.length, (e.getD i 0 ≠ 0 ∨ s.getD i 0 ≠ 0 ∨ a.getD i 0 ≠ 0) →
        (at' r i i).ok ∧ (at' r i i).val = 1) ∧
      ((∀ f ∈ freqs, ∀ g ∈ freqs, |f - g| ≤ 1e-8 + 1e-5 * |g| ↔ |g - f| ≤ 1e-8 + 1e-5 * |f|) →
        ∀ i < freqs.length, ∀ j < freqs.length, at' r i j = at' r j i) := by
  obtain ⟨c, hc, hd⟩ := C38_diagonal freqs e s a mag hp he hs ha
  refine ⟨_, by unfold cor; rw [hc, Py.pure_bind'], by simp, fun i hi hne => ?_, fun hcl i hi j hj => ?_⟩
  · rw [entry_of _ hi hi]
    obtain ⟨h1, h2⟩ := hd i hi
    have hpos : 0 < (at' c i i).val := by
      rw [h2]
      rcases hne with h | h | h <;> positivity
    have hsq : 0 < Real.sqrt (at' c i i).val := Real.sqrt_pos.2 hpos
    constructor
    · simp only [fsimp, h1, hpos.le]
      exact (mul_pos hsq hsq).ne'
    · simp only [fsimp, Real.mul_self_sqrt hpos.le, div_self hpos.ne']
  · rw [entry_of _ hi hj, entry_of _ hj hi]
    rw [(C38_symmetric freqs _ _ _ mag c hc hcl).2.2 i hi j hj]
    ext
    · simp only [fsimp, mul_comm]
    · simp only [fsimp, mul_comm]; tauto

open Stafford in
/-- Stafford: when all three sigma lists are given, `cov` raises `ValueError` exactly when one of
them has a length different from the number of frequencies. -/
theorem C39_lengths (freqs e s a : List ℝ) (mag : ℝ) :
    ((e.length ≠ freqs.length ∨ s.length ≠ freqs.length ∨ a.length ≠ freqs.length) ∧
      ∃ t, cov freqs (some e) (some s) (some a) mag = Py.raise (.valueError t)) ∨
    ((e.length = freqs.length ∧ s.length = freqs.length ∧ a.length = freqs.length) ∧
      ∃ c, cov freqs (some e) (some s) (some a) mag = pure c) := by
  unfold cov
  simp only [variances, List.length_map]
  by_cases h : e.length ≠ freqs.length ∨ s.length ≠ freqs.length ∨ a.length ≠ freqs.length
  · left; rw [if_pos h]; exact ⟨h, _, rfl⟩
  · right; rw [if_neg h]; push Not at h; exact ⟨h, _, rfl⟩

open Stafford in
/-- Stafford: if any of the three sigma lists is missing, the two others are ignored, whatever they
are and however long: the result is that of a call without sigmas, and no exception is raised. -/
theorem C39_ignored (freqs : List ℝ) (sE sS sA : Option (List ℝ)) (mag : ℝ)
    (h : sE = none ∨ sS = none ∨ sA = none) :
    cov freqs sE sS sA mag = cov freqs none none none mag ∧
      cor freqs sE sS sA mag = cor freqs none none none mag ∧
      ∃ c, cov freqs sE sS sA mag = pure c := by
  have hv : variances freqs sE sS sA = computeVariances freqs := by
    rcases sE with _ | e <;> rcases sS with _ | s <;> rcases sA with _ | a <;> first | rfl | simp at h
  have hv' : variances freqs none none none = computeVariances freqs := rfl
  have hc : cov freqs sE sS sA mag = cov freqs none none none mag := by
    unfold cov; rw [hv, hv']
  refine ⟨hc, by unfold cor; rw [hc], ?_⟩
  unfold cov
  rw [hv]
  simp only [computeVariances, List.length_map]
  rw [if_neg (by simp)]
  exact ⟨_, rfl⟩

example : ∃ freqs e s a : List ℝ, (∀ f ∈ freqs, 0 < f) ∧ e.length = freqs.length ∧ s.length = freqs.length ∧
    a.length = freqs.length ∧ 2 ≤ freqs.length ∧
    (∀ f ∈ freqs, ∀ g ∈ freqs, |f - g| ≤ 1e-8 + 1e-5 * |g| ↔ |g - f| ≤ 1e-8 + 1e-5 * |f|) := by
  refine ⟨[1, 10], [0.5, 0.6], [0.5, 0.6], [0.7, 0.8], by simp, rfl, rfl, rfl, by simp, ?_⟩
  simp only [List.mem_cons, List.not_mem_nil, or_false]
  rintro f (rfl | rfl) g (rfl | rfl) <;> norm_num [abs_of_pos, abs_of_neg]

example : ∃ (e : Option (List ℝ)), e ≠ none ∧ (e = none ∨ (none : Option (List ℝ)) = none) :=
  ⟨some [1, 2], by simp, Or.inr rfl⟩
open Stafford in
/-- Stafford: a call of `cov` or `cor` without a magnitude is the call with magnitude 6. -/
theorem C39_default_mag (freqs : List ℝ) (sE sS sA : Option (List ℝ)) :
    cov freqs sE sS sA = cov freqs sE sS sA 6 ∧ cor freqs sE sS sA = cor freqs sE sS sA 6 := ⟨rfl, rfl⟩

