import Verif.Props.CMSVMore

/-!
# C135: exactly when targets narrow the spectrum, and that they never pin the other periods
-/

set_option linter.unusedSimpArgs false

namespace CMSVMore
open Matrix

variable {n m : Type*} [Fintype n] [Fintype m] [DecidableEq n] [DecidableEq m]

/-- no linear combination of other indices has the error variance zero -/
theorem error_pos {N : Matrix m m ℝ} (hN : N.PosDef) (e : n → m) (i : m) (hi : ∀ j, e j ≠ i) (w : n → ℝ) :
    0 < N i i - 2 * (∑ j, w j * N i (e j)) + ∑ j, ∑ k, w j * w k * N (e j) (e k) := by
  set z : m → ℝ := fun k => ∑ j, if k = e j then w j else 0 with hz
  have hne : Pi.single i (1 : ℝ) - z ≠ 0 := by
    intro h
    have := congrFun h i
    have z0 : z i = 0 := by
      rw [hz]
      exact Finset.sum_eq_zero fun j _ => if_neg (hi j).symm
    simp [z0] at this
  have h0 := hN.dotProduct_mulVec_pos hne
  have hsym : Nᵀ = N := by
    have := hN.isHermitian
    simpa [Matrix.IsHermitian, conjTranspose_eq_transpose_of_trivial] using this
  have a : Pi.single i (1 : ℝ) ⬝ᵥ (N *ᵥ z) = ∑ j, w j * N i (e j) := by
    rw [single_dotProduct, one_mul]
    unfold mulVec dotProduct
    simp only [mul_comm (N _ _)]
    exact moved e w fun k => N i k
  have b : z ⬝ᵥ (N *ᵥ Pi.single i (1 : ℝ)) = ∑ j, w j * N i (e j) := by
    rw [dotProduct_mulVec, ← mulVec_transpose, hsym, dotProduct_comm, a]
  have c : z ⬝ᵥ (N *ᵥ z) = ∑ j, ∑ k, w j * w k * N (e j) (e k) := by
    unfold dotProduct
    rw [hz, moved]
    refine Finset.sum_congr rfl fun j _ => ?_
    unfold mulVec dotProduct
    simp only [mul_comm (N _ _)]
    rw [moved e w fun k => N (e j) k, Finset.mul_sum]
    exact Finset.sum_congr rfl fun k _ => by ring
  have d : Pi.single i (1 : ℝ) ⬝ᵥ (N *ᵥ Pi.single i (1 : ℝ)) = N i i := by
    rw [single_dotProduct, one_mul, mulVec_single_one]
    rfl
  simp only [star_trivial, mulVec_sub, dotProduct_sub, sub_dotProduct, a, b, c, d] at h0
  linarith

/-- the quadratic form of the inverse vanishes at zero only -/
theorem quad_zero {M : Matrix n n ℝ} (hM : M.PosDef) (c : n → ℝ) : c ⬝ᵥ (M⁻¹ *ᵥ c) = 0 ↔ c = 0 := by
  constructor
  · intro h
    by_contra hc
    have := hM.inv.dotProduct_mulVec_pos hc
    simp only [star_trivial] at this
    exact this.ne' h
  · rintro rfl
    simp

end CMSVMore

open CMSVMore Kishida

/-- C135: at every period without a target the standard deviation stays positive, and it equals the unconditional one exactly if
no target is at a period correlated with it. -/
theorem C135_narrower (l : List Kishida.Point) (h : l.Pairwise fun p q => p.period < q.period)
    (hr : ∀ p ∈ l, 0.01 ≤ p.period) (hs : ∀ p ∈ l, 0 < p.lnStd) (hpd : (covarAll l).PosDef) :
    ∃ o, calcCmsv l = pure o ∧ ∀ (i : ℕ) (p : Kishida.Point), l[i]? = some p → p.cond = none →
      ∃ m s : F, o[i]? = some (m, s) ∧ s.ok ∧ 0 < s.val ∧ s.val ≤ p.lnStd ∧
        (s.val = p.lnStd ↔ ∀ q ∈ l, q.cond.isSome → (BJ08.correl p.period q.period).val = 0) := by
  obtain ⟨o, e, -, hall⟩ := C36_std l h hr hs hpd
  have hd := covar22_posDef hpd
  have oe : o = l.map (entry l) := Except.ok.inj (congrArg Py.res (e.symm.trans (calc_of h hd.det_pos.ne')))
  obtain ⟨o₁, e₁, opt⟩ := C135_optimal l h hr hs hpd
  obtain rfl : o₁ = o := Except.ok.inj (congrArg Py.res (e₁.symm.trans e))
  refine ⟨o₁, e, fun i p hi hc => ?_⟩
  obtain ⟨m, s, g, -, so, s0, sl⟩ := hall i p hi
  obtain ⟨m₁, s₁, g₁, -, -, w, -, sw, -⟩ := opt i p hi hc
  obtain ⟨rfl, rfl⟩ := Prod.mk.inj (Option.some.inj (g₁.symm.trans g))
  have hp := List.mem_of_getElem? hi
  refine ⟨m₁, s₁, g, so, lt_of_le_of_ne s0 fun h0 => ?_, sl, ?_⟩
  · obtain ⟨hil, hip⟩ := List.getElem?_eq_some_iff.1 hi
    obtain ⟨f, -, hf⟩ := embed l
    have hne : ∀ j, f j ≠ ⟨i, hil⟩ := by
      intro j hj
      have h3 : (given l).get j ∈ given l := List.get_mem _ _
      have h2 := (List.mem_filter.1 h3).2
      rw [hf j, hj] at h2
      have : l.get ⟨i, hil⟩ = p := hip
      rw [this, hc] at h2
      cases h2
    have := error_pos hpd f ⟨i, hil⟩ hne w
    simp only [covarAll_apply, ← hf, covar_cov] at this
    have hip' : l.get ⟨i, hil⟩ = p := hip
    rw [hip'] at this
    rw [← h0] at sw
    have e2 : Spec.cov p.toPoint p.toPoint - 2 * ∑ j, w j * Spec.cov p.toPoint ((given l).get j).toPoint +
        ∑ j, ∑ k, w j * w k * Spec.cov ((given l).get j).toPoint ((given l).get k).toPoint = (0 : ℝ) ^ 2 := sw.symm
    rw [e2] at this
    norm_num at this
  · have ems : (m₁, s₁) = entry l p := by
      refine Option.some.inj (g.symm.trans ?_)
      rw [oe]; exact BJ08.map_get hi _
    have es : s₁ = Kishida.std (allOk l) p (given l) := by
      have := (Prod.mk.inj ems).2
      rw [this]; simp only [entry, hc]
    rw [std_val] at es
    have so' := so
    rw [es] at so'
    have sq : s₁.val ^ 2 = p.lnStd ^ 2 - row12 p (given l) ⬝ᵥ ((covar22 (given l))⁻¹.mulVec (row12 p (given l))) := by
      rw [es, F.val_sqrt]
      rw [← covar_self p]
      exact Real.sq_sqrt so'.2
    have iff1 : s₁.val = p.lnStd ↔ row12 p (given l) ⬝ᵥ ((covar22 (given l))⁻¹.mulVec (row12 p (given l))) = 0 := by
      constructor
      · intro q
        rw [q] at sq
        linarith
      · intro q
        rw [q, sub_zero] at sq
        exact (sq_eq_sq₀ s0 (hs p hp).le).1 sq
    rw [iff1, quad_zero hd]
    have cell : ∀ q ∈ l, ((covar p q).val = 0 ↔ (BJ08.correl p.period q.period).val = 0) := by
      intro q hq
      rw [covar_cov, Spec.cov]
      simp [(hs p hp).ne', (hs q hq).ne']
    constructor
    · intro z q hq hqs
      have hm : q ∈ given l := List.mem_filter.2 ⟨hq, hqs⟩
      obtain ⟨j, hj, rfl⟩ := List.getElem_of_mem hm
      exact (cell _ hq).1 (congrFun z ⟨j, hj⟩)
    · intro z
      funext j
      have hm : (given l)[j] ∈ given l := List.getElem_mem _
      obtain ⟨hq, hqs⟩ := List.mem_filter.1 hm
      exact (cell _ hq).2 (z _ hq hqs)

/-- the hypotheses are met by the example of C36, which has a period without a target -/
example : (exList.Pairwise fun p q => p.period < q.period) ∧ (∀ p ∈ exList, 0.01 ≤ p.period) ∧ (∀ p ∈ exList, 0 < p.lnStd) ∧
    (covarAll exList).PosDef ∧ (∃ p ∈ exList, p.cond = none) ∧ ∃ p ∈ exList, p.cond.isSome := by
  refine ⟨?_, ?_, ?_, by apply two_posDef <;> norm_num, ?_, ?_⟩
  · simp [exList]; norm_num
  · simp [exList]; norm_num
  · simp [exList]; norm_num
  · simp [exList]
  · simp [exList]
