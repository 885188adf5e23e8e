import Verif.Props.CMSVMore

/-!
# C136: a target at the value already predicted changes no mean
-/

set_option linter.unusedSimpArgs false

namespace CMSVMore
open Matrix

variable {n m : Type*} [Fintype n] [Fintype m] [DecidableEq n] [DecidableEq m]

/-- if the residuals of the larger set are those predicted by the smaller, the predictions agree -/
theorem predicted {M : Matrix n n ℝ} {N : Matrix m m ℝ} (hN : N.det ≠ 0) (c r : n → ℝ) (d s : m → ℝ) (e : n → m)
    (hc : ∀ i, c i = d (e i)) (hs : ∀ j, s j = (fun i => N j (e i)) ⬝ᵥ (M⁻¹ *ᵥ r)) :
    d ⬝ᵥ (N⁻¹ *ᵥ s) = c ⬝ᵥ (M⁻¹ *ᵥ r) := by
  set w := M⁻¹ *ᵥ r
  have hu : IsUnit N.det := isUnit_iff_ne_zero.2 hN
  have a : s = N *ᵥ fun j => ∑ i, if j = e i then w i else 0 := by
    funext j
    rw [hs]
    unfold mulVec dotProduct
    simp only [mul_comm (N _ _)]
    rw [moved e w fun k => N j k]
  rw [a, mulVec_mulVec, nonsing_inv_mul _ hu, one_mulVec, dotProduct_comm]
  unfold dotProduct
  rw [moved]
  exact Finset.sum_congr rfl fun i _ => by rw [hc, mul_comm]

end CMSVMore

open CMSVMore Kishida

namespace CMSVMore

/-- the means, for any targets whose covariances can be inverted -/
theorem means_core (l : List (BJ08.Point × Option ℝ × Option ℝ))
    (h : l.Pairwise fun p q => p.1.period < q.1.period) (hr : ∀ p ∈ l, 0.01 ≤ p.1.period)
    (dX : (covar22 (given (l.map fun p => (⟨p.1, p.2.1⟩ : Kishida.Point)))).det ≠ 0)
    (dY : (covar22 (given (l.map fun p => (⟨p.1, p.2.2⟩ : Kishida.Point)))).det ≠ 0)
    (o : List (F × F)) (eo : calcCmsv (l.map fun p => ⟨p.1, p.2.1⟩) = pure o)
    (hnew : ∀ (i : ℕ) (p : BJ08.Point × Option ℝ × Option ℝ), l[i]? = some p → p.2.2 = p.2.1 ∨
      p.2.1 = none ∧ ∃ m s : F, o[i]? = some (m, s) ∧ p.2.2 = some m.val) :
    ∃ o', calcCmsv (l.map fun p => ⟨p.1, p.2.2⟩) = pure o' ∧
      ∀ i < l.length, ∃ m s m' s' : F, o[i]? = some (m, s) ∧ o'[i]? = some (m', s') ∧ m.ok ∧ m'.ok ∧ m'.val = m.val := by
  have hsub : ∀ p ∈ l, p.2.1.isSome → p.2.2.isSome := by
    intro p hp hx
    obtain ⟨i, hi, rfl⟩ := List.getElem_of_mem hp
    rcases hnew i _ (List.getElem?_eq_getElem hi) with e | ⟨e, -⟩
    · rw [e]; exact hx
    · rw [e] at hx; cases hx
  have srt : ∀ f : BJ08.Point × Option ℝ × Option ℝ → Option ℝ,
      (l.map fun p => (⟨p.1, f p⟩ : Kishida.Point)).Pairwise fun p q => p.period < q.period := by
    intro f
    rw [List.pairwise_map]
    exact h
  have okAll : ∀ f : BJ08.Point × Option ℝ × Option ℝ → Option ℝ, allOk (l.map fun p => (⟨p.1, f p⟩ : Kishida.Point)) := fun f =>
    allOk_of fun p hp => by obtain ⟨q, hq, rfl⟩ := List.mem_map.1 hp; exact hr q hq
  have okX := okAll fun p => p.2.1
  have okY := okAll fun p => p.2.2
  set X : List Kishida.Point := l.map fun p => ⟨p.1, p.2.1⟩ with hX
  set Y : List Kishida.Point := l.map fun p => ⟨p.1, p.2.2⟩ with hY
  have oe : o = X.map (entry X) := Except.ok.inj (congrArg Py.res (eo.symm.trans (calc_of (srt _) dX)))
  refine ⟨Y.map (entry Y), calc_of (srt _) dY, fun i hi => ?_⟩
  have gX : ∀ i (hi : i < l.length), X[i]? = some ⟨l[i].1, l[i].2.1⟩ := fun i hi => by
    rw [hX, List.getElem?_map, List.getElem?_eq_getElem hi]; rfl
  have gY : ∀ i (hi : i < l.length), Y[i]? = some ⟨l[i].1, l[i].2.2⟩ := fun i hi => by
    rw [hY, List.getElem?_map, List.getElem?_eq_getElem hi]; rfl
  have nX : ∀ i (hi : i < l.length), o[i]? = some (entry X ⟨l[i].1, l[i].2.1⟩) := fun i hi => by
    rw [oe]; exact BJ08.map_get (gX i hi) _
  have mok : ∀ {Z : List Kishida.Point} (_ : allOk Z) (p : Kishida.Point), (entry Z p).1.ok := by
    intro Z hZ p
    rcases hx : p.cond with _ | x
    · simp only [entry, hx]; exact hZ
    · simp only [entry, hx]; trivial
  refine ⟨_, _, _, _, nX i hi, BJ08.map_get (gY i hi) _, mok okX _, mok okY _, ?_⟩
  obtain ⟨e, he⟩ := embed2 l hsub
  -- the residuals of the second set are those predicted by the first
  have key : ∀ j, resids (given Y) j =
      row12 ((given Y).get j) (given X) ⬝ᵥ ((covar22 (given X))⁻¹.mulVec (resids (given X))) := by
    intro j
    have hj : (given Y).get j ∈ given Y := List.get_mem _ _
    obtain ⟨hjY, hjs⟩ := List.mem_filter.1 hj
    obtain ⟨k, hk, ek⟩ := List.getElem_of_mem hjY
    have hk' : k < l.length := by simpa [hY] using hk
    have ej : (given Y).get j = ⟨l[k].1, l[k].2.2⟩ := by
      rw [← ek]
      exact Option.some.inj ((List.getElem?_eq_getElem hk).symm.trans (gY k hk'))
    change ((given Y).get j).cond.getD 0 - ((given Y).get j).lnPsa = _
    have rowe : ∀ c, row12 ⟨l[k].1, c⟩ (given X) = row12 ⟨l[k].1, l[k].2.1⟩ (given X) := fun c => rfl
    rw [ej]
    rw [rowe]
    rcases hnew k _ (List.getElem?_eq_getElem hk') with e2 | ⟨e2, a, b, q, e3⟩
    · -- a target of the first set
      have hx : l[k].2.1.isSome := by
        rw [← e2]
        rw [ej] at hjs
        exact hjs
      have hmem : (⟨l[k].1, l[k].2.1⟩ : Kishida.Point) ∈ given X :=
        List.mem_filter.2 ⟨List.mem_of_getElem? (gX k hk'), hx⟩
      obtain ⟨t, ht, et⟩ := List.getElem_of_mem hmem
      have hu : IsUnit (covar22 (given X)).det := isUnit_iff_ne_zero.2 dX
      have r1 : row12 ⟨l[k].1, l[k].2.1⟩ (given X) = covar22 (given X) ⟨t, ht⟩ := by
        funext j
        rw [← et]
        rfl
      have r2 : (covar22 (given X)).mulVec ((covar22 (given X))⁻¹.mulVec (resids (given X))) ⟨t, ht⟩ = resids (given X) ⟨t, ht⟩ := by
        rw [Matrix.mulVec_mulVec, Matrix.mul_nonsing_inv _ hu, Matrix.one_mulVec]
      rw [r1]
      refine Eq.trans ?_ r2.symm
      change _ = (given X)[t].cond.getD 0 - (given X)[t].lnPsa
      rw [et, e2]
    · have : a = (entry X ⟨l[k].1, l[k].2.1⟩).1 := (Prod.mk.inj (Option.some.inj (q.symm.trans (nX k hk')))).1
      rw [e3, this, e2]
      simp only [entry, mean, Option.getD_some]
      ring
  cases hc' : l[i].2.2 with
  | some y =>
    rcases hnew i _ (List.getElem?_eq_getElem hi) with e2 | ⟨-, a, b, q, e3⟩
    · rw [← e2, hc']
    · have : a = (entry X ⟨l[i].1, l[i].2.1⟩).1 := (Prod.mk.inj (Option.some.inj (q.symm.trans (nX i hi)))).1
      rw [hc', this] at e3
      exact Option.some.inj e3
  | none =>
    have hc : l[i].2.1 = none := by
      cases hc : l[i].2.1 with
      | none => rfl
      | some x =>
        have := hsub l[i] (List.getElem_mem hi) (by rw [hc]; rfl)
        rw [hc'] at this
        cases this
    rw [hc]
    change l[i].1.lnPsa + _ = l[i].1.lnPsa + _
    congr 1
    refine predicted (M := covar22 (given X)) dY _ _ _ _ e (fun j => ?_) fun j => ?_
    · change (covar _ ((given X).get j)).val = (covar _ ((given Y).get (e j))).val
      rw [covar_cov, covar_cov, he j]
    · rw [key]
      congr 1
      funext k
      change (covar _ ((given X).get k)).val = (covar ((given Y).get j) ((given Y).get (e k))).val
      rw [covar_cov, covar_cov, he k]

end CMSVMore

/-- C136: a spectrum with targets, and the same spectrum with the same targets and further ones at the means just returned: no
mean changes, at any period, and no standard deviation grows. -/
theorem C136_predicted (l : List (BJ08.Point × Option ℝ × Option ℝ))
    (h : l.Pairwise fun p q => p.1.period < q.1.period) (hr : ∀ p ∈ l, 0.01 ≤ p.1.period) (hs : ∀ p ∈ l, 0 < p.1.lnStd)
    (hpd : (Matrix.of fun i j : Fin l.length => Spec.cov l[i].1 l[j].1).PosDef)
    (o : List (F × F)) (eo : calcCmsv (l.map fun p => ⟨p.1, p.2.1⟩) = pure o)
    (hnew : ∀ (i : ℕ) (p : BJ08.Point × Option ℝ × Option ℝ), l[i]? = some p → p.2.2 = p.2.1 ∨
      p.2.1 = none ∧ ∃ m s : F, o[i]? = some (m, s) ∧ p.2.2 = some m.val) :
    ∃ o', calcCmsv (l.map fun p => ⟨p.1, p.2.2⟩) = pure o' ∧
      ∀ i < l.length, ∃ m s m' s' : F, o[i]? = some (m, s) ∧ o'[i]? = some (m', s') ∧ m.ok ∧ m'.ok ∧ m'.val = m.val ∧
        s.ok ∧ s'.ok ∧ s'.val ≤ s.val := by
  have hsub : ∀ p ∈ l, p.2.1.isSome → p.2.2.isSome := by
    intro p hp hx
    obtain ⟨i, hi, rfl⟩ := List.getElem_of_mem hp
    rcases hnew i _ (List.getElem?_eq_getElem hi) with e | ⟨e, -⟩
    · rw [e]; exact hx
    · rw [e] at hx; cases hx
  obtain ⟨o₁, o', e₁, eo', hall⟩ := C135_more_targets l h hr hs hpd hsub
  obtain rfl : o₁ = o := Except.ok.inj (congrArg Py.res (e₁.symm.trans eo))
  have dX := (covar22_posDef (posDef_targets hpd fun p => p.2.1)).det_pos.ne'
  have dY := (covar22_posDef (posDef_targets hpd fun p => p.2.2)).det_pos.ne'
  obtain ⟨o₂, e₂, hm⟩ := means_core l h hr dX dY _ eo hnew
  obtain rfl : o₂ = o' := Except.ok.inj (congrArg Py.res (e₂.symm.trans eo'))
  refine ⟨o₂, eo', fun i hi => ?_⟩
  obtain ⟨m, s, m', s', g, g', so, so', -, le⟩ := hall i hi
  obtain ⟨n, t, n', t', q, q', ok, ok', e⟩ := hm i hi
  obtain ⟨rfl, rfl⟩ := Prod.mk.inj (Option.some.inj (g.symm.trans q))
  obtain ⟨rfl, rfl⟩ := Prod.mk.inj (Option.some.inj (g'.symm.trans q'))
  exact ⟨m, s, m', s', g, g', ok, ok', e, so, so', le⟩

/-- the hypotheses are met by a spectrum without targets and the median as target (C131 gives the result without targets) -/
example : ∃ l : List (BJ08.Point × Option ℝ × Option ℝ), (l.Pairwise fun p q => p.1.period < q.1.period) ∧
    (∀ p ∈ l, 0.01 ≤ p.1.period) ∧ (∀ p ∈ l, 0 < p.1.lnStd) ∧
    (Matrix.of fun i j : Fin l.length => Spec.cov l[i].1 l[j].1).PosDef ∧ l.length = 2 ∧
    ∃ o, calcCmsv (l.map fun p => ⟨p.1, p.2.1⟩) = pure o ∧
      (∀ (i : ℕ) (p : BJ08.Point × Option ℝ × Option ℝ), l[i]? = some p → p.2.2 = p.2.1 ∨
        p.2.1 = none ∧ ∃ m s : F, o[i]? = some (m, s) ∧ p.2.2 = some m.val) ∧ ∃ p ∈ l, p.2.2 ≠ p.2.1 := by
  have hpd : ∀ t : Option ℝ, (Matrix.of fun i j : Fin 2 => Spec.cov
      ([(⟨0.1, -1, 0.6⟩, some (-0.5), some (-0.5)), (⟨0.5, -1.5, 0.65⟩, none, t)] : List (BJ08.Point × Option ℝ × Option ℝ))[i].1
      ([(⟨0.1, -1, 0.6⟩, some (-0.5), some (-0.5)), (⟨0.5, -1.5, 0.65⟩, none, t)] : List (BJ08.Point × Option ℝ × Option ℝ))[j].1).PosDef := by
    intro t
    have := two_posDef ⟨⟨0.1, -1, 0.6⟩, none⟩ ⟨⟨0.5, -1.5, 0.65⟩, none⟩ (by norm_num) (by norm_num) (by norm_num) (by norm_num) (by norm_num)
    refine (congrArg Matrix.PosDef (Matrix.ext fun i j => ?_)).mpr this
    rw [covarAll_apply, covar_cov]
    fin_cases i <;> fin_cases j <;> rfl
  obtain ⟨o, e, hl, -⟩ := C36_std [⟨⟨0.1, -1, 0.6⟩, some (-0.5)⟩, ⟨⟨0.5, -1.5, 0.65⟩, none⟩] (by simp; norm_num) (by simp; norm_num)
    (by simp; norm_num) (posDef_targets (l := [(⟨0.1, -1, 0.6⟩, some (-0.5), some (-0.5)), (⟨0.5, -1.5, 0.65⟩, none, none)]) (hpd none) fun p => p.2.1)
  have h1 : 1 < o.length := by rw [hl]; simp
  refine ⟨[(⟨0.1, -1, 0.6⟩, some (-0.5), some (-0.5)), (⟨0.5, -1.5, 0.65⟩, none, some o[1].1.val)], by simp; norm_num, by simp; norm_num,
    by simp; norm_num, hpd _, rfl, o, e, ?_, _, List.mem_cons_of_mem _ (List.mem_singleton_self _), by simp⟩
  intro i p hp
  match i, hp with
  | 0, hp => obtain rfl := Option.some.inj hp; exact .inl rfl
  | 1, hp =>
    obtain rfl := Option.some.inj hp
    exact .inr ⟨rfl, o[1].1, o[1].2, List.getElem?_eq_getElem h1, rfl⟩
