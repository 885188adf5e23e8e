import Verif.Props.Kishida

/-!
# C135: the vector conditional spectrum is the best linear prediction; more targets never widen it
-/

set_option linter.unusedSimpArgs false

/-- the covariance of the logarithms of two spectral accelerations, as the documentation has it: the two standard deviations
times the correlation of Baker & Jayaram (2008) -/
noncomputable def Spec.cov (p q : BJ08.Point) : ℝ := p.lnStd * (BJ08.correl p.period q.period).val * q.lnStd

namespace CMSVMore
open Matrix

variable {n m : Type*} [Fintype n] [Fintype m] [DecidableEq n] [DecidableEq m]

/-- completing the square -/
theorem square {M : Matrix n n ℝ} (hM : M.PosDef) (c w : n → ℝ) :
    2 * (w ⬝ᵥ c) - w ⬝ᵥ (M *ᵥ w) ≤ c ⬝ᵥ (M⁻¹ *ᵥ c) := by
  have hu : IsUnit M.det := isUnit_iff_ne_zero.2 hM.det_pos.ne'
  have h0 := hM.posSemidef.dotProduct_mulVec_nonneg (M⁻¹ *ᵥ c - w)
  have hsym : Mᵀ = M := by
    have := hM.isHermitian
    simpa [Matrix.IsHermitian, conjTranspose_eq_transpose_of_trivial] using this
  have e1 : M *ᵥ (M⁻¹ *ᵥ c) = c := by rw [mulVec_mulVec, mul_nonsing_inv _ hu, one_mulVec]
  have e2 : (M⁻¹ *ᵥ c) ⬝ᵥ (M *ᵥ w) = c ⬝ᵥ w := by
    rw [dotProduct_mulVec, ← mulVec_transpose, hsym, e1]
  simp only [star_trivial, mulVec_sub, e1, dotProduct_sub, sub_dotProduct, e2] at h0
  rw [dotProduct_comm (M⁻¹ *ᵥ c) c, dotProduct_comm c w] at h0
  linarith

theorem attained {M : Matrix n n ℝ} (hM : M.PosDef) (c : n → ℝ) :
    2 * ((M⁻¹ *ᵥ c) ⬝ᵥ c) - (M⁻¹ *ᵥ c) ⬝ᵥ (M *ᵥ (M⁻¹ *ᵥ c)) = c ⬝ᵥ (M⁻¹ *ᵥ c) := by
  have hu : IsUnit M.det := isUnit_iff_ne_zero.2 hM.det_pos.ne'
  rw [mulVec_mulVec, mul_nonsing_inv _ hu, one_mulVec, dotProduct_comm (M⁻¹ *ᵥ c) c]
  ring

/-- a sum over more indices, with the weights moved along `e` -/
theorem moved (e : n → m) (w : n → ℝ) (g : m → ℝ) :
    ∑ j, (∑ i, if j = e i then w i else 0) * g j = ∑ i, w i * g (e i) := by
  simp only [Finset.sum_mul]
  rw [Finset.sum_comm]
  refine Finset.sum_congr rfl fun i _ => ?_
  simp [ite_mul]

/-- more indices, a larger quadratic form -/
theorem more {M : Matrix n n ℝ} {N : Matrix m m ℝ} (hM : M.PosDef) (hN : N.PosDef) (c : n → ℝ) (d : m → ℝ) (e : n → m)
    (hc : ∀ i, c i = d (e i)) (hm : ∀ i j, M i j = N (e i) (e j)) : c ⬝ᵥ (M⁻¹ *ᵥ c) ≤ d ⬝ᵥ (N⁻¹ *ᵥ d) := by
  rw [← attained hM c]
  set w := M⁻¹ *ᵥ c
  refine le_trans (le_of_eq ?_) (square hN d fun j => ∑ i, if j = e i then w i else 0)
  have a : (fun j => ∑ i, if j = e i then w i else 0) ⬝ᵥ d = w ⬝ᵥ c := by
    unfold dotProduct
    rw [moved]
    simp only [hc]
  have b : (fun j => ∑ i, if j = e i then w i else 0) ⬝ᵥ (N *ᵥ fun j => ∑ i, if j = e i then w i else 0) = w ⬝ᵥ (M *ᵥ w) := by
    unfold dotProduct
    rw [moved]
    refine Finset.sum_congr rfl fun i _ => ?_
    congr 1
    unfold mulVec dotProduct
    simp only [mul_comm (N _ _)]
    rw [moved]
    refine Finset.sum_congr rfl fun j _ => ?_
    rw [hm, mul_comm]
  rw [a, b]

end CMSVMore

open CMSVMore Kishida

namespace CMSVMore

theorem covar_cov (p q : Kishida.Point) : (covar p q).val = Spec.cov p.toPoint q.toPoint := by
  simp only [covar, Spec.cov, fsimp]

/-- the variance under the square root of the code -/
theorem std_val (ok : Prop) (p : Kishida.Point) (u : List Kishida.Point) :
    Kishida.std ok p u = F.sqrt ⟨(covar p p).val - row12 p u ⬝ᵥ ((covar22 u)⁻¹.mulVec (row12 p u)), ok⟩ := by
  unfold Kishida.std
  rw [col_eq]

theorem error_eq (p : Kishida.Point) (u : List Kishida.Point) (w : Fin u.length → ℝ) :
    Spec.cov p.toPoint p.toPoint - 2 * ∑ j, w j * Spec.cov p.toPoint u[j].toPoint +
      ∑ j, ∑ k, w j * w k * Spec.cov u[j].toPoint u[k].toPoint =
    (covar p p).val - (2 * (w ⬝ᵥ row12 p u) - w ⬝ᵥ (covar22 u).mulVec w) := by
  have a : ∑ j, w j * Spec.cov p.toPoint u[j].toPoint = w ⬝ᵥ row12 p u := by
    unfold dotProduct
    exact Finset.sum_congr rfl fun j _ => by rw [← covar_cov]; rfl
  have b : ∑ j, ∑ k, w j * w k * Spec.cov u[j].toPoint u[k].toPoint = w ⬝ᵥ (covar22 u).mulVec w := by
    unfold dotProduct Matrix.mulVec dotProduct
    refine Finset.sum_congr rfl fun j _ => ?_
    rw [Finset.mul_sum]
    refine Finset.sum_congr rfl fun k _ => ?_
    rw [← covar_cov]
    change w j * w k * (covar u[j] u[k]).val = w j * ((covar u[j] u[k]).val * w k)
    ring
  rw [a, b, covar_cov]
  ring

/-- the periods with targets in the first set are among those of the second -/
theorem embed2 (l : List (BJ08.Point × Option ℝ × Option ℝ)) (hsub : ∀ p ∈ l, p.2.1.isSome → p.2.2.isSome) :
    ∃ e : Fin (given (l.map fun p => (⟨p.1, p.2.1⟩ : Kishida.Point))).length →
        Fin (given (l.map fun p => (⟨p.1, p.2.2⟩ : Kishida.Point))).length,
      ∀ j, ((given (l.map fun p => (⟨p.1, p.2.1⟩ : Kishida.Point))).get j).toPoint =
        ((given (l.map fun p => (⟨p.1, p.2.2⟩ : Kishida.Point))).get (e j)).toPoint := by
  set X : List Kishida.Point := l.map fun p => ⟨p.1, p.2.1⟩ with hX
  set Y : List Kishida.Point := l.map fun p => ⟨p.1, p.2.2⟩ with hY
  have sub : ((given X).map fun p => p.toPoint).Sublist ((given Y).map fun p => p.toPoint) := by
    have a : (given X).map (fun p => p.toPoint) = (l.filter fun p => p.2.1.isSome).map fun p => p.1 := by
      rw [hX, given, List.filter_map, List.map_map]; rfl
    have b : (given Y).map (fun p => p.toPoint) = (l.filter fun p => p.2.2.isSome).map fun p => p.1 := by
      rw [hY, given, List.filter_map, List.map_map]; rfl
    rw [a, b]
    refine List.Sublist.map _ ?_
    have : l.filter (fun p => p.2.1.isSome) = (l.filter fun p => p.2.2.isSome).filter fun p => p.2.1.isSome := by
      rw [List.filter_filter]
      refine List.filter_congr fun p hp => ?_
      cases h1 : p.2.1.isSome with
      | false => simp
      | true => simp [hsub p hp h1]
    rw [this]
    exact List.filter_sublist
  obtain ⟨f, hf⟩ := List.sublist_iff_exists_fin_orderEmbedding_get_eq.1 sub
  refine ⟨fun j => Fin.cast (List.length_map _) (f (Fin.cast (List.length_map _).symm j)), fun j => ?_⟩
  have := hf (Fin.cast (List.length_map _).symm j)
  simpa using this

/-- the covariance does not depend on the targets -/
theorem posDef_targets {l : List (BJ08.Point × Option ℝ × Option ℝ)}
    (hpd : (Matrix.of fun i j : Fin l.length => Spec.cov l[i].1 l[j].1).PosDef)
    (f : BJ08.Point × Option ℝ × Option ℝ → Option ℝ) : (covarAll (l.map fun p => (⟨p.1, f p⟩ : Kishida.Point))).PosDef := by
  have e : covarAll (l.map fun p => (⟨p.1, f p⟩ : Kishida.Point)) =
      (Matrix.of fun i j : Fin l.length => Spec.cov l[i].1 l[j].1).submatrix (Fin.cast (List.length_map _)) (Fin.cast (List.length_map _)) := by
    refine Matrix.ext fun i j => ?_
    rw [covarAll_apply, covar_cov]
    simp [Matrix.submatrix_apply]
  rw [e]
  exact hpd.submatrix (Fin.cast_injective _)

end CMSVMore

/-- C135: at every period without a target the result is the best linear prediction: there are weights for the departures of the
targets from their medians such that the returned mean is the median plus the weighted departures, the square of the returned
standard deviation is the variance of the error of that prediction, and no other weights have a smaller one. -/
theorem C135_optimal (l : List Kishida.Point) (h : l.Pairwise fun p q => p.period < q.period)
    (hr : ∀ p ∈ l, 0.01 ≤ p.period) (hs : ∀ p ∈ l, 0 < p.lnStd) (hpd : (covarAll l).PosDef) :
    ∃ o, calcCmsv l = pure o ∧ ∀ (i : ℕ) (p : Kishida.Point), l[i]? = some p → p.cond = none →
      ∃ m s : F, o[i]? = some (m, s) ∧ m.ok ∧ s.ok ∧ ∃ w : Fin (given l).length → ℝ,
        m.val = p.lnPsa + ∑ j, w j * ((given l)[j].cond.getD 0 - (given l)[j].lnPsa) ∧
        s.val ^ 2 = Spec.cov p.toPoint p.toPoint - 2 * ∑ j, w j * Spec.cov p.toPoint (given l)[j].toPoint +
          ∑ j, ∑ k, w j * w k * Spec.cov (given l)[j].toPoint (given l)[k].toPoint ∧
        ∀ w' : Fin (given l).length → ℝ, s.val ^ 2 ≤
          Spec.cov p.toPoint p.toPoint - 2 * ∑ j, w' j * Spec.cov p.toPoint (given l)[j].toPoint +
            ∑ j, ∑ k, w' j * w' k * Spec.cov (given l)[j].toPoint (given l)[k].toPoint := by
  obtain ⟨o, e, -, hall⟩ := C36_std l h hr hs hpd
  have hd := covar22_posDef hpd
  have hdet : (covar22 (given l)).det ≠ 0 := hd.det_pos.ne'
  have oe : o = l.map (entry l) := by
    have := congrArg Py.res (e.symm.trans (calc_of h hdet))
    exact Except.ok.inj this
  refine ⟨o, e, fun i p hi hc => ?_⟩
  obtain ⟨m, s, g, m1, s1, -⟩ := hall i p hi
  have g' : o[i]? = some (entry l p) := by rw [oe]; exact BJ08.map_get hi _
  have ems : (m, s) = entry l p := Option.some.inj (g.symm.trans g')
  have en : entry l p = (mean (allOk l) p (given l), std (allOk l) p (given l)) := by simp only [entry, hc]
  rw [en] at ems
  obtain ⟨rfl, rfl⟩ := Prod.mk.inj ems
  rw [std_val] at s1 g
  have sq : (F.sqrt ⟨(covar p p).val - row12 p (given l) ⬝ᵥ ((covar22 (given l))⁻¹.mulVec (row12 p (given l))), allOk l⟩).val ^ 2 =
      (covar p p).val - row12 p (given l) ⬝ᵥ ((covar22 (given l))⁻¹.mulVec (row12 p (given l))) := by
    rw [F.val_sqrt]
    exact Real.sq_sqrt s1.2
  refine ⟨_, _, g, m1, s1, (covar22 (given l))⁻¹.mulVec (row12 p (given l)), ?_, ?_, fun w' => ?_⟩
  · have hsym : Matrix.transpose (covar22 (given l))⁻¹ = (covar22 (given l))⁻¹ := by
      have := hd.inv.isHermitian
      simpa [Matrix.IsHermitian, Matrix.conjTranspose_eq_transpose_of_trivial] using this
    have : row12 p (given l) ⬝ᵥ ((covar22 (given l))⁻¹.mulVec (resids (given l))) =
        (covar22 (given l))⁻¹.mulVec (row12 p (given l)) ⬝ᵥ resids (given l) := by
      rw [Matrix.dotProduct_mulVec, ← Matrix.mulVec_transpose, hsym]
    simp only [mean]
    rw [this]
    rfl
  · rw [sq, error_eq, attained hd]
  · rw [sq, error_eq]
    linarith [square hd (row12 p (given l)) w']

/-- C135: more targets never widen.  The same spectrum with two sets of targets, the second with targets at least at the periods
of the first (whatever their values): at every period the second standard deviation is at most the first. -/
theorem C135_more_targets (l : List (BJ08.Point × Option ℝ × Option ℝ))
    (h : l.Pairwise fun p q => p.1.period < q.1.period) (hr : ∀ p ∈ l, 0.01 ≤ p.1.period) (hs : ∀ p ∈ l, 0 < p.1.lnStd)
    (hpd : (Matrix.of fun i j : Fin l.length => Spec.cov l[i].1 l[j].1).PosDef) (hsub : ∀ p ∈ l, p.2.1.isSome → p.2.2.isSome) :
    ∃ o o', calcCmsv (l.map fun p => ⟨p.1, p.2.1⟩) = pure o ∧ calcCmsv (l.map fun p => ⟨p.1, p.2.2⟩) = pure o' ∧
      ∀ i < l.length, ∃ m s m' s' : F, o[i]? = some (m, s) ∧ o'[i]? = some (m', s') ∧ s.ok ∧ s'.ok ∧ 0 ≤ s'.val ∧ s'.val ≤ s.val := by
  set X : List Kishida.Point := l.map fun p => ⟨p.1, p.2.1⟩ with hX
  set Y : List Kishida.Point := l.map fun p => ⟨p.1, p.2.2⟩ with hY
  have pos := posDef_targets hpd
  have srt : ∀ f : BJ08.Point × Option ℝ × Option ℝ → Option ℝ,
      (l.map fun p => (⟨p.1, f p⟩ : Kishida.Point)).Pairwise fun p q => p.period < q.period := by
    intro f
    rw [List.pairwise_map]
    exact h
  have mem : ∀ (f : BJ08.Point × Option ℝ × Option ℝ → Option ℝ) (P : BJ08.Point → Prop), (∀ p ∈ l, P p.1) →
      ∀ p ∈ l.map fun p => (⟨p.1, f p⟩ : Kishida.Point), P p.toPoint := by
    intro f P hP p hp
    obtain ⟨q, hq, rfl⟩ := List.mem_map.1 hp
    exact hP q hq
  have hdX := covar22_posDef (pos fun p => p.2.1)
  have hdY := covar22_posDef (pos fun p => p.2.2)
  obtain ⟨o, eo, -, ho⟩ := C36_std X (srt _) (mem _ (fun p => 0.01 ≤ p.period) hr) (mem _ (fun p => 0 < p.lnStd) hs) (pos _)
  obtain ⟨o', eo', -, ho'⟩ := C36_std Y (srt _) (mem _ (fun p => 0.01 ≤ p.period) hr) (mem _ (fun p => 0 < p.lnStd) hs) (pos _)
  have oe : o = X.map (entry X) := Except.ok.inj (congrArg Py.res (eo.symm.trans (calc_of (srt _) hdX.det_pos.ne')))
  have oe' : o' = Y.map (entry Y) := Except.ok.inj (congrArg Py.res (eo'.symm.trans (calc_of (srt _) hdY.det_pos.ne')))
  refine ⟨o, o', eo, eo', fun i hi => ?_⟩
  have gX : X[i]? = some ⟨l[i].1, l[i].2.1⟩ := by rw [hX, List.getElem?_map, List.getElem?_eq_getElem hi]; rfl
  have gY : Y[i]? = some ⟨l[i].1, l[i].2.2⟩ := by rw [hY, List.getElem?_map, List.getElem?_eq_getElem hi]; rfl
  obtain ⟨m, s, g, -, s1, s2, -⟩ := ho i _ gX
  obtain ⟨m', s', g', -, s1', s2', -⟩ := ho' i _ gY
  refine ⟨m, s, m', s', g, g', s1, s1', s2', ?_⟩
  have ems : (m, s) = entry X ⟨l[i].1, l[i].2.1⟩ := by
    refine Option.some.inj (g.symm.trans ?_)
    rw [oe]; exact BJ08.map_get gX _
  have ems' : (m', s') = entry Y ⟨l[i].1, l[i].2.2⟩ := by
    refine Option.some.inj (g'.symm.trans ?_)
    rw [oe']; exact BJ08.map_get gY _
  cases hc' : l[i].2.2 with
  | some y =>
    have : s' = 0 := by
      have := (Prod.mk.inj ems').2
      rw [this]; simp only [entry, hc']
    rw [this]
    simpa using s2
  | none =>
    have hc : l[i].2.1 = none := by
      cases hc : l[i].2.1 with
      | none => rfl
      | some x =>
        have := hsub l[i] (List.getElem_mem hi) (by rw [hc]; rfl)
        rw [hc'] at this
        cases this
    have es : s = Kishida.std (allOk X) ⟨l[i].1, none⟩ (given X) := by
      have := (Prod.mk.inj ems).2
      rw [this, hc]
      try rfl
    have es' : s' = Kishida.std (allOk Y) ⟨l[i].1, none⟩ (given Y) := by
      have := (Prod.mk.inj ems').2
      rw [this, hc']
      try rfl
    -- the periods with targets in the first set are among those of the second
    obtain ⟨e, he⟩ := embed2 l hsub
    rw [es, es', std_val, std_val, F.val_sqrt, F.val_sqrt, F.val_mk, F.val_mk]
    refine Real.sqrt_le_sqrt (sub_le_sub_left (more hdX hdY _ _ e (fun j => ?_) fun j k => ?_) _)
    · change (covar _ ((given X).get j)).val = (covar _ ((given Y).get (e j))).val
      rw [covar_cov, covar_cov, he j]
    · rw [covar22_apply, covar22_apply, covar_cov, covar_cov, he j, he k]

/-- the hypotheses of `C135_optimal` are met by the example of C36 -/
example : (exList.Pairwise fun p q => p.period < q.period) ∧ (∀ p ∈ exList, 0.01 ≤ p.period) ∧ (∀ p ∈ exList, 0 < p.lnStd) ∧
    (covarAll exList).PosDef := by
  refine ⟨?_, ?_, ?_, by apply two_posDef <;> norm_num⟩
  · simp [exList]; norm_num
  · simp [exList]; norm_num
  · simp [exList]; norm_num

/-- those of `C135_more_targets` by a spectrum with no target and one target -/
example : ∃ l : List (BJ08.Point × Option ℝ × Option ℝ), (l.Pairwise fun p q => p.1.period < q.1.period) ∧
    (∀ p ∈ l, 0.01 ≤ p.1.period) ∧ (∀ p ∈ l, 0 < p.1.lnStd) ∧
    (Matrix.of fun i j : Fin l.length => Spec.cov l[i].1 l[j].1).PosDef ∧ (∀ p ∈ l, p.2.1.isSome → p.2.2.isSome) ∧ l.length = 2 := by
  refine ⟨[(⟨0.1, -1, 0.6⟩, none, none), (⟨0.5, -1.5, 0.65⟩, none, some (-1.2))], ?_, ?_, ?_, ?_, ?_, rfl⟩
  · simp; norm_num
  · simp; norm_num
  · simp; norm_num
  · have := two_posDef ⟨⟨0.1, -1, 0.6⟩, none⟩ ⟨⟨0.5, -1.5, 0.65⟩, none⟩ (by norm_num) (by norm_num) (by norm_num) (by norm_num) (by norm_num)
    refine (congrArg Matrix.PosDef (Matrix.ext fun i j => ?_)).mpr this
    rw [covarAll_apply, covar_cov]
    fin_cases i <;> fin_cases j <;> rfl
  · simp
