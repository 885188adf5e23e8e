import Verif.Props.CMSVPredict

/-!
# C135, C136: the vector conditional spectrum against the scalar one
-/

set_option linter.unusedSimpArgs false

open CMSVMore Kishida

namespace CMSVMore

open Classical in
/-- one target `x` at the period `t`, and the targets `c` -/
noncomputable def pair (t x : ℝ) (c : Kishida.Point → Option ℝ) (l : List Kishida.Point) : List (BJ08.Point × Option ℝ × Option ℝ) :=
  l.map fun p => (p.toPoint, if p.period = t then some x else none, c p)

theorem same_period {l : List Kishida.Point} (h : l.Pairwise fun p q => p.period < q.period) {p q : Kishida.Point}
    (hp : p ∈ l) (hq : q ∈ l) (e : p.period = q.period) : p = q := by
  obtain ⟨i, hi, rfl⟩ := List.getElem_of_mem hp
  obtain ⟨j, hj, rfl⟩ := List.getElem_of_mem hq
  rw [List.pairwise_iff_getElem] at h
  rcases lt_trichotomy i j with k | k | k
  · exact absurd e (h i j hi hj k).ne
  · subst k; rfl
  · exact absurd e (h j i hj hi k).ne'

theorem pair_length (t x : ℝ) (c : Kishida.Point → Option ℝ) (l : List Kishida.Point) : (pair t x c l).length = l.length := by
  simp [pair]

theorem pair_posDef {l : List Kishida.Point} (hpd : (covarAll l).PosDef) (t x : ℝ) (c : Kishida.Point → Option ℝ) :
    (Matrix.of fun i j : Fin (pair t x c l).length => Spec.cov (pair t x c l)[i].1 (pair t x c l)[j].1).PosDef := by
  have e : (Matrix.of fun i j : Fin (pair t x c l).length => Spec.cov (pair t x c l)[i].1 (pair t x c l)[j].1) =
      (covarAll l).submatrix (Fin.cast (pair_length t x c l)) (Fin.cast (pair_length t x c l)) := by
    refine Matrix.ext fun i j => ?_
    rw [Matrix.submatrix_apply, covarAll_apply, covar_cov, Matrix.of_apply]
    have q : ∀ k : Fin (pair t x c l).length, (pair t x c l)[k].1 = (l.get (Fin.cast (pair_length t x c l) k)).toPoint := fun k => by
      change ((pair t x c l)[k.val]).1 = _
      simp only [pair, List.getElem_map]
      rfl
    rw [q, q]
  rw [e]
  exact hpd.submatrix (Fin.cast_injective _)

/-- with the one target the vector code is the scalar code -/
theorem pair_single {l : List Kishida.Point} (h : l.Pairwise fun p q => p.period < q.period)
    (hr : ∀ p ∈ l, 0.01 ≤ p.period ∧ p.period ≤ 500) (hs : ∀ p ∈ l, 0 < p.lnStd) {p₀ : Kishida.Point} (hp₀ : p₀ ∈ l) (x : ℝ)
    (c : Kishida.Point → Option ℝ) :
    ∃ o o', calcCmsv ((pair p₀.period x c l).map fun p => ⟨p.1, p.2.1⟩) = pure o ∧
      BJ08.calcCms (l.map fun p => p.toPoint) p₀.period x = pure o' ∧
      List.Forall₂ (fun a b => F.Same a.1 b.1 ∧ F.Same a.2 b.2) o o' := by
  classical
  have e : ((pair p₀.period x c l).map fun p => (⟨p.1, p.2.1⟩ : Kishida.Point)) =
      l.map fun p => ⟨p.toPoint, if p.period = p₀.period then some x else none⟩ := by
    rw [pair, List.map_map]; rfl
  have e' : ((l.map fun p => (⟨p.toPoint, if p.period = p₀.period then some x else none⟩ : Kishida.Point)).map fun p => p.toPoint) =
      l.map fun p => p.toPoint := by rw [List.map_map]; rfl
  rw [e]
  have := C37_single (l.map fun p => ⟨p.toPoint, if p.period = p₀.period then some x else none⟩) (by rw [List.pairwise_map]; exact h)
    (fun p hp => by obtain ⟨q, hq, rfl⟩ := List.mem_map.1 hp; exact hr q hq)
    (fun p hp => by obtain ⟨q, hq, rfl⟩ := List.mem_map.1 hp; exact hs q hq)
    ⟨p₀.toPoint, some x⟩ (List.mem_map.2 ⟨p₀, hp₀, by rw [if_pos rfl]⟩) x rfl
    (fun p hp hne => by
      obtain ⟨q, hq, rfl⟩ := List.mem_map.1 hp
      by_cases hqp : q.period = p₀.period
      · exfalso
        apply hne
        have : q = p₀ := same_period h hq hp₀ hqp
        rw [this, if_pos rfl]
      · exact if_neg hqp)
  rw [e'] at this
  exact this

end CMSVMore

/-- C135, scalar and vector: at every period the standard deviation with several targets is at most that of
`calc_cond_mean_spectrum` conditioned on any one of the periods, whatever the value given there. -/
theorem C135_scalar (l : List Kishida.Point) (h : l.Pairwise fun p q => p.period < q.period)
    (hr : ∀ p ∈ l, 0.01 ≤ p.period ∧ p.period ≤ 500) (hs : ∀ p ∈ l, 0 < p.lnStd) (hpd : (covarAll l).PosDef)
    (p₀ : Kishida.Point) (hp₀ : p₀ ∈ l) (hc : p₀.cond.isSome) (x : ℝ) :
    ∃ o o', calcCmsv l = pure o ∧ BJ08.calcCms (l.map fun p => p.toPoint) p₀.period x = pure o' ∧
      ∀ i < l.length, ∃ m s m' s' : F, o[i]? = some (m, s) ∧ o'[i]? = some (m', s') ∧ s.ok ∧ s'.ok ∧ 0 ≤ s.val ∧ s.val ≤ s'.val := by
  obtain ⟨o₁, o', e₁, e', same⟩ := pair_single h hr hs hp₀ x fun p => p.cond
  have key : ∀ q ∈ l, q.period = p₀.period → q = p₀ := fun q hq hqp => same_period h hq hp₀ hqp
  obtain ⟨o₂, o, e₂, e, hall⟩ := C135_more_targets (pair p₀.period x (fun p => p.cond) l)
    (by rw [pair, List.pairwise_map]; exact h)
    (fun p hp => by obtain ⟨q, hq, rfl⟩ := List.mem_map.1 hp; exact (hr q hq).1)
    (fun p hp => by obtain ⟨q, hq, rfl⟩ := List.mem_map.1 hp; exact hs q hq)
    (pair_posDef hpd _ _ _)
    (fun p hp => by
      obtain ⟨q, hq, rfl⟩ := List.mem_map.1 hp
      intro hx
      by_cases hqp : q.period = p₀.period
      · rw [key q hq hqp]; exact hc
      · simp only [if_neg hqp] at hx; cases hx)
  obtain rfl : o₁ = o₂ := Except.ok.inj (congrArg Py.res (e₁.symm.trans e₂))
  have el : ((pair p₀.period x (fun p => p.cond) l).map fun p => (⟨p.1, p.2.2⟩ : Kishida.Point)) = l := by
    rw [pair, List.map_map]; exact List.map_id l
  rw [el] at e
  refine ⟨o, o', e, e', fun i hi => ?_⟩
  obtain ⟨m, s, m', s', g, g', a, b, c, d⟩ := hall i (by simpa [pair] using hi)
  obtain ⟨hlen, hget⟩ := List.forall₂_iff_get.1 same
  have hi1 : i < o₁.length := (List.getElem?_eq_some_iff.1 g).1
  have sm := (hget i hi1 (hlen ▸ hi1)).2
  have g1 : o₁[i] = (m, s) := (List.getElem?_eq_some_iff.1 g).2
  simp only [List.get_eq_getElem, g1] at sm
  exact ⟨m', s', _, _, g', List.getElem?_eq_getElem (hlen ▸ hi1), b, sm.2.1, c, sm.2.2 ▸ d⟩

open BJ08 in
/-- C135 for `calc_cond_mean_spectrum`, with no assumption on the covariances: conditioned on a period of the spectrum, at every
period the mean is the median plus a weight times the departure of the target from its median, the square of the standard deviation
is the variance of the error of that prediction, and no other weight has a smaller one. -/
theorem C135_scalar_optimal (l : List BJ08.Point) (h : BJ08.Spectrum l) (hr : ∀ p ∈ l, 0.01 ≤ p.period ∧ p.period ≤ 500)
    (p₀ : BJ08.Point) (hp₀ : p₀ ∈ l) (x : ℝ) :
    ∃ o, BJ08.calcCms l p₀.period x = pure o ∧ ∀ (i : ℕ) (p : BJ08.Point), l[i]? = some p →
      ∃ m s : F, o[i]? = some (m, s) ∧ m.ok ∧ s.ok ∧ 0 ≤ s.val ∧ ∃ w : ℝ, m.val = p.lnPsa + w * (x - p₀.lnPsa) ∧
        s.val ^ 2 = Spec.cov p p - 2 * (w * Spec.cov p p₀) + w * w * Spec.cov p₀ p₀ ∧
        ∀ w' : ℝ, s.val ^ 2 ≤ Spec.cov p p - 2 * (w' * Spec.cov p p₀) + w' * w' * Spec.cov p₀ p₀ := by
  have hl : l ≠ [] := by rintro rfl; simp at hp₀
  refine ⟨_, calcCms_of hl _ _, fun i p hi => ⟨_, _, map_get hi _, ?_⟩⟩
  have hm : p ∈ l := List.mem_of_getElem? hi
  have one : ∀ q ∈ l, (correl q.period q.period).val = 1 := fun q hq => by
    obtain ⟨y, hy, -, -, -, y2⟩ := C34_range [q.period] q.period q.period 0 rfl (hr q hq).1 (hr q hq).2 (hr q hq).1 (hr q hq).2
    have hy' : y = correl q.period q.period := by simpa [calcCorrels] using hy.symm
    rw [← hy']; exact y2.2 rfl
  obtain ⟨y, hy, k2, y0, y1, y2⟩ := C34_range [p.period] p.period p₀.period 0 rfl (hr p hm).1 (hr p hm).2 (hr p₀ hp₀).1 (hr p₀ hp₀).2
  have hy' : y = correl p.period p₀.period := by simpa [calcCorrels] using hy.symm
  rw [hy'] at k2 y0 y1 y2
  have k1 := epsilon_ok h hl p₀.period x
  have n1 := interp_node h hp₀ BJ08.Point.lnPsa
  have n2 := interp_node h hp₀ BJ08.Point.lnStd
  have s1 := h.std p hm
  have s0 := h.std p₀ hp₀
  simp only [Spec.cov, one p hm, one p₀ hp₀]
  set ρ := correl p.period p₀.period with hρ
  have hq : 0 ≤ 1 - ρ.val ^ 2 := by nlinarith
  have hv : 0 ≤ p.lnStd ^ 2 * (1 - ρ.val ^ 2) := by positivity
  refine ⟨by simp only [fsimp, k1, k2], ?_, ?_, p.lnStd * ρ.val / p₀.lnStd, ?_, ?_, fun w' => ?_⟩
  · simp only [fsimp, k2, true_and]; exact hv
  · simp only [fsimp]; positivity
  · simp only [fsimp, epsilon, n1, n2]
    field_simp
  · simp only [fsimp]
    rw [Real.sq_sqrt hv]
    field_simp
    ring
  · simp only [fsimp]
    rw [Real.sq_sqrt hv]
    nlinarith [sq_nonneg (w' * p₀.lnStd - p.lnStd * ρ.val)]

/-- met by a spectrum of two periods -/
example : ∃ (l : List BJ08.Point) (p₀ : BJ08.Point), BJ08.Spectrum l ∧ (∀ p ∈ l, 0.01 ≤ p.period ∧ p.period ≤ 500) ∧ p₀ ∈ l ∧
    l.length = 2 :=
  ⟨[⟨0.1, -1, 0.6⟩, ⟨0.5, -1.5, 0.65⟩], ⟨0.1, -1, 0.6⟩, ⟨by simp; norm_num, by simp; norm_num⟩, by simp; norm_num, by simp, rfl⟩

/-- C136, scalar and vector: `calc_cond_mean_spectrum` conditioned on one period, its value there and its means at any further
periods given as targets to `calc_cond_mean_spectrum_vector`: the means are again those of the scalar spectrum, at every period. -/
theorem C136_scalar (l : List Kishida.Point) (h : l.Pairwise fun p q => p.period < q.period)
    (hr : ∀ p ∈ l, 0.01 ≤ p.period ∧ p.period ≤ 500) (hs : ∀ p ∈ l, 0 < p.lnStd) (hpd : (covarAll l).PosDef)
    (p₀ : Kishida.Point) (hp₀ : p₀ ∈ l) (x : ℝ) (hx : p₀.cond = some x)
    (o' : List (F × F)) (e' : BJ08.calcCms (l.map fun p => p.toPoint) p₀.period x = pure o')
    (ht : ∀ (i : ℕ) (p : Kishida.Point) (y : ℝ), l[i]? = some p → p ≠ p₀ → p.cond = some y →
      ∃ m s : F, o'[i]? = some (m, s) ∧ y = m.val) :
    ∃ o, calcCmsv l = pure o ∧
      ∀ i < l.length, ∃ m s m' s' : F, o[i]? = some (m, s) ∧ o'[i]? = some (m', s') ∧ m.ok ∧ m'.ok ∧ m.val = m'.val := by
  obtain ⟨o₁, o₂, e₁, e₂, same⟩ := pair_single h hr hs hp₀ x fun p => p.cond
  obtain rfl : o₂ = o' := Except.ok.inj (congrArg Py.res (e₂.symm.trans e'))
  obtain ⟨hlen, hget⟩ := List.forall₂_iff_get.1 same
  have key : ∀ q ∈ l, q.period = p₀.period → q = p₀ := fun q hq hqp => same_period h hq hp₀ hqp
  have conv : ∀ (i : ℕ) (m s : F), o₂[i]? = some (m, s) → ∃ m₁ s₁ : F, o₁[i]? = some (m₁, s₁) ∧ F.Same m₁ m := by
    intro i m s g
    obtain ⟨hi, gi⟩ := List.getElem?_eq_some_iff.1 g
    have := (hget i (hlen ▸ hi) hi).1
    simp only [List.get_eq_getElem, gi] at this
    exact ⟨_, _, List.getElem?_eq_getElem (hlen ▸ hi), this⟩
  obtain ⟨o, e, hall⟩ := C136_predicted (pair p₀.period x (fun p => p.cond) l)
    (by rw [pair, List.pairwise_map]; exact h)
    (fun p hp => by obtain ⟨q, hq, rfl⟩ := List.mem_map.1 hp; exact (hr q hq).1)
    (fun p hp => by obtain ⟨q, hq, rfl⟩ := List.mem_map.1 hp; exact hs q hq)
    (pair_posDef hpd _ _ _) o₁ e₁
    (fun i p hp => by
      rw [pair, List.getElem?_map, Option.map_eq_some_iff] at hp
      obtain ⟨q, hq, rfl⟩ := hp
      by_cases hqp : q.period = p₀.period
      · left
        have := key q (List.mem_of_getElem? hq) hqp
        subst this
        simp only [if_pos]
        exact hx
      · simp only [if_neg hqp]
        cases hy : q.cond with
        | none => exact .inl rfl
        | some y =>
          obtain ⟨m, s, g, rfl⟩ := ht i q y hq (fun e => hqp (by rw [e])) hy
          obtain ⟨m₁, s₁, g₁, sm⟩ := conv i m s g
          exact .inr ⟨trivial, m₁, s₁, g₁, by rw [sm.2.2]⟩)
  have el : ((pair p₀.period x (fun p => p.cond) l).map fun p => (⟨p.1, p.2.2⟩ : Kishida.Point)) = l := by
    rw [pair, List.map_map]; exact List.map_id l
  rw [el] at e
  refine ⟨o, e, fun i hi => ?_⟩
  obtain ⟨m, s, m', s', g, g', a, b, c, -⟩ := hall i (by simpa [pair] using hi)
  have hi1 : i < o₁.length := (List.getElem?_eq_some_iff.1 g).1
  have sm := (hget i hi1 (hlen ▸ hi1)).1
  have g1 : o₁[i] = (m, s) := (List.getElem?_eq_some_iff.1 g).2
  simp only [List.get_eq_getElem, g1] at sm
  exact ⟨m', s', _, _, g', List.getElem?_eq_getElem (hlen ▸ hi1), b, sm.2.1, c.trans sm.2.2.symm⟩

/-- the hypotheses of `C135_scalar` are met by the example of C36 -/
example : (exList.Pairwise fun p q => p.period < q.period) ∧ (∀ p ∈ exList, 0.01 ≤ p.period ∧ p.period ≤ 500) ∧
    (∀ p ∈ exList, 0 < p.lnStd) ∧ (covarAll exList).PosDef ∧ ∃ p ∈ exList, p.cond.isSome := by
  refine ⟨?_, ?_, ?_, by apply two_posDef <;> norm_num, ?_⟩
  · simp [exList]; norm_num
  · simp [exList]; norm_num
  · simp [exList]; norm_num
  · simp [exList]

/-- those of `C136_scalar` by a spectrum with targets at both periods, the second the mean of the scalar code -/
example : ∃ (l : List Kishida.Point) (p₀ : Kishida.Point) (x : ℝ) (o' : List (F × F)), (l.Pairwise fun p q => p.period < q.period) ∧
    (∀ p ∈ l, 0.01 ≤ p.period ∧ p.period ≤ 500) ∧ (∀ p ∈ l, 0 < p.lnStd) ∧ (covarAll l).PosDef ∧ p₀ ∈ l ∧ p₀.cond = some x ∧
    BJ08.calcCms (l.map fun p => p.toPoint) p₀.period x = pure o' ∧
    (∀ (i : ℕ) (p : Kishida.Point) (y : ℝ), l[i]? = some p → p ≠ p₀ → p.cond = some y → ∃ m s : F, o'[i]? = some (m, s) ∧ y = m.val) ∧
    ∃ p ∈ l, p ≠ p₀ ∧ p.cond.isSome := by
  obtain ⟨o₁, o', e₁, e', same⟩ := pair_single (l := [⟨⟨0.1, -1, 0.6⟩, some (-0.5)⟩, ⟨⟨0.5, -1.5, 0.65⟩, none⟩]) (by simp; norm_num)
    (by simp; norm_num) (by simp; norm_num) List.mem_cons_self (-0.5) fun _ => none
  have hl : o'.length = 2 := by
    obtain ⟨o₂, e₂, hlen, -⟩ := C35_passes_through [⟨0.1, -1, 0.6⟩, ⟨0.5, -1.5, 0.65⟩] ⟨by simp; norm_num, by simp; norm_num⟩
      ⟨0.1, -1, 0.6⟩ 0 rfl (by norm_num) (-0.5)
    rw [Except.ok.inj (congrArg Py.res (e'.symm.trans e₂)), hlen]
    rfl
  have h1 : 1 < o'.length := by rw [hl]; norm_num
  refine ⟨[⟨⟨0.1, -1, 0.6⟩, some (-0.5)⟩, ⟨⟨0.5, -1.5, 0.65⟩, some o'[1].1.val⟩], ⟨⟨0.1, -1, 0.6⟩, some (-0.5)⟩, -0.5, o', by simp; norm_num,
    by simp; norm_num, by simp; norm_num, by apply two_posDef <;> norm_num, List.mem_cons_self, rfl, e', ?_,
    _, List.mem_cons_of_mem _ (List.mem_singleton_self _), ?_, rfl⟩
  · intro i p y hp hne hy
    match i, hp with
    | 0, hp => exact absurd (Option.some.inj hp).symm hne
    | 1, hp =>
      obtain rfl := Option.some.inj hp
      exact ⟨o'[1].1, o'[1].2, List.getElem?_eq_getElem h1, (Option.some.inj hy).symm⟩
  · intro e
    have := congrArg (fun p : Kishida.Point => p.period) e
    norm_num at this
