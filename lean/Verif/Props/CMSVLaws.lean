import Verif.Props.CMSVCont
import Mathlib.LinearAlgebra.Matrix.NonsingularInverse

/-!
# C131: how the vector conditional spectrum depends on its targets and standard deviations
-/

set_option linter.unusedSimpArgs false

namespace Kishida

/-- a period with two alternative conditioning values, or none -/
structure TwoTargets extends BJ08.Point where
  targets : Option (ℝ × ℝ)

/-- the period, conditioned on what `f` makes of the median and the two values -/
def TwoTargets.aim (q : TwoTargets) (f : ℝ → ℝ → ℝ → ℝ) : Point := ⟨q.toPoint, q.targets.map fun t => f q.lnPsa t.1 t.2⟩

/-- with all deviations multiplied by `k` -/
def Point.scaled (p : Point) (k : ℝ) : Point := ⟨⟨p.period, p.lnPsa, k * p.lnStd⟩, p.cond⟩

/-- the residuals as one function of the parameter -/
theorem mean_at {X : Type*} (g : List (Moving X)) (p : Moving X) (x : X) (ok : Prop) :
    (mean ok (p.point x) (g.map fun q => q.point x)).val = p.lnPsa x + (fun j : Fin g.length => (covar (p.point x) (g[j].point x)).val) ⬝ᵥ
      ((covarAt g x)⁻¹.mulVec fun j => (g[j].point x).cond.getD 0 - (g[j].point x).lnPsa) := by
  have := quad_at g x (fun q => (covar (p.point x) q).val) (fun q => q.cond.getD 0 - q.lnPsa)
  simp only [mean]
  rw [← this]
  rfl

theorem std_at {X : Type*} (g : List (Moving X)) (p : Moving X) (x : X) (ok : Prop) :
    std ok (p.point x) (g.map fun q => q.point x) = F.sqrt ⟨(covar (p.point x) (p.point x)).val -
      (fun j : Fin g.length => (covar (p.point x) (g[j].point x)).val) ⬝ᵥ
        ((covarAt g x)⁻¹.mulVec fun j => (covar (g[j].point x) (p.point x)).val), ok⟩ := by
  have := quad_at g x (fun q => (covar (p.point x) q).val) (fun q => (covar q (p.point x)).val)
  simp only [std]
  rw [← this]
  rfl

/-- the entry of a period that is not conditioned upon -/
theorem entry_none {X : Type*} (l : List (Moving X)) (p : Moving X) (hp : p.cond = none) (x : X) :
    entry (l.map fun p => p.point x) (p.point x) =
      (mean (allOk (l.map fun p => p.point x)) (p.point x) ((l.filter fun p => p.cond.isSome).map fun p => p.point x),
        std (allOk (l.map fun p => p.point x)) (p.point x) ((l.filter fun p => p.cond.isSome).map fun p => p.point x)) := by
  rw [← given_at]
  simp only [entry]
  rw [show (p.point x).cond = none by simp [Moving.point, hp]]

/-- a period with two targets, as one that moves with `f` -/
def TwoTargets.moving (q : TwoTargets) : Moving (ℝ → ℝ → ℝ → ℝ) :=
  ⟨fun _ => q.period, fun _ => q.lnPsa, fun _ => q.lnStd, q.targets.map fun t f => f q.lnPsa t.1 t.2⟩

theorem TwoTargets.moving_point (q : TwoTargets) (f : ℝ → ℝ → ℝ → ℝ) : q.moving.point f = q.aim f := by
  cases h : q.targets <;> simp [TwoTargets.moving, TwoTargets.aim, Moving.point, h]

theorem aim_map (l : List TwoTargets) (f : ℝ → ℝ → ℝ → ℝ) :
    l.map (fun q => q.aim f) = (l.map TwoTargets.moving).map fun p => p.point f := by
  rw [List.map_map]
  exact List.map_congr_left fun q _ => (q.moving_point f).symm

theorem covar_aim (p q : TwoTargets) (f g : ℝ → ℝ → ℝ → ℝ) : covar (p.aim f) (q.aim f) = covar (p.aim g) (q.aim g) := rfl

/-- a point, as one whose deviation moves -/
def Point.moving (p : Point) : Moving ℝ := ⟨fun _ => p.period, fun _ => p.lnPsa, fun k => k * p.lnStd, p.cond.map fun c _ => c⟩

theorem Point.moving_point (p : Point) (k : ℝ) : p.moving.point k = p.scaled k := by
  cases h : p.cond <;> simp [Point.moving, Point.scaled, Moving.point, h]

theorem covar_scaled (p q : Point) (k : ℝ) : (covar (p.scaled k) (q.scaled k)).val = k ^ 2 * (covar p q).val := by
  simp only [covar, Point.scaled, fsimp]
  ring

theorem scaled_one (p : Point) : p.scaled 1 = p := by
  obtain ⟨⟨a, b, c⟩, d⟩ := p
  simp [Point.scaled]

end Kishida

open Kishida

/-- C131: conditioning on the medians themselves returns the median spectrum, for any set of conditioned periods. -/
theorem C131_median (l : List Kishida.Point) (h : l.Pairwise fun p q => p.period < q.period) (hr : ∀ p ∈ l, 0.01 ≤ p.period)
    (hd : (covar22 (given l)).det ≠ 0) (hm : ∀ p ∈ l, ∀ x, p.cond = some x → x = p.lnPsa) :
    ∃ o, calcCmsv l = pure o ∧ ∀ (i : ℕ) (p : Kishida.Point), l[i]? = some p → ∃ m s : F, o[i]? = some (m, s) ∧ m.ok ∧ m.val = p.lnPsa := by
  refine ⟨_, calc_of h hd, fun i p hi => ⟨_, _, BJ08.map_get hi _, ?_⟩⟩
  have hpm := List.mem_of_getElem? hi
  cases hc : p.cond with
  | some x => simp only [entry, hc]; exact ⟨trivial, hm p hpm x hc⟩
  | none =>
    simp only [entry, hc, mean]
    refine ⟨allOk_of hr, ?_⟩
    have hz : resids (given l) = 0 := by
      funext j
      have hj : (given l)[j] ∈ given l := List.getElem_mem _
      obtain ⟨hjl, hjs⟩ := List.mem_filter.1 hj
      obtain ⟨x, hx⟩ := Option.isSome_iff_exists.1 hjs
      show (given l)[j].cond.getD 0 - (given l)[j].lnPsa = 0
      rw [hx, Option.getD_some, hm _ hjl x hx, sub_self]
    rw [hz]
    simp

/-- C131: superposition.  For two sets `x`, `y` of targets at the same periods and any factors `a`, `b`: either all three
calls raise `LinAlgError`, or the departure from the median spectrum that the targets `median + a (x - median) + b (y - median)`
cause is `a` times the one `x` causes plus `b` times the one `y` causes, at every period; the standard deviations do not depend
on the targets at all. -/
theorem C131_superposition (l : List TwoTargets) (h : l.Pairwise fun p q => p.period < q.period) (hr : ∀ p ∈ l, 0.01 ≤ p.period)
    (a b : ℝ) :
    let X := l.map fun q => q.aim fun _ x _ => x
    let Y := l.map fun q => q.aim fun _ _ y => y
    let Z := l.map fun q => q.aim fun m x y => m + a * (x - m) + b * (y - m)
    (calcCmsv X = Py.raise .linAlgError ∧ calcCmsv Y = Py.raise .linAlgError ∧ calcCmsv Z = Py.raise .linAlgError) ∨
    ∃ ox oy oz, calcCmsv X = pure ox ∧ calcCmsv Y = pure oy ∧ calcCmsv Z = pure oz ∧
      ∀ (i : ℕ) (q : TwoTargets), l[i]? = some q → ∃ mx my mz s : F, ox[i]? = some (mx, s) ∧ oy[i]? = some (my, s) ∧
        oz[i]? = some (mz, s) ∧ mx.ok ∧ my.ok ∧ mz.ok ∧
        mz.val - q.lnPsa = a * (mx.val - q.lnPsa) + b * (my.val - q.lnPsa) := by
  intro X Y Z
  have hinc : ∀ f : ℝ → ℝ → ℝ → ℝ, (l.map fun q => q.aim f).Pairwise fun p q => p.period < q.period := by
    intro f
    rw [List.pairwise_map]
    exact h
  have hok : ∀ f : ℝ → ℝ → ℝ → ℝ, allOk (l.map fun q => q.aim f) := by
    intro f
    refine allOk_of fun p hp => ?_
    obtain ⟨q, hq, rfl⟩ := List.mem_map.1 hp
    exact hr q hq
  set g := (l.map TwoTargets.moving).filter fun p => p.cond.isSome with hg
  have gform : ∀ p ∈ g, ∃ q : TwoTargets, p = q.moving := by
    intro p hp
    obtain ⟨q, -, rfl⟩ := List.mem_map.1 (List.mem_filter.1 hp).1
    exact ⟨q, rfl⟩
  have cov : ∀ f f' : ℝ → ℝ → ℝ → ℝ, covarAt g f = covarAt g f' := by
    intro f f'
    refine Matrix.ext fun i j => ?_
    obtain ⟨p, hp⟩ := gform g[i] (List.getElem_mem _)
    obtain ⟨q, hq⟩ := gform g[j] (List.getElem_mem _)
    simp only [covarAt, Matrix.of_apply, hp, hq, TwoTargets.moving_point]
    rfl
  have det : ∀ f, (covar22 (given (l.map fun q => q.aim f))).det = (covarAt g (fun m _ _ => m)).det := by
    intro f
    rw [aim_map, given_at, det_at, cov f]
  by_cases hd : (covarAt g (fun m _ _ => m)).det = 0
  · left
    exact ⟨(C36_targets _ (hinc _)).1 ((det _).trans hd), (C36_targets _ (hinc _)).1 ((det _).trans hd),
      (C36_targets _ (hinc _)).1 ((det _).trans hd)⟩
  · right
    refine ⟨_, _, _, calc_of (hinc _) (by rw [det]; exact hd), calc_of (hinc _) (by rw [det]; exact hd),
      calc_of (hinc _) (by rw [det]; exact hd), fun i q hi => ?_⟩
    have get : ∀ f : ℝ → ℝ → ℝ → ℝ, (((l.map fun q => q.aim f)).map (entry (l.map fun q => q.aim f)))[i]? =
        some (entry (l.map fun q => q.aim f) (q.aim f)) := by
      intro f
      rw [List.map_map, BJ08.map_get hi]
      rfl
    cases ht : q.targets with
    | some t =>
      have e : ∀ f : ℝ → ℝ → ℝ → ℝ, entry (l.map fun q => q.aim f) (q.aim f) = (F.ofReal (f q.lnPsa t.1 t.2), 0) := by
        intro f
        simp only [entry, TwoTargets.aim, ht, Option.map_some]
      refine ⟨F.ofReal t.1, F.ofReal t.2, F.ofReal (q.lnPsa + a * (t.1 - q.lnPsa) + b * (t.2 - q.lnPsa)), 0,
        by rw [get, e], by rw [get, e], by rw [get, e], trivial, trivial, trivial, ?_⟩
      simp only [fsimp]
      ring
    | none =>
      have hn : q.moving.cond = none := by simp [TwoTargets.moving, ht]
      -- the row of covariances and the inverse are common to all targets
      set c : Fin g.length → ℝ := fun j => (covar (q.moving.point fun m _ _ => m) (g[j].point fun m _ _ => m)).val with hc
      have cE : ∀ f : ℝ → ℝ → ℝ → ℝ, (fun j : Fin g.length => (covar (q.moving.point f) (g[j].point f)).val) = c := by
        intro f; funext j
        obtain ⟨p, hp⟩ := gform g[j] (List.getElem_mem _)
        simp only [hc, hp, TwoTargets.moving_point]
        rfl
      have cE' : ∀ f : ℝ → ℝ → ℝ → ℝ, (fun j : Fin g.length => (covar (g[j].point f) (q.moving.point f)).val) = c := by
        intro f
        rw [← cE f]
        funext j
        exact covar_symm _ _
      have e : ∀ f : ℝ → ℝ → ℝ → ℝ, entry (l.map fun q => q.aim f) (q.aim f) =
          (⟨q.lnPsa + c ⬝ᵥ ((covarAt g fun m _ _ => m)⁻¹.mulVec fun j => (g[j].point f).cond.getD 0 - (g[j].point f).lnPsa), True⟩,
            F.sqrt ⟨(covar (q.aim fun m _ _ => m) (q.aim fun m _ _ => m)).val - c ⬝ᵥ ((covarAt g fun m _ _ => m)⁻¹.mulVec c), True⟩) := by
        intro f
        have hok' := eq_true (hok f)
        rw [aim_map] at hok'
        have hm := mean_at g q.moving f True
        have hs := std_at g q.moving f True
        rw [cE f, cov f fun m _ _ => m] at hm
        rw [cE f, cE' f, cov f fun m _ _ => m, q.moving_point] at hs
        rw [aim_map, ← q.moving_point f, entry_none _ _ hn, hok']
        exact Prod.ext (F.ext hm rfl) hs
      refine ⟨_, _, _, _, by rw [get, e], by rw [get, e], by rw [get, e], trivial, trivial, trivial, ?_⟩
      simp only [add_sub_cancel_left]
      rw [← smul_eq_mul a, ← smul_eq_mul b, ← dotProduct_smul, ← dotProduct_smul, ← Matrix.mulVec_smul, ← Matrix.mulVec_smul,
        ← dotProduct_add, ← Matrix.mulVec_add]
      refine congrArg _ (congrArg _ ?_)
      funext j
      have hj : g[j] ∈ g := List.getElem_mem _
      obtain ⟨p, hp⟩ := gform g[j] hj
      have hs := (List.mem_filter.1 hj).2
      rw [hp] at hs
      obtain ⟨t, ht⟩ : ∃ t, p.targets = some t := by
        cases hpt : p.targets with
        | none => simp [TwoTargets.moving, hpt] at hs
        | some t => exact ⟨t, rfl⟩
      simp only [hp, TwoTargets.moving_point, TwoTargets.aim, ht, Option.map_some, Option.getD_some, Pi.add_apply, Pi.smul_apply,
        smul_eq_mul]
      ring

/-- C131: multiplying all standard deviations by one positive factor leaves the conditional means alone and multiplies the
conditional standard deviations by that factor. -/
theorem C131_scale (l : List Kishida.Point) (h : l.Pairwise fun p q => p.period < q.period) (hr : ∀ p ∈ l, 0.01 ≤ p.period)
    (k : ℝ) (hk : 0 < k) :
    (calcCmsv l = Py.raise .linAlgError ∧ calcCmsv (l.map fun p => p.scaled k) = Py.raise .linAlgError) ∨
    ∃ o o', calcCmsv l = pure o ∧ calcCmsv (l.map fun p => p.scaled k) = pure o' ∧
      ∀ (i : ℕ) (p : Kishida.Point), l[i]? = some p → ∃ m s m' s' : F, o[i]? = some (m, s) ∧ o'[i]? = some (m', s') ∧
        m.ok ∧ m'.ok ∧ m'.val = m.val ∧ (s'.ok ↔ s.ok) ∧ s'.val = k * s.val := by
  have toMap : ∀ k : ℝ, l.map (fun p => p.scaled k) = (l.map Point.moving).map fun p => p.point k := by
    intro k
    rw [List.map_map]
    exact List.map_congr_left fun p _ => (p.moving_point k).symm
  have one : l.map (fun p => p.scaled 1) = l := by
    conv_rhs => rw [← List.map_id l]
    exact List.map_congr_left fun p _ => scaled_one p
  have hinc : (l.map fun p => p.scaled k).Pairwise fun p q => p.period < q.period := by
    rw [List.pairwise_map]; exact h
  have hok : ∀ k : ℝ, allOk (l.map fun p => p.scaled k) := by
    intro k
    refine allOk_of fun p hp => ?_
    obtain ⟨q, hq, rfl⟩ := List.mem_map.1 hp
    exact hr q hq
  set g := (l.map Point.moving).filter fun p => p.cond.isSome with hg
  have gform : ∀ p ∈ g, ∃ q : Point, p = q.moving := by
    intro p hp
    obtain ⟨q, -, rfl⟩ := List.mem_map.1 (List.mem_filter.1 hp).1
    exact ⟨q, rfl⟩
  have k2 : k ^ 2 ≠ 0 := by positivity
  have cov : covarAt g k = k ^ 2 • covarAt g 1 := by
    refine Matrix.ext fun i j => ?_
    obtain ⟨p, hp⟩ := gform g[i] (List.getElem_mem _)
    obtain ⟨q, hq⟩ := gform g[j] (List.getElem_mem _)
    simp only [covarAt, Matrix.of_apply, Matrix.smul_apply, hp, hq, Point.moving_point, covar_scaled, smul_eq_mul, one_pow, one_mul]
  have det1 : (covar22 (given l)).det = (covarAt g 1).det := by
    conv_lhs => rw [← one]
    rw [toMap, given_at, det_at]
  have detk : (covar22 (given (l.map fun p => p.scaled k))).det = (k ^ 2) ^ g.length * (covarAt g 1).det := by
    rw [toMap, given_at, det_at, ← hg, cov, Matrix.det_smul, Fintype.card_fin]
  by_cases hd : (covarAt g 1).det = 0
  · left
    exact ⟨(C36_targets _ h).1 (det1.trans hd), (C36_targets _ hinc).1 (by rw [detk, hd, mul_zero])⟩
  · right
    refine ⟨_, _, calc_of h (by rw [det1]; exact hd),
      calc_of hinc (by rw [detk]; exact mul_ne_zero (pow_ne_zero _ k2) hd), fun i p hi => ?_⟩
    have get : ((l.map fun p => p.scaled k).map (entry (l.map fun p => p.scaled k)))[i]? =
        some (entry (l.map fun p => p.scaled k) (p.scaled k)) := by
      rw [List.map_map, BJ08.map_get hi]
      rfl
    refine ⟨(entry l p).1, (entry l p).2, (entry (l.map fun p => p.scaled k) (p.scaled k)).1,
      (entry (l.map fun p => p.scaled k) (p.scaled k)).2, BJ08.map_get hi _, get, ?_⟩
    obtain ⟨x, ht⟩ | ht : (∃ x, p.cond = some x) ∨ p.cond = none := by
      cases p.cond with
      | none => exact .inr rfl
      | some x => exact .inl ⟨x, rfl⟩
    · have ht' : (p.scaled k).cond = some x := ht
      simp [entry, ht, ht', fsimp]
    · have hn : p.moving.cond = none := by simp [Point.moving, ht]
      set c : Fin g.length → ℝ := fun j => (covar (p.moving.point 1) (g[j].point 1)).val with hc
      have cE : (fun j : Fin g.length => (covar (p.moving.point k) (g[j].point k)).val) = k ^ 2 • c := by
        funext j
        obtain ⟨q, hq⟩ := gform g[j] (List.getElem_mem _)
        simp only [hc, hq, Point.moving_point, covar_scaled, Pi.smul_apply, smul_eq_mul, one_pow, one_mul]
      have symm : ∀ k : ℝ, (fun j : Fin g.length => (covar (g[j].point k) (p.moving.point k)).val) =
          fun j : Fin g.length => (covar (p.moving.point k) (g[j].point k)).val := fun k => funext fun j => covar_symm _ _
      have res : ∀ k : ℝ, (fun j : Fin g.length => (g[j].point k).cond.getD 0 - (g[j].point k).lnPsa) =
          fun j : Fin g.length => (g[j].point 1).cond.getD 0 - (g[j].point 1).lnPsa := by
        intro k; funext j
        obtain ⟨q, hq⟩ := gform g[j] (List.getElem_mem _)
        simp only [hq, Point.moving_point]
        rfl
      have inv : (covarAt g k)⁻¹ = (k ^ 2)⁻¹ • (covarAt g 1)⁻¹ := by
        rw [cov]
        have hu : IsUnit (covarAt g 1).det := isUnit_iff_ne_zero.2 hd
        have := Matrix.inv_smul' (covarAt g 1) (Units.mk0 (k ^ 2) k2) hu
        simpa [Units.smul_def] using this
      have e1 : entry l p = entry ((l.map Point.moving).map fun p => p.point 1) (p.moving.point 1) := by
        rw [← toMap, one, p.moving_point, scaled_one]
      have ek : entry (l.map fun p => p.scaled k) (p.scaled k) =
          entry ((l.map Point.moving).map fun p => p.point k) (p.moving.point k) := by
        rw [← toMap, p.moving_point]
      have ok1 := eq_true (hok 1)
      have okk := eq_true (hok k)
      rw [toMap] at ok1 okk
      rw [e1, ek, entry_none _ _ hn, entry_none _ _ hn, ok1, okk, ← hg]
      set v := (covar (p.moving.point 1) (p.moving.point 1)).val - c ⬝ᵥ ((covarAt g 1)⁻¹.mulVec c) with hv
      have v1 : std True (p.moving.point 1) (g.map fun q => q.point 1) = F.sqrt ⟨v, True⟩ := by
        rw [std_at, symm 1]
      have vk : std True (p.moving.point k) (g.map fun q => q.point k) = F.sqrt ⟨k ^ 2 * v, True⟩ := by
        rw [std_at, symm k, cE, inv]
        refine congrArg (fun r => F.sqrt ⟨r, True⟩) ?_
        rw [hv, Matrix.smul_mulVec, Matrix.mulVec_smul, smul_dotProduct, dotProduct_smul, dotProduct_smul, p.moving_point, p.moving_point,
          covar_scaled, covar_scaled]
        simp only [smul_eq_mul]
        field_simp
      refine ⟨trivial, trivial, ?_, ?_, ?_⟩
      · rw [mean_at, mean_at, cE, inv, res k, Matrix.smul_mulVec, smul_dotProduct, dotProduct_smul]
        simp only [smul_eq_mul, Point.moving]
        rw [← mul_assoc, mul_inv_cancel₀ k2, one_mul]
        rfl
      · rw [v1, vk]
        simp only [fsimp, true_and]
        exact mul_nonneg_iff_of_pos_left (by positivity)
      · rw [v1, vk]
        simp only [fsimp]
        rw [Real.sqrt_mul (by positivity), Real.sqrt_sq hk.le]

/-- the hypotheses of `C131_scale` are met by the two-period example of C36, whose matrix is not singular -/
example : (exList.Pairwise fun p q => p.period < q.period) ∧ (∀ p ∈ exList, 0.01 ≤ p.period) ∧ (covar22 (given exList)).det ≠ 0 := by
  have hpd : (covarAll exList).PosDef := by
    apply two_posDef <;> norm_num
  refine ⟨?_, ?_, (covar22_posDef hpd).det_pos.ne'⟩
  · simp [exList]; norm_num
  · simp [exList]; norm_num

/-- the hypotheses of `C131_median` are met: two periods, one conditioned on its own median -/
example : ∃ l : List Kishida.Point, (l.Pairwise fun p q => p.period < q.period) ∧ (∀ p ∈ l, 0.01 ≤ p.period) ∧
    (covar22 (given l)).det ≠ 0 ∧ (∀ p ∈ l, ∀ x, p.cond = some x → x = p.lnPsa) ∧ ∃ p ∈ l, p.cond.isSome := by
  have hpd : (covarAll [⟨⟨0.1, -1, 0.6⟩, none⟩, ⟨⟨0.5, -1.5, 0.65⟩, some (-1.5)⟩]).PosDef := by
    apply two_posDef <;> norm_num
  refine ⟨[⟨⟨0.1, -1, 0.6⟩, none⟩, ⟨⟨0.5, -1.5, 0.65⟩, some (-1.5)⟩], ?_, ?_, (covar22_posDef hpd).det_pos.ne', ?_, ?_⟩
  · simp; norm_num
  · simp; norm_num
  · simp
  · simp

/-- the hypotheses of `C131_superposition` are met, and the calls return: two periods, the second with two targets -/
example : ∃ l : List TwoTargets, (l.Pairwise fun p q => p.period < q.period) ∧ (∀ p ∈ l, 0.01 ≤ p.period) ∧
    ∀ f, (covar22 (given (l.map fun q => q.aim f))).det ≠ 0 := by
  refine ⟨[⟨⟨0.1, -1, 0.6⟩, none⟩, ⟨⟨0.5, -1.5, 0.65⟩, some (-1.2, -2)⟩], ?_, ?_, fun f => ?_⟩
  · simp; norm_num
  · simp; norm_num
  · have hpd : (covarAll [⟨⟨0.1, -1, 0.6⟩, none⟩, ⟨⟨0.5, -1.5, 0.65⟩, some (f (-1.5) (-1.2) (-2))⟩]).PosDef := by
      apply two_posDef <;> norm_num
    exact (covar22_posDef hpd).det_pos.ne'
