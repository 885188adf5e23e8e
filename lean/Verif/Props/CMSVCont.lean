import Verif.Props.CMSCont
import Verif.Props.Kishida
import Mathlib.Topology.Instances.Matrix

/-! # C127: the conditional mean spectrum for a vector of periods -/

set_option linter.unusedSimpArgs false

open Filter Topology

namespace Kishida

/-- a period of a spectrum that moves with a parameter; whether it is conditioned upon stays -/
structure Moving (X : Type*) where
  period : X → ℝ
  lnPsa : X → ℝ
  lnStd : X → ℝ
  cond : Option (X → ℝ)

/-- the period at parameter `x` -/
def Moving.point {X : Type*} (p : Moving X) (x : X) : Point := ⟨⟨p.period x, p.lnPsa x, p.lnStd x⟩, p.cond.map fun f => f x⟩

/-- everything moves continuously -/
structure Moving.Smooth {X : Type*} [TopologicalSpace X] (p : Moving X) (x₀ : X) : Prop where
  period : ContinuousAt p.period x₀
  lnPsa : ContinuousAt p.lnPsa x₀
  lnStd : ContinuousAt p.lnStd x₀
  cond : ∀ f, p.cond = some f → ContinuousAt f x₀

variable {X : Type*}

/-- the conditioned periods are the same ones for every parameter -/
theorem given_at (l : List (Moving X)) (x : X) :
    given (l.map fun p => p.point x) = (l.filter fun p => p.cond.isSome).map fun p => p.point x := by
  unfold given
  rw [List.filter_map]
  refine congrArg (List.map _) (List.filter_congr ?_)
  intro p _
  simp [Moving.point]

/-- the covariance of the conditioned periods, with a fixed index type -/
noncomputable def covarAt (g : List (Moving X)) (x : X) : Matrix (Fin g.length) (Fin g.length) ℝ :=
  Matrix.of fun i j => (covar (g[i].point x) (g[j].point x)).val

theorem det_cast (u : List Point) (n : ℕ) (h : u.length = n) :
    (covar22 u).det = (Matrix.of fun i j : Fin n => (covar (u[i.1]'(h ▸ i.2)) (u[j.1]'(h ▸ j.2))).val).det := by
  subst h; rfl

theorem quad_cast (u : List Point) (n : ℕ) (h : u.length = n) (a b : Point → ℝ) :
    (fun j : Fin u.length => a u[j]) ⬝ᵥ ((covar22 u)⁻¹.mulVec fun j => b u[j]) =
      (fun j : Fin n => a (u[j.1]'(h ▸ j.2))) ⬝ᵥ
        ((Matrix.of fun i j : Fin n => (covar (u[i.1]'(h ▸ i.2)) (u[j.1]'(h ▸ j.2))).val)⁻¹.mulVec fun j => b (u[j.1]'(h ▸ j.2))) := by
  subst h; rfl

theorem det_at (g : List (Moving X)) (x : X) : (covar22 (g.map fun p => p.point x)).det = (covarAt g x).det := by
  rw [det_cast _ g.length (by simp)]
  unfold covarAt
  simp

theorem quad_at (g : List (Moving X)) (x : X) (a b : Point → ℝ) :
    (fun j : Fin (g.map fun p => p.point x).length => a (g.map fun p => p.point x)[j]) ⬝ᵥ
      ((covar22 (g.map fun p => p.point x))⁻¹.mulVec fun j => b (g.map fun p => p.point x)[j]) =
      (fun j : Fin g.length => a (g[j].point x)) ⬝ᵥ ((covarAt g x)⁻¹.mulVec fun j => b (g[j].point x)) := by
  rw [quad_cast _ g.length (by simp)]
  unfold covarAt
  simp

variable [TopologicalSpace X] {x₀ : X}

/-- entries of the covariance -/
theorem covar_cont {p q : Moving X} (hp : p.Smooth x₀) (hq : q.Smooth x₀) (hr : ∀ x, 0.01 ≤ p.period x) (hr' : ∀ x, 0.01 ≤ q.period x) :
    ContinuousAt (fun x => (covar (p.point x) (q.point x)).val) x₀ := by
  have e : (fun x => (covar (p.point x) (q.point x)).val) =
      fun x => p.lnStd x * BJ08.corrR (p.period x, q.period x) * q.lnStd x := by
    funext x
    rw [← (BJ08.correl_corrR (hr x) (hr' x)).2]
    simp only [covar, Moving.point, fsimp]
  rw [e]
  exact (hp.lnStd.mul (BJ08.corrR_cont.continuousAt.comp (hp.period.prodMk hq.period))).mul hq.lnStd

theorem covarAt_cont {g : List (Moving X)} (hg : ∀ p ∈ g, p.Smooth x₀) (hr : ∀ p ∈ g, ∀ x, 0.01 ≤ p.period x) :
    ContinuousAt (covarAt g) x₀ := by
  refine continuousAt_pi.2 fun i => continuousAt_pi.2 fun j => ?_
  exact covar_cont (hg _ (List.getElem_mem _)) (hg _ (List.getElem_mem _)) (hr _ (List.getElem_mem _)) (hr _ (List.getElem_mem _))

theorem quad_cont {n : ℕ} {M : X → Matrix (Fin n) (Fin n) ℝ} {a b : X → Fin n → ℝ} (hM : ContinuousAt M x₀) (hd : (M x₀).det ≠ 0)
    (ha : ∀ j, ContinuousAt (fun x => a x j) x₀) (hb : ∀ j, ContinuousAt (fun x => b x j) x₀) :
    ContinuousAt (fun x => a x ⬝ᵥ ((M x)⁻¹.mulVec (b x))) x₀ := by
  have hi : ContinuousAt (fun x => (M x)⁻¹) x₀ := by
    refine ContinuousAt.comp (g := Inv.inv) (continuousAt_matrix_inv _ ?_) hM
    rw [Ring.inverse_eq_inv']
    exact continuousAt_inv₀ hd
  have he : ∀ i j, ContinuousAt (fun x => (M x)⁻¹ i j) x₀ := fun i j => continuousAt_pi.1 (continuousAt_pi.1 hi i) j
  unfold dotProduct Matrix.mulVec dotProduct
  exact tendsto_finsetSum _ fun i _ => (ha i).mul (tendsto_finsetSum _ fun j _ => (he i j).mul (hb j))

end Kishida

open Kishida

/-- C127: let the periods, medians, standard deviations and conditioning values of a spectrum all move
continuously, the set of conditioned periods being fixed.  Where the covariance of the conditioned periods is
not singular, `calc_cond_mean_spectrum_vector` keeps returning nearby and every entry of the two
returned arrays moves continuously; the medians are numbers. -/
theorem C127_cmsv {X : Type*} [TopologicalSpace X] (x₀ : X) (l : List (Moving X)) (hl : ∀ p ∈ l, p.Smooth x₀)
    (hs : ∀ x, (l.map fun p => p.point x).Pairwise fun p q => p.period < q.period) (hr : ∀ p ∈ l, ∀ x, 0.01 ≤ p.period x)
    (hd : (covar22 (given (l.map fun p => p.point x₀))).det ≠ 0) :
    ∃ o : X → List (F × F), (∀ᶠ x in 𝓝 x₀, calcCmsv (l.map fun p => p.point x) = pure (o x)) ∧
      ∀ i < l.length, ∃ m s : X → F, (∀ x, (o x)[i]? = some (m x, s x) ∧ (m x).ok) ∧
        ContinuousAt (fun x => (m x).val) x₀ ∧ ContinuousAt (fun x => (s x).val) x₀ := by
  set g := l.filter fun p => p.cond.isSome with hgdef
  have hgl : ∀ p ∈ g, p ∈ l := fun p hp => (List.mem_filter.1 hp).1
  have hM : ContinuousAt (covarAt g) x₀ := covarAt_cont (fun p hp => hl p (hgl p hp)) fun p hp => hr p (hgl p hp)
  have hd' : (covarAt g x₀).det ≠ 0 := by rw [← det_at, ← given_at]; exact hd
  refine ⟨fun x => (l.map fun p => p.point x).map (entry (l.map fun p => p.point x)), ?_, ?_⟩
  · have hdet : ContinuousAt (fun x => (covarAt g x).det) x₀ :=
      ContinuousAt.comp (g := fun M : Matrix (Fin g.length) (Fin g.length) ℝ => M.det) (continuous_id.matrix_det).continuousAt hM
    filter_upwards [hdet.eventually_ne hd'] with x hx
    refine calc_of (hs x) ?_
    rw [given_at, det_at]
    exact hx
  · intro i hi
    have hm : l[i] ∈ l := List.getElem_mem hi
    have hp := hl _ hm
    refine ⟨fun x => (entry (l.map fun p => p.point x) (l[i].point x)).1, fun x => (entry (l.map fun p => p.point x) (l[i].point x)).2,
      fun x => ⟨by simp [hi], ?_⟩, ?_⟩
    · cases hc : l[i].cond with
      | some f => simp only [entry, Moving.point, hc, Option.map_some]; trivial
      | none =>
        simp only [entry, Moving.point, hc, Option.map_none, mean]
        refine allOk_of fun p hp => ?_
        obtain ⟨q, hq, rfl⟩ := List.mem_map.1 hp
        exact hr q hq x
    · cases hc : l[i].cond with
      | some f =>
        have e : ∀ x, entry (l.map fun p => p.point x) (l[i].point x) = (F.ofReal (f x), 0) := by
          intro x; simp only [entry, Moving.point, hc, Option.map_some]
        simp only [e]
        exact ⟨hp.cond f hc, continuousAt_const⟩
      | none =>
        have e : ∀ x, entry (l.map fun p => p.point x) (l[i].point x) =
            (mean (allOk (l.map fun p => p.point x)) (l[i].point x) (g.map fun p => p.point x),
              std (allOk (l.map fun p => p.point x)) (l[i].point x) (g.map fun p => p.point x)) := by
          intro x
          rw [← given_at]
          simp only [entry]
          rw [show (l[i].point x).cond = none by simp [Moving.point, hc]]
        simp only [e]
        have c12 : ∀ j : Fin g.length, ContinuousAt (fun x => (covar (l[i].point x) (g[j].point x)).val) x₀ := fun j =>
          covar_cont hp (hl _ (hgl _ (List.getElem_mem _))) (hr _ hm) (hr _ (hgl _ (List.getElem_mem _)))
        have c21 : ∀ j : Fin g.length, ContinuousAt (fun x => (covar (g[j].point x) (l[i].point x)).val) x₀ := fun j =>
          covar_cont (hl _ (hgl _ (List.getElem_mem _))) hp (hr _ (hgl _ (List.getElem_mem _))) (hr _ hm)
        have cres : ∀ j : Fin g.length, ContinuousAt (fun x => (g[j].point x).cond.getD 0 - (g[j].point x).lnPsa) x₀ := by
          intro j
          have hj : g[j] ∈ g := List.getElem_mem _
          have hsj := hl _ (hgl _ hj)
          obtain ⟨f, hf⟩ := Option.isSome_iff_exists.1 (List.mem_filter.1 hj).2
          have e : (fun x => (g[j].point x).cond.getD 0 - (g[j].point x).lnPsa) = fun x => f x - g[j].lnPsa x := by
            funext x; simp only [Moving.point, hf, Option.map_some, Option.getD_some]
          rw [e]
          exact (hsj.cond f hf).sub hsj.lnPsa
        constructor
        · have e1 : (fun x => (mean (allOk (l.map fun p => p.point x)) (l[i].point x) (g.map fun p => p.point x)).val) =
              fun x => l[i].lnPsa x + (fun j : Fin g.length => (covar (l[i].point x) (g[j].point x)).val) ⬝ᵥ
                ((covarAt g x)⁻¹.mulVec fun j => (g[j].point x).cond.getD 0 - (g[j].point x).lnPsa) := by
            funext x
            rw [← quad_at g x (fun q => (covar (l[i].point x) q).val) (fun q => q.cond.getD 0 - q.lnPsa)]
            rfl
          rw [e1]
          exact hp.lnPsa.add (quad_cont hM hd' c12 cres)
        · have e2 : (fun x => (std (allOk (l.map fun p => p.point x)) (l[i].point x) (g.map fun p => p.point x)).val) =
              fun x => √((covar (l[i].point x) (l[i].point x)).val - (fun j : Fin g.length => (covar (l[i].point x) (g[j].point x)).val) ⬝ᵥ
                ((covarAt g x)⁻¹.mulVec fun j => (covar (g[j].point x) (l[i].point x)).val)) := by
            funext x
            rw [← quad_at g x (fun q => (covar (l[i].point x) q).val) (fun q => (covar q (l[i].point x)).val)]
            rfl
          rw [e2]
          exact ((covar_cont hp hp (hr _ hm) (hr _ hm)).sub (quad_cont hM hd' c12 c21)).sqrt

/-- two conditioned periods out of three, with moving targets: the covariance is not singular -/
example : ∃ l : List (Moving ℝ), l.length = 3 ∧ (∀ p ∈ l, p.Smooth 0) ∧
    (∀ x, (l.map fun p => p.point x).Pairwise fun p q => p.period < q.period) ∧ (∀ p ∈ l, ∀ x, 0.01 ≤ p.period x) ∧
    (given (l.map fun p => p.point 0)).length = 2 ∧ (covar22 (given (l.map fun p => p.point 0))).det ≠ 0 := by
  refine ⟨[⟨fun _ => 0.2, fun x => x, fun _ => 0.6, some fun x => 1 + x⟩, ⟨fun _ => 0.5, fun x => x, fun _ => 0.6, none⟩,
    ⟨fun _ => 1, fun x => x, fun _ => 0.7, some fun x => 2 * x⟩], rfl, ?_, ?_, ?_, rfl, ?_⟩
  · intro p hp
    simp only [List.mem_cons, List.not_mem_nil, or_false] at hp
    rcases hp with rfl | rfl | rfl
    · exact ⟨by fun_prop, by fun_prop, by fun_prop, fun f hf => by cases hf; fun_prop⟩
    · exact ⟨by fun_prop, by fun_prop, by fun_prop, fun f hf => by cases hf⟩
    · exact ⟨by fun_prop, by fun_prop, by fun_prop, fun f hf => by cases hf; fun_prop⟩
  · intro x; simp [Moving.point]; norm_num
  · intro p hp x
    simp only [List.mem_cons, List.not_mem_nil, or_false] at hp
    rcases hp with rfl | rfl | rfl <;> norm_num
  · have h := two_posDef ⟨⟨0.2, 0, 0.6⟩, some (1 + 0)⟩ ⟨⟨1, 0, 0.7⟩, some (2 * 0)⟩ (by norm_num) (by norm_num) (by norm_num)
      (by norm_num) (by norm_num)
    exact h.det_pos.ne'
