import Verif.Props.BJ08
import Verif.Cont

/-! # C127: the conditional mean spectrum depends continuously on everything it is given -/

set_option linter.unusedSimpArgs false

open Filter Topology

namespace BJ08

/-- the correlation along any path of the two periods -/
theorem selS_path {X : Type*} [TopologicalSpace X] {a b : X → ℝ} (ca : Continuous a) (cb : Continuous b) (hlow : ∀ x, 0.01 ≤ a x)
    (hle : ∀ x, a x ≤ b x) : Continuous fun x => selS (a x) (b x) := by
  have h1 : Continuous fun x => c1S (a x) (b x) := by
    have pos : ∀ x : ℝ, (0 : ℝ) < max x 0.109 := fun x => lt_of_lt_of_le (by norm_num) (le_max_right _ _)
    unfold c1S
    refine continuous_const.sub (Real.continuous_sin.comp (continuous_const.mul (Continuous.log ?_ ?_)))
    · exact (cb.max continuous_const).div (ca.max continuous_const) fun x => (pos _).ne'
    · intro x; exact (div_pos (pos _) (pos _)).ne'
  have h4 : Continuous fun x => c4S (a x) (b x) := by
    unfold c4S
    exact h1.add ((continuous_const.mul (h1.sqrt.sub h1)).mul (continuous_const.add
      (Real.continuous_cos.comp ((continuous_const.mul (ca.min continuous_const)).div_const _))))
  have h2 : Continuous fun x => c2R (a x) (b x) := by
    have hk : Continuous fun x => kR (b x) := by
      unfold kR
      refine continuous_const.sub (continuous_const.div (continuous_const.add (Real.continuous_exp.comp
        ((continuous_const.mul (cb.min continuous_const)).sub continuous_const))) fun x => ?_)
      have := Real.exp_pos (100 * min (b x) 0.2 - 5)
      exact (by linarith : (0 : ℝ) < 1 + Real.exp _).ne'
    unfold c2R
    refine continuous_const.sub ((((continuous_const.mul hk).mul (cb.sub ca))).div
      (cb.sub continuous_const) fun x => ?_)
    have := (hlow x).trans (hle x)
    intro h0
    rw [sub_eq_zero.1 h0] at this
    norm_num at this
  unfold selS
  refine Continuous.if_le h4 (h2.min h4) continuous_const cb ?_
  intro x hx
  have hx' : b x = 0.2 := hx.symm
  rw [hx']
  exact (min_eq_right (meet (hlow x) (hx' ▸ hle x))).symm

/-- the correlation as a function of both periods, cut off below 0.01 s -/
noncomputable def corrR (q : ℝ × ℝ) : ℝ := selS (min (max q.1 0.01) (max q.2 0.01)) (max (max q.1 0.01) (max q.2 0.01))

theorem corrR_cont : Continuous corrR := by
  refine selS_path (by fun_prop) (by fun_prop) (fun q => le_min (le_max_right _ _) (le_max_right _ _)) fun q => ?_
  exact (min_le_left _ _).trans (le_max_left _ _)

theorem correl_corrR {T c : ℝ} (hT : 0.01 ≤ T) (hc : 0.01 ≤ c) : (correl T c).ok ∧ (correl T c).val = corrR (T, c) := by
  constructor
  · refine correl_ok fun e => ?_
    have : (0.01 : ℝ) ≤ max T c := hT.trans (le_max_left _ _)
    rw [e] at this; norm_num at this
  · rw [correl_val]
    simp only [corrR, max_eq_left hT, max_eq_left hc]
    exact selR_eq (le_min hT hc) ((min_le_left _ _).trans (le_max_left _ _))

end BJ08

section
variable {X : Type*} [TopologicalSpace X] {x₀ : X}

theorem ContinuousAt.glue_le {a b f g : X → ℝ} (ha : ContinuousAt a x₀) (hb : ContinuousAt b x₀) (hf : ContinuousAt f x₀)
    (hg : ContinuousAt g x₀) (h : a x₀ = b x₀ → g x₀ = f x₀) : ContinuousAt (fun x => if a x ≤ b x then f x else g x) x₀ := by
  have := F.CA.iteLe (X := X) (x₀ := x₀) (a := fun x => F.ofReal (a x)) (b := fun x => F.ofReal (b x))
    (f := fun x => F.ofReal (f x)) (g := fun x => F.ofReal (g x)) (.ofReal ha) (.ofReal hb) (.ofReal hf) (.ofReal hg)
    (fun _ _ _ e => ⟨trivial, h e⟩)
  refine this ⟨trivial, trivial, ?_⟩
  split <;> trivial

theorem ContinuousAt.glue_lt {a b f g : X → ℝ} (ha : ContinuousAt a x₀) (hb : ContinuousAt b x₀) (hf : ContinuousAt f x₀)
    (hg : ContinuousAt g x₀) (h : a x₀ = b x₀ → f x₀ = g x₀) : ContinuousAt (fun x => if a x < b x then f x else g x) x₀ := by
  have := F.CA.iteLt (X := X) (x₀ := x₀) (a := fun x => F.ofReal (a x)) (b := fun x => F.ofReal (b x))
    (f := fun x => F.ofReal (f x)) (g := fun x => F.ofReal (g x)) (.ofReal ha) (.ofReal hb) (.ofReal hf) (.ofReal hg)
    (fun _ _ _ e => ⟨trivial, h e⟩)
  refine this ⟨trivial, trivial, ?_⟩
  split <;> trivial

/-- at its first node an interpolant has the first value -/
theorem Interp.first (p : ℝ × ℝ) (l : List (ℝ × ℝ)) : interpR (p :: l) p.1 = p.2 := by
  cases l with
  | nil => rfl
  | cons q l => unfold interpR; rw [if_pos le_rfl]

/-- `np.interp` is continuous in the nodes, the values and the abscissa together -/
theorem Interp.joint : ∀ (l : List ((X → ℝ) × (X → ℝ))) (f : X → ℝ), ContinuousAt f x₀ →
    (∀ p ∈ l, ContinuousAt p.1 x₀ ∧ ContinuousAt p.2 x₀) → Interp.Sorted (l.map fun p => (p.1 x₀, p.2 x₀)) →
    ContinuousAt (fun x => interpR (l.map fun p => (p.1 x, p.2 x)) (f x)) x₀
  | [], f, _, _, _ => continuousAt_const
  | [p], f, _, h, _ => (h p (by simp)).2
  | p :: q :: l, f, hf, h, hs => by
    have hs' := List.pairwise_cons.1 hs
    have ih := Interp.joint (q :: l) f hf (fun r hr => h r (by simp [hr])) hs'.2
    obtain ⟨p1, p2⟩ := h p (by simp)
    obtain ⟨q1, q2⟩ := h q (by simp)
    have hlt : p.1 x₀ < q.1 x₀ := hs'.1 (q.1 x₀, q.2 x₀) (by simp)
    have hne : q.1 x₀ - p.1 x₀ ≠ 0 := by linarith
    have lin : ContinuousAt (fun x => (q.2 x - p.2 x) / (q.1 x - p.1 x) * (f x - p.1 x) + p.2 x) x₀ :=
      (((q2.sub p2).div (q1.sub p1) hne).mul (hf.sub p1)).add p2
    have inner := ContinuousAt.glue_lt hf q1 lin ih (by
      intro e
      have e1 := Interp.first (q.1 x₀, q.2 x₀) (l.map fun p => (p.1 x₀, p.2 x₀))
      simp only [List.map_cons] at e1 ⊢
      rw [e, e1]
      field_simp
      ring)
    have outer := ContinuousAt.glue_le hf p1 p2 inner (by
      intro e
      rw [if_pos (by rw [e]; exact hlt), e]
      ring)
    refine outer.congr (Eventually.of_forall fun x => ?_)
    simp only [List.map_cons]
    rw [interpR]

end

open BJ08

/-- C127: the correlation is continuous in both periods together, from 0.01 s on. -/
theorem C127_correl : ∃ R : ℝ × ℝ → ℝ, ContinuousOn R {q | 0.01 ≤ q.1 ∧ 0.01 ≤ q.2} ∧ ∀ T c, 0.01 ≤ T → 0.01 ≤ c →
    ∃ y, calcCorrels [T] c = [y] ∧ y.ok ∧ y.val = R (T, c) :=
  ⟨corrR, corrR_cont.continuousOn, fun T c hT hc => ⟨correl T c, rfl, correl_corrR hT hc⟩⟩

/-- C127: let the periods, medians and standard deviations of the spectrum, the conditioning period and the
conditioning value all move continuously, with every spectrum as `calc_cond_mean_spectrum` needs it.
Then every entry of the two returned arrays is a number and moves continuously. -/
theorem C127_cms {X : Type*} [TopologicalSpace X] (x₀ : X) (pts : List (X → Point)) (c t : X → ℝ) (hne : pts ≠ [])
    (hpts : ∀ p ∈ pts, ContinuousAt (fun x => (p x).period) x₀ ∧ ContinuousAt (fun x => (p x).lnPsa) x₀ ∧
      ContinuousAt (fun x => (p x).lnStd) x₀)
    (hc : ContinuousAt c x₀) (ht : ContinuousAt t x₀)
    (hs : ∀ x, Spectrum (pts.map fun p => p x)) (hr : ∀ x, ∀ p ∈ pts, 0.01 ≤ (p x).period ∧ (p x).period ≤ 500)
    (hcr : ∀ x, 0.01 ≤ c x ∧ c x ≤ 500) :
    ∃ o : X → List (F × F), (∀ x, calcCms (pts.map fun p => p x) (c x) (t x) = pure (o x)) ∧ (∀ x, (o x).length = pts.length) ∧
      ∀ i < pts.length, ∃ m s : X → F, (∀ x, (o x)[i]? = some (m x, s x) ∧ (m x).ok ∧ (s x).ok) ∧
        ContinuousAt (fun x => (m x).val) x₀ ∧ ContinuousAt (fun x => (s x).val) x₀ := by
  have hl : ∀ x, (pts.map fun p => p x) ≠ [] := fun x => by simpa using hne
  refine ⟨_, fun x => calcCms_of (hl x) _ _, fun x => by simp, fun i hi => ?_⟩
  have hm : pts[i] ∈ pts := List.getElem_mem hi
  obtain ⟨h1, h2, h3⟩ := hpts _ hm
  refine ⟨fun x => F.ofReal (pts[i] x).lnPsa + F.ofReal (pts[i] x).lnStd * correl (pts[i] x).period (c x) *
      epsilon (pts.map fun p => p x) (c x) (t x),
    fun x => F.sqrt (F.ofReal (pts[i] x).lnStd ^ 2 * (1 - correl (pts[i] x).period (c x) ^ 2)), ?_, ?_, ?_⟩
  · intro x
    refine ⟨by simp [hi], ?_, ?_⟩
    · have k1 := epsilon_ok (hs x) (hl x) (c x) (t x)
      have k2 := (correl_corrR (hr x _ hm).1 (hcr x).1).1
      simp only [fsimp, k1, k2]
    · obtain ⟨y, hy, k2, y0, y1, -⟩ := C34_range [(pts[i] x).period] (pts[i] x).period (c x) 0 rfl (hr x _ hm).1 (hr x _ hm).2
        (hcr x).1 (hcr x).2
      have hy' : y = correl (pts[i] x).period (c x) := by simpa [calcCorrels] using hy.symm
      rw [hy'] at k2 y0 y1
      have hq : 0 ≤ 1 - (correl (pts[i] x).period (c x)).val ^ 2 := by nlinarith
      simp only [fsimp, k2, true_and]; positivity
  · have cr : ContinuousAt (fun x => corrR ((pts[i] x).period, c x)) x₀ := corrR_cont.continuousAt.comp (h1.prodMk hc)
    have ci : ∀ f : Point → ℝ, (∀ p ∈ pts, ContinuousAt (fun x => f (p x)) x₀) →
        ContinuousAt (fun x => interpR ((pts.map fun p => p x).map fun p => (p.period, f p)) (c x)) x₀ := by
      intro f hf
      have := Interp.joint (x₀ := x₀) (pts.map fun p => ((fun x => (p x).period), fun x => f (p x))) c hc (by
        intro r hr'
        obtain ⟨p, hp, rfl⟩ := List.mem_map.1 hr'
        exact ⟨(hpts p hp).1, hf p hp⟩) (by
        have := nodes_sorted (hs x₀) (fun p => F.ofReal (f p))
        unfold Interp.Sorted at this ⊢
        simp only [List.pairwise_map] at this ⊢
        exact this)
      simpa only [List.map_map, Function.comp_def] using this
    have e : (fun x => (F.ofReal (pts[i] x).lnPsa + F.ofReal (pts[i] x).lnStd * correl (pts[i] x).period (c x) *
        epsilon (pts.map fun p => p x) (c x) (t x)).val) = fun x => (pts[i] x).lnPsa + (pts[i] x).lnStd *
          corrR ((pts[i] x).period, c x) * ((t x - interpR ((pts.map fun p => p x).map fun p => (p.period, p.lnPsa)) (c x)) /
            interpR ((pts.map fun p => p x).map fun p => (p.period, p.lnStd)) (c x)) := by
      funext x
      rw [← (correl_corrR (hr x _ hm).1 (hcr x).1).2, ← interp_val, ← interp_val]
      simp only [epsilon, fsimp]
    rw [e]
    refine h2.add ((h3.mul cr).mul ((ht.sub (ci _ fun p hp => (hpts p hp).2.1)).div (ci _ fun p hp => (hpts p hp).2.2) ?_))
    have := interp_std_pos (hs x₀) (hl x₀) (c x₀)
    rw [interp_val] at this
    exact this.ne'
  · have cr : ContinuousAt (fun x => corrR ((pts[i] x).period, c x)) x₀ := corrR_cont.continuousAt.comp (h1.prodMk hc)
    have e : (fun x => (F.sqrt (F.ofReal (pts[i] x).lnStd ^ 2 * (1 - correl (pts[i] x).period (c x) ^ 2))).val) =
        fun x => √((pts[i] x).lnStd ^ 2 * (1 - corrR ((pts[i] x).period, c x) ^ 2)) := by
      funext x
      rw [← (correl_corrR (hr x _ hm).1 (hcr x).1).2]
      simp only [fsimp]
    rw [e]
    exact ((h3.pow 2).mul (continuousAt_const.sub (cr.pow 2))).sqrt

/-- a spectrum whose medians all move, and a conditioning period that moves across a tabulated one -/
example : ∃ (pts : List (ℝ → Point)) (c : ℝ → ℝ), pts.length = 3 ∧ c 0 = 0.5 ∧ c 1 ≠ c 0 ∧
    (∀ p ∈ pts, Continuous (fun x => (p x).period) ∧ Continuous (fun x => (p x).lnPsa) ∧ Continuous (fun x => (p x).lnStd)) ∧ Continuous c ∧
    (∀ x, Spectrum (pts.map fun p => p x)) ∧ (∀ x, ∀ p ∈ pts, 0.01 ≤ (p x).period ∧ (p x).period ≤ 500) ∧
    ∀ x, 0.01 ≤ c x ∧ c x ≤ 500 := by
  refine ⟨[fun x => ⟨0.1, -1 + x, 0.6⟩, fun x => ⟨0.5, -1.5 + x, 0.65⟩, fun x => ⟨1, -2 + x, 0.7⟩], fun x => 0.5 + 0.1 * Real.sin x,
    rfl, by simp, ?_, ?_, by fun_prop, ?_, ?_, ?_⟩
  · have := Real.sin_pos_of_pos_of_lt_pi (x := 1) one_pos (by linarith [Real.pi_gt_three])
    simp only [Real.sin_zero, mul_zero, add_zero]
    intro e; linarith
  · intro p hp
    simp only [List.mem_cons, List.not_mem_nil, or_false] at hp
    rcases hp with rfl | rfl | rfl <;> exact ⟨by fun_prop, by fun_prop, by fun_prop⟩
  · intro x
    constructor
    · simp; norm_num
    · simp; norm_num
  · intro x p hp
    simp only [List.mem_cons, List.not_mem_nil, or_false] at hp
    rcases hp with rfl | rfl | rfl <;> norm_num
  · intro x
    have h1 := Real.neg_one_le_sin x
    have h2 := Real.sin_le_one x
    constructor <;> linarith
