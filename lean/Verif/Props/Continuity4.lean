import Verif.Cont
import Verif.Props.GA11
import Verif.Props.AB06

/-! # C116: the other models depend continuously on all numeric inputs at once (3) -/

open Filter Topology
open Bounds

set_option linter.unusedSimpArgs false

variable {X : Type*} [TopologicalSpace X]

namespace GA11

theorem f1_CA (c : Row) {m r : X → F} {x₀ : X} (hm : F.CA m x₀) (hr : F.CA r x₀) :
    F.CA (fun x => f1 c (m x) (r x)) x₀ := by
  unfold f1
  dsimp only
  fcont
  intro o1 o2 o3 e
  simp only [fsimp] at *
  refine ⟨by simp_all, ?_⟩
  rw [e, sub_self, mul_zero, mul_zero]

theorem f5_CA {c : Row} (hc : c ∈ table) {v p : X → F} {x₀ : X} (hv : F.CA v x₀) (hp : F.CA p x₀)
    (hpo : (p x₀).ok) (hp0 : 0 ≤ (p x₀).val) : F.CA (fun x => f5 c (v x) (p x)) x₀ := by
  obtain ⟨hl, hc0, -⟩ := row_facts c hc
  have hl' : (0 : ℝ) < c.v_lin := by exact_mod_cast hl
  have hc' : (0 : ℝ) < c.c := by exact_mod_cast hc0
  unfold f5
  dsimp only
  fcont
  intro o1 o2 o3 e
  have e' : min (v x₀).val (v1 c.period).val = c.v_lin := e
  have o1' : (F.min (v x₀) (v1 c.period)).ok := o1
  have h1 : (F.min (v x₀) (v1 c.period)).val / (c.v_lin : F).val = 1 := by
    change min (v x₀).val (v1 c.period).val / (c.v_lin : ℝ) = 1
    rw [e', div_self hl'.ne']
  generalize F.min (v x₀) (v1 c.period) = w at *
  have h1' : w.val / (c.v_lin : ℝ) = 1 := h1
  simp only [fsimp, h1', Real.one_rpow, Real.log_one] at *
  refine ⟨?_, by ring_nf⟩
  simp_all
  positivity

theorem stdPart_CA (lo hi : ℚ) {m : X → F} {x₀ : X} (hm : F.CA m x₀) : F.CA (fun x => stdPart lo hi (m x)) x₀ := by
  unfold stdPart
  fcont
  · intro o1 o2 o3 e
    simp only [fsimp] at *
    rw [e]; norm_num
    try ring
  · intro o1 o2 o3 e
    simp only [fsimp] at *
    rw [e]; norm_num
    try ring

end GA11

/-- Gülerce & Abrahamson (2011): the vertical to horizontal ratio and its standard deviation are
continuous in magnitude, distance, v_s30 and reference acceleration together. -/
theorem C116_ga11 {ks : List String} {S : X → Scenario} {x₀ : X} {m₀ r₀ v₀ p₀ : ℝ} {t : String}
    {O : X → GA11.Out} (h : Varies ks S x₀)
    (hm : (S x₀).get "mag" = .num m₀) (hr : (S x₀).get "dist_rup" = .num r₀) (hv : (S x₀).get "v_s30" = .num v₀)
    (hp : (S x₀).get "pga_ref" = .num p₀) (hp0 : 0 ≤ p₀) (ht : (S x₀).get "mechanism" = .str t)
    (hks : "mechanism" ∉ ks) (hO : ∀ x, Gives GA11.cls (S x) (O x)) :
    ContinuousEntries (fun x => (O x).lnRatio) x₀ ∧ ContinuousEntries (fun x => (O x).lnStd) x₀ := by
  obtain ⟨mag, e1, -, c1⟩ := h.num hm
  obtain ⟨r, e2, -, c2⟩ := h.num hr
  obtain ⟨v, e3, -, c3⟩ := h.num hv
  obtain ⟨p, e4, f4, c4⟩ := h.num hp
  obtain rfl : O = fun x => GA11.out (F.ofReal (mag x)) (F.ofReal (r x)) (F.ofReal (v x)) (F.ofReal (p x))
      (GA11.mechFor t) :=
    funext fun x => (hO x).unique (GA11.gives (S x) (e1 x) (e2 x) (e3 x) (e4 x) ((h.fixed _ hks x).trans ht))
  have g1 := F.CA.ofReal c1
  refine ⟨ContinuousEntries.map GA11.table (fun c x => GA11.lnRatio c (F.ofReal (mag x)) (F.ofReal (r x))
      (F.ofReal (v x)) (F.ofReal (p x)) (GA11.mechFor t)) fun c hc => ?_,
    ContinuousEntries.map GA11.table (fun c x => GA11.lnStd c (F.ofReal (mag x))) fun c hc => ?_⟩
  · exact F.CA.add (F.CA.add (GA11.f1_CA c g1 (F.CA.ofReal c2))
      (GA11.f5_CA hc (F.CA.ofReal c3) (F.CA.ofReal c4) trivial (by change 0 ≤ p x₀; rw [f4]; exact hp0))) (F.CA.const _)
  · have a := GA11.stdPart_CA c.s3 c.s4 g1
    have b := GA11.stdPart_CA c.s1 c.s2 g1
    unfold GA11.lnStd
    dsimp only
    fcont

/-- interpolation between moving values at fixed abscissae -/
theorem F.CA.npInterp {α : Type*} (xs : α → ℝ) (n : α → X → F) (T : ℝ) {x₀ : X} : ∀ l : List α,
    (∀ c ∈ l, F.CA (n c) x₀) → F.CA (fun x => _root_.npInterp (l.map fun c => (xs c, n c x)) T) x₀
  | [], _ => F.CA.const _
  | [c], h => h c (by simp)
  | c :: d :: t, h => by
    have ih := F.CA.npInterp xs n T (d :: t) fun e he => h e (by simp [he])
    have hc := h c (by simp)
    have hd := h d (by simp)
    simp only [List.map_cons] at ih ⊢
    unfold _root_.npInterp
    by_cases h1 : T ≤ xs c
    · simpa only [if_pos h1] using hc
    · by_cases h2 : T < xs d
      · simp only [if_neg h1, if_pos h2]
        fcont
      · simpa only [if_neg h1, if_neg h2] using ih

namespace AB06

theorem log10Base_CA (c : Row) {m d : X → F} {x₀ : X} (hm : F.CA m x₀) (hd : F.CA d x₀) :
    F.CA (fun x => log10Base c (m x) (d x)) x₀ := by
  have h1 : F.CA (fun x => stressFactor c.period (m x)) x₀ :=
    F.CA.npInterp _ _ _ sf fun c _ => by unfold stressNode; dsimp only; fcont
  unfold log10Base log10Ref
  dsimp only
  fcont

theorem bNl_CA (c : SiteRow) {v : X → F} {x₀ : X} (hv : F.CA v x₀) (h1 : (v x₀).val ≠ 180) (h2 : (v x₀).val ≠ 300) :
    F.CA (fun x => bNl c (v x)) x₀ := by
  unfold bNl
  fcont
  · intro o1 o2 o3 e
    have e : (v x₀).val = 760 := by simpa [fsimp] using e
    simp only [fsimp, e] at *
    norm_num
  · intro o1 o2 o3 e
    exact absurd (by simpa [fsimp] using e) h2
  · intro o1 o2 o3 e
    exact absurd (by simpa [fsimp] using e) h1

theorem log10Site_CA (T : ℚ) {v p : X → F} {x₀ : X} (hv : F.CA v x₀) (hp : F.CA p x₀) (h1 : (v x₀).val ≠ 180)
    (h2 : (v x₀).val ≠ 300) : F.CA (fun x => log10Site T (v x) (p x)) x₀ :=
  F.CA.npInterp _ _ _ site fun c _ => by
    have := bNl_CA c hv h1 h2
    unfold siteNode
    fcont

theorem toLn_CA {y : X → F} {x₀ : X} (h : F.CA y x₀) : F.CA (fun x => toLn (y x)) x₀ := by
  unfold toLn; fcont

end AB06

/-- Atkinson & Boore (2006): the median is continuous in magnitude, distance and v_s30 together
wherever it is defined, except at v_s30 = 180 and 300 m/s (and 0, which selects hard rock); the
standard deviation is constant. -/
theorem C116_ab06 {ks : List String} {S : X → Scenario} {x₀ : X} {m₀ r₀ v₀ : ℝ}
    {O : X → GmmOut} (h : Varies ks S x₀)
    (hm : (S x₀).get "mag" = .num m₀) (hr : (S x₀).get "dist_rup" = .num r₀) (hv : (S x₀).get "v_s30" = .num v₀)
    (hO : ∀ x, Gives AB06.cls (S x) (O x)) :
    (v₀ ≠ 180 ∧ v₀ ≠ 300 ∧ (v₀ = 0 → "v_s30" ∉ ks) → ContinuousEntries (fun x => (O x).lnResp) x₀) ∧
      ContinuousEntries (fun x => (O x).lnStd.getD []) x₀ := by
  obtain ⟨mag, e1, -, c1⟩ := h.num hm
  obtain ⟨r, e2, -, c2⟩ := h.num hr
  obtain ⟨v, e3, f3, c3⟩ := h.num hv
  obtain rfl : O = fun x => AB06.out (F.ofReal (mag x)) (F.ofReal (r x)) (if v x = 0 then none else some (F.ofReal (v x))) :=
    funext fun x => (hO x).unique (AB06.gives (S x) (e1 x) (e2 x) (e3 x))
  have g1 := F.CA.ofReal c1
  have g2 := F.CA.ofReal c2
  have g3 := F.CA.ofReal c3
  constructor
  · rintro ⟨n1, n2, n3⟩
    by_cases hv0 : v₀ = 0
    · have hz : ∀ x, v x = 0 := fun x => by
        have := (h.fixed _ (n3 hv0) x).trans hv
        rw [e3] at this
        rw [Val.num.inj this, hv0]
      simp only [hz, if_true]
      exact ContinuousEntries.map AB06.rock (fun c x => AB06.toLn (AB06.log10Base c (F.ofReal (mag x)) (F.ofReal (r x))))
        fun c _ => AB06.toLn_CA (AB06.log10Base_CA c g1 g2)
    · have hp : F.CA (fun x => AB06.pgaBc (F.ofReal (mag x)) (F.ofReal (r x))) x₀ :=
        F.CA.rpow (F.CA.const _) (CA_getD AB06.bc _ (fun c _ => AB06.log10Base_CA c g1 g2) 2)
      have hne : v x₀ ≠ 0 := by rw [f3]; exact hv0
      intro i
      refine F.CA.spec fun ho => ?_
      have key := CA_getD AB06.bc (fun c x => AB06.toLn (AB06.log10Base c (F.ofReal (mag x)) (F.ofReal (r x)) +
        AB06.log10Site c.period (F.ofReal (v x)) (AB06.pgaBc (F.ofReal (mag x)) (F.ofReal (r x))))) (x₀ := x₀)
        (fun c _ => AB06.toLn_CA (F.CA.add (AB06.log10Base_CA c g1 g2)
          (AB06.log10Site_CA c.period g3 hp (by change v x₀ ≠ 180; rw [f3]; exact n1)
            (by change v x₀ ≠ 300; rw [f3]; exact n2)))) i
      dsimp only at ho
      rw [if_neg hne] at ho
      refine (key ho).congr ?_
      filter_upwards [c3.eventually_ne hne] with x hx
      rw [if_neg hx]
      rfl
  · have : (fun x => (AB06.out (F.ofReal (mag x)) (F.ofReal (r x))
        (if v x = 0 then none else some (F.ofReal (v x)))).lnStd.getD []) =
        fun _ => AB06.bc.map fun _ => (0.30 : F) := by
      funext x; split <;> rfl
    rw [this]
    exact ContinuousEntries.map AB06.bc (fun _ _ => (0.30 : F)) fun c _ => F.CA.const _

example : ∃ O : ℝ × ℝ → GA11.Out, ContinuousEntries (fun x => (O x).lnRatio) ((6.5 : ℝ), (20 : ℝ)) :=
  ⟨_, (C116_ga11 (m₀ := 6.5) (r₀ := 20) (v₀ := 500) (p₀ := 0.2) (t := "RS")
    (Varies.pair "mag" "dist_rup" [("v_s30", .num 500), ("pga_ref", .num 0.2), ("mechanism", .str "RS")] (by decide) _)
    rfl rfl rfl rfl (by norm_num) rfl (by decide) fun x => GA11.gives (p := 0.2) (t := "RS") _ rfl rfl rfl rfl rfl).1⟩

/-- at 760 m/s, varying distance and v_s30 -/
example : ∃ O : ℝ × ℝ → GmmOut, ContinuousEntries (fun x => (O x).lnResp) ((20 : ℝ), (760 : ℝ)) :=
  ⟨_, (C116_ab06 (m₀ := 6.5) (r₀ := 20) (v₀ := 760)
    (Varies.pair "dist_rup" "v_s30" [("mag", .num 6.5)] (by decide) _)
    rfl rfl rfl fun x => AB06.gives _ rfl rfl rfl).1 (by norm_num)⟩
