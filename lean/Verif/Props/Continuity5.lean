import Verif.Cont
import Verif.Props.Durations
import Verif.Props.PR23
import Verif.Props.PR24

/-! # C117: the durations depend continuously on all numeric inputs at once -/

open Filter Topology
open Bounds

set_option linter.unusedSimpArgs false

variable {X : Type*} [TopologicalSpace X]

/-- the three durations of a band are continuous -/
def ContinuousBand (B : X → DurBand) (x₀ : X) : Prop :=
  ContinuousNumber (fun x => (B x).median) x₀ ∧ ContinuousNumber (fun x => (B x).plus) x₀ ∧
    ContinuousNumber (fun x => (B x).minus) x₀

/-- a string does not vary -/
theorem Varies.str {ks : List String} {S : X → Scenario} {x₀ : X} (h : Varies ks S x₀) {k t : String}
    (h0 : (S x₀).get k = .str t) (x : X) : (S x).get k = .str t := by
  by_cases hk : k ∈ ks
  · obtain ⟨g, h1, -⟩ := h.moving k hk
    rw [h1] at h0; cases h0
  · exact (h.fixed k hk x).trans h0

/-- Abrahamson & Silva (1996): the duration is continuous everywhere. -/
theorem C117_as96 {ks : List String} {S : X → Scenario} {x₀ : X} {m₀ R₀ : ℝ} {t : String} {O : X → DurOut}
    (h : Varies ks S x₀) (hm : (S x₀).get "mag" = .num m₀) (hR : (S x₀).get "dist_rup" = .num R₀)
    (ht : (S x₀).get "site_cond" = .str t) (hO : ∀ x, Gives AS96.cls (S x) (O x)) :
    ContinuousEntries (fun x => (O x).duration) x₀ ∧ ContinuousEntries (fun x => (O x).stdErr) x₀ := by
  obtain ⟨mag, e1, f1, c1⟩ := h.num hm
  obtain ⟨R, e2, -, c2⟩ := h.num hR
  obtain rfl : O = fun x => AS96.out (F.ofReal (mag x)) (F.ofReal (R x)) (t = "soil") :=
    funext fun x => (hO x).unique (AS96.gives (S x) (e1 x) (e2 x) (h.str ht x))
  have g1 := F.CA.ofReal c1
  have g2 := F.CA.ofReal c2
  refine ⟨ContinuousEntries.map [()] (fun _ x => F.exp (AS96.lnDur (F.ofReal (mag x)) (F.ofReal (R x)) (t = "soil")))
    fun c _ => ?_, ContinuousEntries.map [()] (fun _ _ => (0.55 : F)) fun c _ => F.CA.const _⟩
  unfold AS96.lnDur seismicMoment
  fcont

/-- Kempton & Stewart (2006): the four durations are continuous everywhere. -/
theorem C117_ks06 {ks : List String} {S : X → Scenario} {x₀ : X} {m₀ R₀ v₀ : ℝ} {O : X → DurOut}
    (h : Varies ks S x₀) (hm : (S x₀).get "mag" = .num m₀) (hR : (S x₀).get "dist_rup" = .num R₀)
    (hv : (S x₀).get "v_s30" = .num v₀) (hO : ∀ x, Gives KS06.cls (S x) (O x)) :
    ContinuousEntries (fun x => (O x).duration) x₀ ∧ ContinuousEntries (fun x => (O x).stdErr) x₀ := by
  obtain ⟨mag, e1, f1, c1⟩ := h.num hm
  obtain ⟨R, e2, -, c2⟩ := h.num hR
  obtain ⟨v, e3, -, c3⟩ := h.num hv
  obtain rfl : O = fun x => KS06.out (F.ofReal (mag x)) (F.ofReal (R x)) (F.ofReal (v x)) :=
    funext fun x => (hO x).unique (KS06.gives (S x) (e1 x) (e2 x) (e3 x))
  have g1 := F.CA.ofReal c1
  have g2 := F.CA.ofReal c2
  have g3 := F.CA.ofReal c3
  refine ⟨?_, ContinuousEntries.map KS06.table (fun c _ => (c.std : F)) fun c _ => F.CA.const _⟩
  simp only [DurOut.duration, KS06.out, List.map_map]
  refine ContinuousEntries.map KS06.table (fun c x => F.exp (KS06.lnDur c (F.ofReal (mag x)) (F.ofReal (R x)) (F.ofReal (v x))))
    fun c _ => ?_
  unfold KS06.lnDur KS06.sourceDur seismicMoment
  dsimp only
  fcont

namespace AS16

theorem site_CA {c : Row} {v : X → ℝ} {z : X → Option ℝ} {x₀ : X} (cv : ContinuousAt v x₀) (cz : OptCont z x₀)
    (j : Bool) : F.CA (fun x => site c (F.ofReal (v x)) ((z x).map F.ofReal) j) x₀ := by
  have g3 := F.CA.ofReal cv
  have gd : F.CA (fun x => calcDepth10 (F.ofReal (v x)) j) x₀ := by
    unfold calcDepth10
    cases j
    · simp only [Bool.false_eq_true, if_false]
      fcont
    · simp only [if_true]
      fcont
  cases cz with
  | none hz =>
    simp only [hz, Option.map_none, site]
    fcont
  | some g hz hg =>
    have g4 := F.CA.ofReal hg
    simp only [hz, Option.map_some, site]
    fcont
    intro o1 o2 o3 e
    exact ⟨o2, e.symm⟩

theorem lnDur_CA {c : Row} {mech : Mech} {mag R v : X → ℝ} {z : X → Option ℝ} {x₀ : X} (c1 : ContinuousAt mag x₀)
    (c2 : ContinuousAt R x₀) (c3 : ContinuousAt v x₀) (c4 : OptCont z x₀) (j : Bool) (hne : mag x₀ ≠ (c.mag1 : ℝ)) :
    F.CA (fun x => lnDur c mech (F.ofReal (mag x)) (F.ofReal (R x)) (F.ofReal (v x)) ((z x).map F.ofReal) j) x₀ := by
  have g1 := F.CA.ofReal c1
  have g2 := F.CA.ofReal c2
  have g4 := site_CA (c := c) c3 c4 j
  unfold lnDur
  refine F.CA.add (F.CA.log (F.CA.add ?_ ?_)) g4
  · unfold source seismicMoment
    dsimp only
    fcont
    · intro o1 o2 o3 e
      exact absurd (by simpa [fsimp] using e) hne
    · intro o1 o2 o3 e
      exact absurd (by simpa [fsimp] using e.symm) hne
  · unfold path
    fcont

end AS16

open AS16 in
/-- Afshari & Stewart (2016): the three durations are continuous except at the magnitude where the
source duration stops being a constant (5.35 for D5-75, 5.2 for D5-95 and D20-80); the standard
errors are continuous everywhere. -/
theorem C117_as16 {ks : List String} {S : X → Scenario} {x₀ : X} {m₀ R₀ v₀ : ℝ} {z₀ : Option ℝ} {t : String}
    {O : X → DurOut}
    (h : Varies ks S x₀) (hm : (S x₀).get "mag" = .num m₀) (hR : (S x₀).get "dist_rup" = .num R₀)
    (hv : (S x₀).get "v_s30" = .num v₀) (hz : (S x₀).get "depth_1_0" = Val.ofOpt z₀)
    (ht : (S x₀).get "mechanism" = .str t) (hO : ∀ x, Gives AS16.cls (S x) (O x)) :
    (∀ i, m₀ ≠ (if i = 0 then 5.35 else 5.2) → ContinuousNumber (fun x => (O x).duration.getD i F.nan) x₀) ∧
      ContinuousEntries (fun x => (O x).stdErr) x₀ := by
  obtain ⟨mag, e1, f1, c1⟩ := h.num hm
  obtain ⟨R, e2, -, c2⟩ := h.num hR
  obtain ⟨v, e3, -, c3⟩ := h.num hv
  obtain ⟨z, e4, -, c4⟩ := h.opt hz
  obtain rfl : O = fun x => out (mechFor t) (F.ofReal (mag x)) (F.ofReal (R x)) (F.ofReal (v x))
      ((z x).map F.ofReal) false :=
    funext fun x => (hO x).unique (AS16.gives (S x) (e1 x) (e2 x) (e3 x) (e4 x) (h.str ht x))
  have g1 := F.CA.ofReal c1
  constructor
  · intro i hne
    rw [← f1] at hne
    refine F.CA.spec ?_
    simp only [DurOut.duration, out, table, List.map_map, List.map_cons, List.map_nil, Function.comp]
    match i with
    | 0 =>
      rw [if_pos rfl] at hne
      exact (lnDur_CA c1 c2 c3 c4 false (by push_cast; exact hne)).exp
    | 1 =>
      rw [if_neg (by norm_num)] at hne
      exact (lnDur_CA c1 c2 c3 c4 false (by push_cast; exact hne)).exp
    | 2 =>
      rw [if_neg (by norm_num)] at hne
      exact (lnDur_CA c1 c2 c3 c4 false (by push_cast; exact hne)).exp
    | n + 3 => exact F.CA.const F.nan
  · refine ContinuousEntries.map table (fun c x => stdErr c (F.ofReal (mag x))) fun c _ => ?_
    unfold stdErr
    dsimp only
    fcont

/-! ### Pinilla-Ramos et al. -/

theorem F.CA.of_val {f g : X → F} {x₀ : X} (hg : F.CA g x₀) (hv : ∀ x, (f x).val = (g x).val)
    (hok : (f x₀).ok → (g x₀).ok) : F.CA f x₀ := fun h => by
  rw [show (fun x => (f x).val) = fun x => (g x).val from funext hv]
  exact hg (hok h)

namespace PR23

variable {mag R v : X → ℝ} {x₀ : X}

theorem c2_CA (c2 : ContinuousAt R x₀) : F.CA (fun x => PR23.c2 (inp (mag x) (R x) (v x))) x₀ := by
  have g2 := F.CA.ofReal c2
  refine F.CA.of_val (g := fun x => F.iteLe (F.ofReal (R x)) 10 (0.41 + 0.0045 * F.ofReal (R x))
    (F.iteLe (F.ofReal (R x)) 42 (0.455 + 0.085 * (F.ofReal (R x) - 10) / 32)
      (0.54 + 0.035 * (F.ofReal (R x) - 42) / 158))) ?_ (fun x => ?_) (fun _ => ?_)
  · fcont
    · intro _ _ _ e
      have e : R x₀ = 42 := by simpa [fsimp] using e
      rw [e]; norm_num [fsimp]
    · intro _ _ _ e
      have e : R x₀ = 10 := by simpa [fsimp] using e
      rw [e]; norm_num [fsimp]
  · rw [c2_val]
    simp only [c2R, fsimp]
  · simp only [fsimp]
    split_ifs <;> norm_num

theorem source_CA (c1 : ContinuousAt mag x₀) (c2 : ContinuousAt R x₀) :
    F.CA (fun x => source (inp (mag x) (R x) (v x))) x₀ := by
  have g1 := F.CA.ofReal c1
  have g2 : F.CA (fun x => PR23.c2 (inp (mag x) (R x) (v x))) x₀ := c2_CA c2
  refine F.CA.of_val (g := fun x => F.iteLt (F.ofReal (mag x)) 6.75
    (3.655 * (10 : F) ^ ((F.ofReal (mag x) - 6.75) * 0.515))
    (3.655 * (10 : F) ^ ((F.ofReal (mag x) - 6.75) * PR23.c2 (inp (mag x) (R x) (v x))))) ?_
    (fun x => ?_) (fun _ => ?_)
  · fcont
    intro _ _ o e
    have e : mag x₀ = 6.75 := by simpa [fsimp] using e
    rw [e]; norm_num [fsimp]
  · rw [source_val']
    simp only [sourceR, fsimp, c2_val]
    split_ifs <;> rfl
  · have := c2_ok (mag x₀) (R x₀) (v x₀)
    simp only [fsimp]
    split_ifs <;> simp [this] <;> norm_num

theorem path_CA (c2 : ContinuousAt R x₀) : F.CA (fun x => path (inp (mag x) (R x) (v x))) x₀ := by
  have g2 := F.CA.ofReal c2
  refine F.CA.of_val (g := fun x => 0.041 * F.ofReal (R x) + F.iteLt (F.ofReal (R x)) 44 (0.063 * F.ofReal (R x))
    (F.iteLt (F.ofReal (R x)) 130 (0.063 * 44 + 0.034 * (F.ofReal (R x) - 44))
      (0.063 * 44 + 0.034 * (130 - 44) + 0.083 * (F.ofReal (R x) - 130)))) ?_ (fun x => ?_) (fun _ => ?_)
  · fcont
    · intro _ _ _ e
      have e : R x₀ = 130 := by simpa [fsimp] using e
      rw [e]; norm_num [fsimp]
    · intro _ _ _ e
      have e : R x₀ = 44 := by simpa [fsimp] using e
      rw [e]; norm_num [fsimp]
  · rw [path_val]
    simp only [pathR, fsimp]
  · simp only [fsimp]
    split_ifs <;> norm_num

theorem sg_CA (c3 : ContinuousAt v x₀) (hpos : 0 < v x₀) :
    F.CA (fun x => sigmaVs30 (inp (mag x) (R x) (v x))) x₀ := by
  have g3 := F.CA.ofReal c3
  have l1 : Real.log 2000 - Real.log 1900 ≠ 0 := (log_lt (by norm_num) (by norm_num)).ne'
  have l2 : Real.log 275 - Real.log 200 ≠ 0 := (log_lt (by norm_num) (by norm_num)).ne'
  refine F.CA.of_val (g := fun x => F.iteLt (F.ofReal (v x)) 200 1.11 (F.iteLt (F.ofReal (v x)) 275
    (0.565 + 0.545 * ((F.log 275 - F.log (F.ofReal (v x))) / (F.log 275 - F.log 200)))
    (F.iteLt (F.ofReal (v x)) 1900 0.565 (F.iteLt (F.ofReal (v x)) 2000
      (0.565 * ((F.log 2000 - F.log (F.ofReal (v x))) / (F.log 2000 - F.log 1900))) 0)))) ?_ (fun x => ?_) (fun _ => ?_)
  · fcont
    · intro _ _ _ e
      have e : v x₀ = 2000 := by simpa [fsimp] using e
      rw [e]; norm_num [fsimp]; exact l1
    · intro _ _ _ e
      have e : v x₀ = 1900 := by simpa [fsimp] using e
      rw [e]; norm_num [fsimp, div_self l1]
    · intro _ _ _ e
      have e : v x₀ = 275 := by simpa [fsimp] using e
      rw [e]; norm_num [fsimp]; exact l2
    · intro _ _ _ e
      have e : v x₀ = 200 := by simpa [fsimp] using e
      rw [e]; norm_num [fsimp, div_self l2]
  · rw [sg_val]
    simp only [sgR, fsimp]
  · simp only [fsimp]
    split_ifs <;> norm_num <;> first | exact ⟨hpos, l1⟩ | exact ⟨hpos, l2⟩

theorem median_CA (c1 : ContinuousAt mag x₀) (c2 : ContinuousAt R x₀) (c3 : ContinuousAt v x₀) :
    F.CA (fun x => median (inp (mag x) (R x) (v x))) x₀ := by
  intro ho
  have hpos : 0 < v x₀ := by
    have := ho.2
    simp only [site, fsimp] at this
    have := this.1.2
    simp at this
    linarith
  have g3 := F.CA.ofReal c3
  have a1 : F.CA (fun x => source (inp (mag x) (R x) (v x))) x₀ := source_CA c1 c2
  have a2 : F.CA (fun x => path (inp (mag x) (R x) (v x))) x₀ := path_CA c2
  have a3 : F.CA (fun x => sigmaVs30 (inp (mag x) (R x) (v x))) x₀ := sg_CA c3 hpos
  have key : F.CA (fun x => median (inp (mag x) (R x) (v x))) x₀ := by
    unfold median site
    dsimp only [inp]
    fcont
  exact key ho

theorem sigma_CA (c1 : ContinuousAt mag x₀) (c2 : ContinuousAt R x₀) (c3 : ContinuousAt v x₀) :
    F.CA (fun x => sigma (inp (mag x) (R x) (v x))) x₀ := by
  have g1 := F.CA.ofReal c1
  have g2 := F.CA.ofReal c2
  have g3 := F.CA.ofReal c3
  unfold sigma
  dsimp only [inp]
  fcont

theorem band_cont (c1 : ContinuousAt mag x₀) (c2 : ContinuousAt R x₀) (c3 : ContinuousAt v x₀) (e : ℝ) :
    ContinuousBand (fun x => band (inp (mag x) (R x) (v x)) e) x₀ := by
  have gm := median_CA c1 c2 c3
  have gs := sigma_CA c1 c2 c3
  by_cases he : IsClose e 0.75
  · have eq : (fun x => band (inp (mag x) (R x) (v x)) e) = fun x => base (inp (mag x) (R x) (v x)) :=
      funext fun x => band_base _ he
    rw [eq]
    refine ⟨gm.spec, F.CA.spec ?_, F.CA.spec ?_⟩ <;> · unfold base; dsimp only; fcont
  · cases hc : rowFor e with
    | none =>
      have eq : (fun x => band (inp (mag x) (R x) (v x)) e) = fun x => ⟨F.nan, F.nan, F.nan⟩ :=
        funext fun x => by unfold band; rw [if_neg he, hc]
      rw [eq]
      exact ⟨(F.CA.const _).spec, (F.CA.const _).spec, (F.CA.const _).spec⟩
    | some c =>
      have eq : (fun x => band (inp (mag x) (R x) (v x)) e) = fun x => condBand c (inp (mag x) (R x) (v x)) :=
        funext fun x => band_cond _ he hc
      have g2 := F.CA.ofReal c2
      have g3 := F.CA.ofReal c3
      have gc : F.CA (fun x => cModel c (inp (mag x) (R x) (v x))) x₀ := by
        unfold cModel; dsimp only [inp]; fcont
      have gsc : F.CA (fun x => sigmaCond c (inp (mag x) (R x) (v x))) x₀ := by
        unfold sigmaCond; dsimp only; fcont
      rw [eq]
      refine ⟨F.CA.spec ?_, F.CA.spec ?_, F.CA.spec ?_⟩ <;> · unfold condBand; dsimp only; fcont

end PR23

open PR23 in
/-- Pinilla-Ramos et al. (2023): the stored durations, and the durations that `duration_for_energy`
returns for any one energy, are continuous everywhere. -/
theorem C117_pr23 {ks : List String} {S : X → Scenario} {x₀ : X} {m₀ R₀ v₀ : ℝ} {I : X → Instance DurBand}
    (h : Varies ks S x₀) (hm : (S x₀).get "mag" = .num m₀) (hR : (S x₀).get "dist_rup" = .num R₀)
    (hv : (S x₀).get "v_s30" = .num v₀) (hI : ∀ x, (PR23.cls.new (S x)).res = .ok (I x)) :
    ContinuousBand (fun x => (I x).out) x₀ ∧
      ∀ (e : ℝ) (B : X → DurBand), (∀ x, (PR23.durationForEnergy (I x) e).res = .ok (B x)) →
        ContinuousBand B x₀ := by
  obtain ⟨mag, e1, f1, c1⟩ := h.num hm
  obtain ⟨R, e2, -, c2⟩ := h.num hR
  obtain ⟨v, e3, -, c3⟩ := h.num hv
  have key : ∀ x, (I x).out = band (inp (mag x) (R x) (v x)) 0.75 ∧
      ∀ e, calcDuration (I x).scenario e = pure (band (inp (mag x) (R x) (v x)) e) := by
    intro x
    obtain ⟨i, h1, h2, h3⟩ := built (S x) (e1 x) (e2 x) (e3 x)
    obtain rfl : I x = i := Except.ok.inj ((hI x).symm.trans h1)
    exact ⟨h2, h3⟩
  constructor
  · rw [show (fun x => (I x).out) = fun x => band (inp (mag x) (R x) (v x)) 0.75 from funext fun x => (key x).1]
    exact band_cont c1 c2 c3 _
  · intro e B hB
    by_cases he : e < 0.10 ∨ 0.95 < e
    · have := (forEnergy_err (I x₀) he).symm.trans (hB x₀)
      cases this
    · push Not at he
      obtain rfl : B = fun x => band (inp (mag x) (R x) (v x)) e := funext fun x => by
        have := (hB x).symm
        rw [forEnergy_ok (key x).2 he.1 he.2] at this
        exact Except.ok.inj this
      exact band_cont c1 c2 c3 _

namespace PR24

variable {mag R v : X → ℝ} {x₀ : X} {k : Kind} {g : Region}

theorem median_CA (c1 : ContinuousAt mag x₀) (c2 : ContinuousAt R x₀) (c3 : ContinuousAt v x₀) :
    F.CA (fun x => median75 (inp (mag x) (R x) (v x) k g)) x₀ := by
  have g1 := F.CA.ofReal c1
  have g2 := F.CA.ofReal c2
  have g3 := F.CA.ofReal c3
  have gs : F.CA (fun x => source (inp (mag x) (R x) (v x) k g)) x₀ := by
    cases k <;> unfold source <;> dsimp only [inp] <;> fcont
    intro _ _ _ e
    have e : mag x₀ = 6 := by
      have := e; simp [fsimp] at this; linarith
    rw [e]; norm_num [fsimp]
  unfold median75 site path
  refine F.CA.add (F.CA.add (F.CA.add gs ?_) ?_) ?_
  · dsimp only [inp]; fcont
  · dsimp only [inp]; fcont
    intro _ _ _ e
    have e : R x₀ = 250 := by simpa [fsimp] using e
    rw [e]; simp [fsimp]; ring
  · dsimp only [inp]; fcont

theorem sigma_CA (c1 : ContinuousAt mag x₀) (c2 : ContinuousAt R x₀) (c3 : ContinuousAt v x₀) :
    F.CA (fun x => sigma75 (inp (mag x) (R x) (v x) k g)) x₀ := by
  have g1 := F.CA.ofReal c1
  have g2 := F.CA.ofReal c2
  have g3 := F.CA.ofReal c3
  unfold sigma75
  dsimp only [inp]
  fcont

theorem band_cont (c1 : ContinuousAt mag x₀) (c2 : ContinuousAt R x₀) (c3 : ContinuousAt v x₀) (e : ℝ) :
    ContinuousBand (fun x => band (inp (mag x) (R x) (v x) k g) e) x₀ := by
  have gm := median_CA (k := k) (g := g) c1 c2 c3
  have gs := sigma_CA (k := k) (g := g) c1 c2 c3
  by_cases he : IsClose e 0.75
  · have eq : (fun x => band (inp (mag x) (R x) (v x) k g) e) = fun x => base (inp (mag x) (R x) (v x) k g) :=
      funext fun x => band_base _ he
    rw [eq]
    refine ⟨gm.spec, F.CA.spec ?_, F.CA.spec ?_⟩ <;> · unfold base; dsimp only; fcont
  · cases hc : (table k)[closest e]? with
    | none =>
      have eq : (fun x => band (inp (mag x) (R x) (v x) k g) e) = fun x => ⟨F.nan, F.nan, F.nan⟩ :=
        funext fun x => by unfold band; rw [if_neg he]; dsimp only [inp]; rw [hc]
      rw [eq]
      exact ⟨(F.CA.const _).spec, (F.CA.const _).spec, (F.CA.const _).spec⟩
    | some c =>
      have eq : (fun x => band (inp (mag x) (R x) (v x) k g) e) = fun x => condBand c (inp (mag x) (R x) (v x) k g) :=
        funext fun x => band_cond _ he hc
      have g1 := F.CA.ofReal c1
      have g2 := F.CA.ofReal c2
      have g3 := F.CA.ofReal c3
      have gc : F.CA (fun x => ratio c (inp (mag x) (R x) (v x) k g)) x₀ := by
        unfold ratio; dsimp only [inp]; fcont
      have gsc : F.CA (fun x => sigma5x c (inp (mag x) (R x) (v x) k g)) x₀ := by
        unfold sigma5x; dsimp only; fcont
      rw [eq]
      refine ⟨F.CA.spec ?_, F.CA.spec ?_, F.CA.spec ?_⟩ <;> · unfold condBand; dsimp only; fcont

end PR24

open PR24 Classical in
/-- Pinilla-Ramos et al. (2024): the stored durations, and the durations that `duration_for_energy`
returns for any one energy, are continuous everywhere. -/
theorem C117_pr24 {ks : List String} {S : X → Scenario} {x₀ : X} {m₀ R₀ v₀ : ℝ} {k : PR24.Kind} {g : PR24.Region}
    {I : X → Instance DurBand} (h : Varies ks S x₀) (h0 : Has (S x₀) m₀ R₀ v₀ k g)
    (hI : ∀ x, (PR24.cls.new (S x)).res = .ok (I x)) :
    ContinuousBand (fun x => (I x).out) x₀ ∧
      ∀ (e : ℝ) (B : X → DurBand), (∀ x, (PR24.durationForEnergy (I x) e).res = .ok (B x)) →
        ContinuousBand B x₀ := by
  obtain ⟨mag, e1, f1, c1⟩ := h.num h0.mag
  obtain ⟨R, e2, -, c2⟩ := h.num h0.rup
  obtain ⟨v, e3, -, c3⟩ := h.num h0.v
  have key : ∀ x, (I x).out = band (inp (mag x) (R x) (v x) k g) 0.75 ∧
      read (I x).scenario = pure (inp (mag x) (R x) (v x) k g) := by
    intro x
    have hx : Has (S x) (mag x) (R x) (v x) k g :=
      ⟨⟨e1 x, e2 x, e3 x⟩, h.str h0.event x, h.str h0.region x, h0.supported⟩
    obtain ⟨i, h1, h2, h3⟩ := hx.built
    obtain rfl : I x = i := Except.ok.inj ((hI x).symm.trans h1)
    exact ⟨h2, h3⟩
  constructor
  · rw [show (fun x => (I x).out) = fun x => band (inp (mag x) (R x) (v x) k g) 0.75 from funext fun x => (key x).1]
    exact band_cont c1 c2 c3 _
  · intro e B hB
    by_cases he : e < 0.10 ∨ 0.95 < e
    · have := hB x₀
      rw [forEnergy_err (I x₀) he] at this
      cases this
    · push Not at he
      by_cases ht : ∃ t ∈ thresholds, IsClose (t : ℝ) e 1e-3
      · obtain rfl : B = fun x => band (inp (mag x) (R x) (v x) k g) e := funext fun x => by
          have := (hB x).symm
          rw [forEnergy_eq (key x).2 he.1 he.2, if_pos ht] at this
          exact Except.ok.inj this
        exact band_cont c1 c2 c3 _
      · obtain rfl : B = fun x => band (inp (mag x) (R x) (v x) k g) (((closest e : ℝ) + 2) / 20) := funext fun x => by
          have := (hB x).symm
          rw [forEnergy_eq (key x).2 he.1 he.2, if_neg ht] at this
          exact Except.ok.inj this
        exact band_cont c1 c2 c3 _

/-! ### Examples -/

example : ∃ O : ℝ × ℝ → DurOut, ContinuousEntries (fun x => (O x).duration) (7, 20) :=
  ⟨_, (C117_as96 (S := fun x : ℝ × ℝ => ⟨("mag", .num x.1) :: ("dist_rup", .num x.2) ::
      [("site_cond", .str "soil")], []⟩) (m₀ := 7) (R₀ := 20) (t := "soil")
    (Varies.pair "mag" "dist_rup" [("site_cond", .str "soil")] (by decide) _)
    (by simp [Scenario.get, Dict.get?]) (by simp [Scenario.get, Dict.get?]) (by simp [Scenario.get, Dict.get?])
    fun x => AS96.gives _ (m := x.1) (r := x.2) (t := "soil") (by simp [Scenario.get, Dict.get?])
      (by simp [Scenario.get, Dict.get?]) (by simp [Scenario.get, Dict.get?])).1⟩

example : ∃ O : ℝ × ℝ → DurOut, ContinuousEntries (fun x => (O x).duration) (7, 20) :=
  ⟨_, (C117_ks06 (S := fun x : ℝ × ℝ => ⟨("mag", .num x.1) :: ("dist_rup", .num x.2) ::
      [("v_s30", .num 400)], []⟩) (m₀ := 7) (R₀ := 20) (v₀ := 400)
    (Varies.pair "mag" "dist_rup" [("v_s30", .num 400)] (by decide) _)
    (by simp [Scenario.get, Dict.get?]) (by simp [Scenario.get, Dict.get?]) (by simp [Scenario.get, Dict.get?])
    fun x => KS06.gives _ (m := x.1) (r := x.2) (v := 400) (by simp [Scenario.get, Dict.get?])
      (by simp [Scenario.get, Dict.get?]) (by simp [Scenario.get, Dict.get?])).1⟩

example : ∃ O : ℝ × ℝ → DurOut, ContinuousNumber (fun x => (O x).duration.getD 1 F.nan) (5.35, 20) :=
  ⟨_, (C117_as16 (S := fun x : ℝ × ℝ => ⟨("mag", .num x.1) :: ("dist_rup", .num x.2) ::
      [("v_s30", .num 400), ("mechanism", .str "SS")], []⟩) (m₀ := 5.35) (R₀ := 20) (v₀ := 400) (z₀ := none) (t := "SS")
    (Varies.pair "mag" "dist_rup" [("v_s30", .num 400), ("mechanism", .str "SS")] (by decide) _)
    (by simp [Scenario.get, Dict.get?]) (by simp [Scenario.get, Dict.get?]) (by simp [Scenario.get, Dict.get?])
    (by simp [Scenario.get, Dict.get?, Val.ofOpt]) (by simp [Scenario.get, Dict.get?])
    fun x => AS16.gives _ (m := x.1) (r := x.2) (v := 400) (z := none) (t := "SS") (by simp [Scenario.get, Dict.get?])
      (by simp [Scenario.get, Dict.get?]) (by simp [Scenario.get, Dict.get?]) (by simp [Scenario.get, Dict.get?, Val.ofOpt])
      (by simp [Scenario.get, Dict.get?])).1 1 (by norm_num)⟩

example : ∃ I : ℝ × ℝ → Instance DurBand, ContinuousBand (fun x => (I x).out) (7, 20) :=
  ⟨_, (C117_pr23 (S := fun x : ℝ × ℝ => ⟨("mag", .num x.1) :: ("dist_rup", .num x.2) ::
      [("v_s30", .num 400)], []⟩) (m₀ := 7) (R₀ := 20) (v₀ := 400)
    (Varies.pair "mag" "dist_rup" [("v_s30", .num 400)] (by decide) _)
    (by simp [Scenario.get, Dict.get?]) (by simp [Scenario.get, Dict.get?]) (by simp [Scenario.get, Dict.get?])
    fun x => (PR23.built _ (m := x.1) (r := x.2) (v := 400) (by simp [Scenario.get, Dict.get?])
      (by simp [Scenario.get, Dict.get?]) (by simp [Scenario.get, Dict.get?])).choose_spec.1).1⟩

open PR24 in
example : ∃ I : ℝ × ℝ → Instance DurBand, ContinuousBand (fun x => (I x).out) (7, 100) := by
  have h : ∀ x : ℝ × ℝ, Has ⟨("mag", .num x.1) :: ("dist_rup", .num x.2) ::
      [("v_s30", .num 400), ("event_type", .str "slab"), ("region", .str "Japan")], []⟩ x.1 x.2 400 .slab .japan := by
    intro x
    constructor
    · constructor <;> simp [Scenario.get, Dict.get?]
    · simp [Scenario.get, Dict.get?, Kind.name]
    · simp [Scenario.get, Dict.get?, Region.name]
    · simp [Supported]
  exact ⟨_, (C117_pr24 (x₀ := (7, 100)) (Varies.pair "mag" "dist_rup" _ (by decide) _) (h (7, 100))
    fun x => (h x).built.choose_spec.1).1⟩
