import Verif.Props.Accessors
import Verif.Props.Continuity
import Verif.Props.Limits

/-!
# C120: the interpolated spectrum moves continuously with the scenario and the period

`interp_ln_spec_accels`, `interp_spec_accels` and `interp_ln_stds` at a period strictly inside the
range of a model, when both the ordinates and the requested period move.
-/

open Filter Topology

namespace Interp

variable {α β : Type*}

theorem interpR_left {x1 y1 x : ℝ} (t : List (ℝ × ℝ)) (h : x ≤ x1) : interpR ((x1, y1) :: t) x = y1 := by
  cases t with
  | nil => rfl
  | cons p t => simp [interpR, h]

/-- one segment and the rest, without a case distinction -/
theorem interpR_split {x0 y0 x1 y1 x : ℝ} (t : List (ℝ × ℝ)) (h : x0 < x1) :
    interpR ((x0, y0) :: (x1, y1) :: t) x =
      y0 + (y1 - y0) / (x1 - x0) * (max x0 (min x x1) - x0) + (interpR ((x1, y1) :: t) x - y1) := by
  have hne : x1 - x0 ≠ 0 := by linarith
  rw [interpR]
  by_cases h1 : x ≤ x0
  · rw [if_pos h1, interpR_left t (h1.trans h.le), min_eq_left (h1.trans h.le), max_eq_left h1]; ring
  · rw [if_neg h1]
    rw [not_le] at h1
    by_cases h2 : x < x1
    · rw [if_pos h2, interpR_left t h2.le, min_eq_left h2.le, max_eq_right h1.le]; ring
    · rw [if_neg h2]
      rw [not_lt] at h2
      rw [min_eq_right h2, max_eq_right h.le]
      field_simp
      ring

/-- joint continuity in the node values and the abscissa -/
theorem tendsto_joint {l : Filter β} (ξ : α → ℝ) (f : β → α → ℝ) (L : α → ℝ) (T : β → ℝ) (T₀ : ℝ)
    (hT : Tendsto T l (𝓝 T₀)) : ∀ as : List α, (as.map ξ).Pairwise (· < ·) →
    (∀ a ∈ as, Tendsto (fun b => f b a) l (𝓝 (L a))) →
    Tendsto (fun b => interpR (as.map fun a => (ξ a, f b a)) (T b)) l (𝓝 (interpR (as.map fun a => (ξ a, L a)) T₀))
  | [], _, _ => tendsto_const_nhds
  | [a], _, h => h a (by simp)
  | a :: a' :: as, hs, h => by
    have hs' := List.pairwise_cons.1 hs
    have hlt : ξ a < ξ a' := hs'.1 _ (by simp)
    have ih := tendsto_joint ξ f L T T₀ hT (a' :: as) hs'.2 (fun b hb => h b (by simp [hb]))
    have h0 := h a (by simp)
    have h1 := h a' (by simp)
    simp only [List.map_cons] at ih ⊢
    simp only [interpR_split _ hlt]
    exact (h0.add (((h1.sub h0).div_const _).mul
      (((tendsto_const_nhds.max (hT.min tendsto_const_nhds)).sub tendsto_const_nhds)))).add (ih.sub h1)

/-- inside the range of the nodes `interp1d` and `np.interp` agree -/
theorem linear_eq : ∀ (l : List (ℝ × F)) (x : ℝ), Sorted l → (∃ p ∈ l, p.1 ≤ x) → (∃ p ∈ l, x ≤ p.1) →
    interpLinear l x = npInterp l x
  | [], _, _, h, _ => by obtain ⟨p, hp, -⟩ := h; cases hp
  | [(x0, y0)], x, _, ⟨p, hp, h⟩, ⟨q, hq, h'⟩ => by
    simp only [List.mem_singleton] at hp hq
    subst hp; subst hq
    have : x = x0 := le_antisymm h' h
    simp [interpLinear, npInterp, this]
  | (x0, y0) :: (x1, y1) :: t, x, hs, ⟨p, hp, h⟩, ⟨q, hq, h'⟩ => by
    have hs' := List.pairwise_cons.1 hs
    have hx : x0 ≤ x := by
      rcases List.mem_cons.1 hp with rfl | hp
      · exact h
      · exact (hs'.1 p hp).le.trans h
    rw [interpLinear, npInterp, if_neg (not_lt.2 hx)]
    by_cases e : x = x0
    · rw [if_pos e, if_pos e.le]
    · have hlt : x0 < x := lt_of_le_of_ne hx (Ne.symm e)
      rw [if_neg e, if_neg (not_le.2 hlt)]
      by_cases h1 : x < x1
      · rw [if_pos h1, if_pos h1]
      · rw [if_neg h1, if_neg h1]
        refine linear_eq ((x1, y1) :: t) x hs'.2 ⟨_, List.mem_cons_self, not_lt.1 h1⟩ ⟨q, ?_, h'⟩
        rcases List.mem_cons.1 hq with rfl | hq
        · exact absurd h' (not_le.2 hlt)
        · exact hq

end Interp

/-! ### Specification -/

/-- every spectral ordinate is a finite number -/
def Spec.Complete (C : GmmClass) (l : List F) : Prop := ∀ i ∈ C.indicesPsa, (l.getD i F.nan).ok

/-- the period is strictly inside the range of spectral periods -/
def Spec.Inside (C : GmmClass) (T : ℝ) : Prop :=
  (∃ i ∈ C.indicesPsa, (C.periods.getD i 0 : ℝ) < T) ∧ ∃ i ∈ C.indicesPsa, T < (C.periods.getD i 0 : ℝ)

open Spec

variable {X : Type*} [TopologicalSpace X]

/-- the values of the interpolation among complete spectra -/
theorem Spec.interp_tendsto {C : GmmClass} (hc : Coherent C) {L : X → List F} {T : X → ℝ} {x₀ : X}
    (hL : ContinuousEntries L x₀) (hT : ContinuousAt T x₀) (h0 : Complete C (L x₀)) (hin : Inside C (T x₀)) :
    (∀ᶠ x in 𝓝 x₀, Complete C (L x) → (Gmm.interpAt (C.indicesPsa.map fun i => C.periods.getD i 0)
        (C.indicesPsa.map fun i => (L x).getD i F.nan) (T x)).ok) ∧
      ContinuousWithinAt (fun x => (Gmm.interpAt (C.indicesPsa.map fun i => C.periods.getD i 0)
        (C.indicesPsa.map fun i => (L x).getD i F.nan) (T x)).val) {x | Complete C (L x)} x₀ := by
  obtain ⟨⟨a, ha, ha'⟩, b, hb, hb'⟩ := hin
  have e1 : ∀ᶠ x in 𝓝 x₀, (C.periods.getD a 0 : ℝ) < T x := hT.eventually (lt_mem_nhds ha')
  have e2 : ∀ᶠ x in 𝓝 x₀, T x < (C.periods.getD b 0 : ℝ) := hT.eventually (gt_mem_nhds hb')
  have pos : ∀ i ∈ C.indicesPsa, (0 : ℝ) < C.periods.getD i 0 := fun i hi => by exact_mod_cast hc.psa_pos i hi
  let N : X → List (ℝ × F) := fun x => C.indicesPsa.map fun i => (Real.log (C.periods.getD i 0 : ℝ), (L x).getD i F.nan)
  have hN : ∀ x, (List.zip ((C.indicesPsa.map fun i => C.periods.getD i 0).map fun p : ℚ => Real.log (p : ℝ))
      (C.indicesPsa.map fun i => (L x).getD i F.nan)) = N x := by
    intro x; rw [List.map_map, List.zip_map']; rfl
  have hs : ∀ x, Interp.Sorted (N x) := by
    intro x
    have := nodes_sorted hc (L x)
    rw [hN] at this
    exact this
  have key : ∀ x, (C.periods.getD a 0 : ℝ) < T x → T x < (C.periods.getD b 0 : ℝ) →
      Gmm.interpAt (C.indicesPsa.map fun i => C.periods.getD i 0) (C.indicesPsa.map fun i => (L x).getD i F.nan) (T x) =
        npInterp (N x) (Real.log (T x)) := by
    intro x h1 h2
    have h3 : 0 < T x := (pos a ha).trans h1
    rw [Gmm.interpAt, if_pos h3, hN]
    refine Interp.linear_eq _ _ (hs x) ⟨_, List.mem_map_of_mem ha, ?_⟩ ⟨_, List.mem_map_of_mem hb, ?_⟩
    · exact (Real.log_lt_log (pos a ha) h1).le
    · exact (Real.log_lt_log h3 h2).le
  constructor
  · filter_upwards [e1, e2] with x h1 h2 hx
    rw [key x h1 h2]
    refine Interp.ok_of _ _ (hs x) ?_ ?_
    · exact List.ne_nil_of_mem (List.mem_map_of_mem ha)
    · intro p hp
      obtain ⟨i, hi, rfl⟩ := List.mem_map.1 hp
      exact hx i hi
  · have hval : ∀ x, (npInterp (N x) (Real.log (T x))).val =
        interpR (C.indicesPsa.map fun i => (Real.log (C.periods.getD i 0 : ℝ), ((L x).getD i F.nan).val)) (Real.log (T x)) := by
      intro x
      rw [Interp.val_eq, List.map_map]; rfl
    have ht : Tendsto (fun x => interpR (C.indicesPsa.map fun i => (Real.log (C.periods.getD i 0 : ℝ),
        ((L x).getD i F.nan).val)) (Real.log (T x))) (𝓝[{x | Complete C (L x)}] x₀)
        (𝓝 (interpR (C.indicesPsa.map fun i => (Real.log (C.periods.getD i 0 : ℝ),
        ((L x₀).getD i F.nan).val)) (Real.log (T x₀)))) := by
      refine Interp.tendsto_joint (fun i : ℕ => Real.log (C.periods.getD i 0 : ℝ)) (fun x i => ((L x).getD i F.nan).val)
        (fun i => ((L x₀).getD i F.nan).val) (fun x => Real.log (T x)) _ ?_ _ ?_ ?_
      · exact ((hT.mono_left nhdsWithin_le_nhds).log ((pos a ha).trans ha').ne')
      · have := hs x₀
        unfold Interp.Sorted at this
        rw [List.pairwise_map] at this ⊢
        exact this
      · intro i hi
        exact (hL i (h0 i hi)).mono fun x hx => hx i hi
    have hev : (fun x => interpR (C.indicesPsa.map fun i => (Real.log (C.periods.getD i 0 : ℝ),
        ((L x).getD i F.nan).val)) (Real.log (T x))) =ᶠ[𝓝[{x | Complete C (L x)}] x₀]
        fun x => (Gmm.interpAt (C.indicesPsa.map fun i => C.periods.getD i 0)
          (C.indicesPsa.map fun i => (L x).getD i F.nan) (T x)).val := by
      filter_upwards [e1.filter_mono nhdsWithin_le_nhds, e2.filter_mono nhdsWithin_le_nhds] with x h1 h2
      rw [key x h1 h2, hval]
    unfold ContinuousWithinAt
    beta_reduce
    rw [key x₀ ha' hb', hval]
    exact ht.congr' hev

/-- `interp_ln_spec_accels` and `interp_spec_accels`: if the ordinates of a model move continuously, and the requested
period moves continuously inside the range of the model, so do the interpolated values, among complete spectra; they
are finite numbers. -/
theorem C120_interp (name : String) (C : GmmClass) (h : (name, C) ∈ GmmClass.all) {O : X → GmmOut} {T : X → ℝ} {x₀ : X}
    (hlen : ∀ x, (O x).lnResp.length = C.periods.length) (hO : ContinuousEntries (fun x => (O x).lnResp) x₀)
    (hT : ContinuousAt T x₀) (h0 : Complete C (O x₀).lnResp) (hin : Inside C (T x₀)) :
    ∃ y z : X → F, (∀ x, (Gmm.interpLnSpecAccels C (O x) (T x)).res = .ok (y x)) ∧
      (∀ x, (Gmm.interpSpecAccels C (O x) (T x)).res = .ok (z x)) ∧
      (∀ᶠ x in 𝓝 x₀, Complete C (O x).lnResp → (y x).ok ∧ (z x).ok) ∧
      ContinuousWithinAt (fun x => (y x).val) {x | Complete C (O x).lnResp} x₀ ∧
      ContinuousWithinAt (fun x => (z x).val) {x | Complete C (O x).lnResp} x₀ := by
  have hc := C13_period_tables_coherent name C h
  obtain ⟨h1, h2⟩ := interp_tendsto hc hO hT h0 hin
  refine ⟨_, fun x => (Gmm.interpAt (C.indicesPsa.map fun i => C.periods.getD i 0)
        (C.indicesPsa.map fun i => (O x).lnResp.getD i F.nan) (T x)).exp, fun x => interp_res hc (O x) (hlen x) (T x),
    fun x => ?_, ?_, h2, ?_⟩
  · simp only [Gmm.interpSpecAccels]
    rw [Py.bind_res_ok (interp_res hc (O x) (hlen x) (T x))]; rfl
  · filter_upwards [h1] with x hx hok
    exact ⟨hx hok, by simpa using hx hok⟩
  · simpa using h2.rexp

/-- `interp_ln_stds`: the same for the standard deviations. -/
theorem C120_interp_stds (name : String) (C : GmmClass) (h : (name, C) ∈ GmmClass.all) {O : X → GmmOut} {D : X → List F}
    {T : X → ℝ} {x₀ : X} (hD : ∀ x, (O x).lnStd = some (D x)) (hlen : ∀ x, (D x).length = C.periods.length)
    (hO : ContinuousEntries D x₀) (hT : ContinuousAt T x₀) (h0 : Complete C (D x₀)) (hin : Inside C (T x₀)) :
    ∃ y : X → F, (∀ x, (Gmm.interpLnStds C (O x) (T x)).res = .ok (y x)) ∧
      (∀ᶠ x in 𝓝 x₀, Complete C (D x) → (y x).ok) ∧
      ContinuousWithinAt (fun x => (y x).val) {x | Complete C (D x)} x₀ := by
  have hc := C13_period_tables_coherent name C h
  obtain ⟨h1, h2⟩ := interp_tendsto hc hO hT h0 hin
  exact ⟨_, fun x => by rw [interp_std_res hc (O x) (D x) (hD x) (hlen x)], h1, h2⟩

/-- Where all ordinates are finite the interpolated values are continuous without further ado. -/
theorem C120_interp_finite (name : String) (C : GmmClass) (h : (name, C) ∈ GmmClass.all) {O : X → GmmOut} {T : X → ℝ}
    {x₀ : X} (hfin : ∀ x, (O x).lnResp.length = C.periods.length ∧ ∀ y ∈ (O x).lnResp, y.ok) (hO : ContinuousEntries (fun x => (O x).lnResp) x₀)
    (hT : ContinuousAt T x₀) (hin : Inside C (T x₀)) :
    ∃ y z : X → F, (∀ x, (Gmm.interpLnSpecAccels C (O x) (T x)).res = .ok (y x)) ∧
      (∀ x, (Gmm.interpSpecAccels C (O x) (T x)).res = .ok (z x)) ∧ (∀ᶠ x in 𝓝 x₀, (y x).ok ∧ (z x).ok) ∧
      ContinuousAt (fun x => (y x).val) x₀ ∧ ContinuousAt (fun x => (z x).val) x₀ := by
  have hc := C13_period_tables_coherent name C h
  have hcomp : ∀ x, Complete C (O x).lnResp := by
    intro x i hi
    obtain ⟨h1, h2⟩ := hfin x
    have hi' : i < (O x).lnResp.length := by rw [h1]; exact hc.psa_exist i hi
    rw [getD_getElem hi']
    exact h2 _ (List.getElem_mem hi')
  obtain ⟨y, z, h1, h2, h3, h4, h5⟩ := C120_interp name C h (fun x => (hfin x).1) hO hT (hcomp x₀) hin
  have hu : {x | Complete C (O x).lnResp} = Set.univ := Set.eq_univ_of_forall hcomp
  rw [hu, continuousWithinAt_univ] at h4 h5
  exact ⟨y, z, h1, h2, h3.mono fun x hx => hx (hcomp x), h4, h5⟩

/-- End to end for Chiou & Youngs (2014): over scenarios inside the declared limits, the spectral acceleration at a
moving period inside 0.01 to 10 s is a continuous function of all numeric inputs and the period together (in Japan
and Italy: at magnitudes other than 6 and 6.9). -/
theorem C120_cy14 {ks : List String} {S : X → Scenario} {x₀ : X} {g₀ : CY14.Given} {O : X → CY14.Out} {T : X → ℝ}
    (h : Varies ks S x₀) (h0 : CY14.Source (S x₀) g₀)
    (hks : ∀ k ∈ ["mechanism", "region", "on_hanging_wall", "vs_source"], k ∉ ks)
    (hrec : ∀ x, AllRecommended Decls.cy14 (S x)) (hO : ∀ x, Gives CY14.cls (S x) (O x))
    (hj : (S x₀).get "region" = .str "japan" ∨ (S x₀).get "region" = .str "italy" → g₀.mag ≠ 6 ∧ g₀.mag ≠ 6.9)
    (hT : ContinuousAt T x₀) (ht : 0.01 < T x₀) (ht' : T x₀ < 10) :
    ∃ z : X → F, (∀ x, (Gmm.interpSpecAccels GmmClass.cy14 (O x).gmm (T x)).res = .ok (z x)) ∧
      (∀ᶠ x in 𝓝 x₀, (z x).ok ∧ 0 < (z x).val) ∧ ContinuousAt (fun x => (z x).val) x₀ := by
  have hl : GmmClass.cy14.periods.length = 26 := by decide +kernel
  have hin : Inside GmmClass.cy14 (T x₀) := by
    refine ⟨⟨0, by decide +kernel, ?_⟩, ⟨23, by decide +kernel, ?_⟩⟩
    · rw [show GmmClass.cy14.periods.getD 0 0 = 0.01 by decide +kernel]; norm_num at ht ⊢; exact ht
    · rw [show GmmClass.cy14.periods.getD 23 0 = 10 by decide +kernel]; norm_num at ht' ⊢; exact ht'
  obtain ⟨y, z, h1, h2, h3, -, h5⟩ := C120_interp_finite "ChiouYoungs2014" GmmClass.cy14 (by unfold GmmClass.all; simp)
    (O := fun x => (O x).gmm) (fun x => by
      obtain ⟨o, g, hf⟩ := C118_cy14 (S x) (hrec x)
      rw [hl, (hO x).unique g]; exact ⟨hf.1, hf.2.1⟩) (C115_cy14 h h0 hks hO hj).1 hT hin
  refine ⟨z, h2, h3.mono fun x hx => ⟨hx.2, ?_⟩, h5⟩
  obtain ⟨v, e1, e2, -⟩ := C12_interp_spec_accels GmmClass.cy14 (O x).gmm (T x) (y x) (h1 x)
  rw [h2] at e1
  cases e1
  rw [e2]; exact Real.exp_pos _

/-! ### Concrete cases -/

example : Inside GmmClass.cy14 0.12 := by
  refine ⟨⟨0, by decide +kernel, ?_⟩, ⟨23, by decide +kernel, ?_⟩⟩
  · rw [show GmmClass.cy14.periods.getD 0 0 = 0.01 by decide +kernel]; norm_num
  · rw [show GmmClass.cy14.periods.getD 23 0 = 10 by decide +kernel]; norm_num

/-- magnitude, distance and period all move, over all magnitudes from 4 to 8 and distances from 1 to 200 km -/
example : ∃ (O : {x : ℝ × ℝ × ℝ // 4 ≤ x.1 ∧ x.1 ≤ 8 ∧ 1 ≤ x.2.1 ∧ x.2.1 ≤ 200} → CY14.Out) (z : _ → F),
    (∀ x, (Gmm.interpSpecAccels GmmClass.cy14 (O x).gmm x.1.2.2).res = .ok (z x)) ∧
    ContinuousAt (fun x => (z x).val) ⟨(6.5, 20, 0.12), by norm_num⟩ := by
  let S : {x : ℝ × ℝ × ℝ // 4 ≤ x.1 ∧ x.1 ≤ 8 ∧ 1 ≤ x.2.1 ∧ x.2.1 ≤ 200} → Scenario := fun x =>
    ⟨[("mag", .num x.1.1), ("dist_rup", .num x.1.2.1), ("dist_jb", .num 5), ("dist_x", .num 5), ("dip", .num 60),
      ("v_s30", .num 300), ("mechanism", .str "SS")], []⟩
  have hsrc : ∀ x, CY14.Source (S x) { mag := x.1.1, rup := x.1.2.1, jb := 5, x := 5, dip := 60, v := 300 } := by
    intro x
    constructor <;> simp [S, Scenario.get, Dict.get?, Val.ofOpt]
  have hv : Varies ["mag", "dist_rup"] S ⟨(6.5, 20, 0.12), by norm_num⟩ :=
    { fixed := fun k hk x => by
        simp only [List.mem_cons, List.not_mem_nil, or_false, not_or] at hk
        simp [S, Scenario.get, Dict.get?, hk.1, hk.2, eq_comm (b := k)]
      moving := by
        simp only [List.forall_mem_cons]
        exact ⟨⟨fun x => x.1.1, fun x => by simp [S, Scenario.get, Dict.get?],
            (continuous_fst.comp continuous_subtype_val).continuousAt⟩,
          ⟨fun x => x.1.2.1, fun x => by simp [S, Scenario.get, Dict.get?],
            (continuous_fst.comp (continuous_snd.comp continuous_subtype_val)).continuousAt⟩,
          fun _ h => by simp at h⟩ }
  obtain ⟨z, h1, -, h3⟩ := C120_cy14 (T := fun x => x.1.2.2) hv (hsrc _) (by simp) (by
      rintro ⟨x, a1, a2, a3, a4⟩
      unfold AllRecommended
      simp only [Decls.cy14, List.forall_mem_cons]
      repeat' apply And.intro
      all_goals first
        | exact fun _ h => absurd h List.not_mem_nil
        | exact Limits.rec_none (by simp [S, Scenario.get, Dict.get?]; rfl) rfl rfl
        | (refine Limits.rec_num (by simp [S, Scenario.get, Dict.get?]; rfl) ⟨?_, ?_⟩ <;>
            (intro q hq; simp at hq; try (subst hq; norm_num; try linarith)); done)
        | exact Limits.rec_str (by simp [S, Scenario.get, Dict.get?]; rfl) (by simp)) (fun x => CY14.gives (hsrc x))
      (by simp [S, Scenario.get, Dict.get?])
      (continuous_snd.comp (continuous_snd.comp continuous_subtype_val)).continuousAt (by norm_num) (by norm_num)
  exact ⟨_, z, h1, h3⟩
