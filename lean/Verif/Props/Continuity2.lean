import Verif.Cont
import Verif.Props.C03
import Verif.Props.TP05
import Verif.Props.Pea11
import Verif.Props.AKB14

/-! # C116: the other models depend continuously on all numeric inputs at once -/

open Filter Topology
open Bounds

set_option linter.unusedSimpArgs false

variable {X : Type*} [TopologicalSpace X]

/-- Campbell (2003): the median is continuous everywhere, the standard deviation except at the
magnitude 7.16 where its formula changes. -/
theorem C116_c03 {ks : List String} {S : X → Scenario} {x₀ : X} {m₀ R₀ : ℝ} {O : X → GmmOut}
    (h : Varies ks S x₀) (hm : (S x₀).get "mag" = .num m₀) (hR : (S x₀).get "dist_rup" = .num R₀)
    (hO : ∀ x, Gives C03.cls (S x) (O x)) :
    ContinuousEntries (fun x => (O x).lnResp) x₀ ∧
      (m₀ ≠ 7.16 → ContinuousEntries (fun x => (O x).lnStd.getD []) x₀) := by
  obtain ⟨mag, e1, f1, c1⟩ := h.num hm
  obtain ⟨R, e2, -, c2⟩ := h.num hR
  obtain rfl : O = fun x => C03.out (F.ofReal (mag x)) (F.ofReal (R x)) :=
    funext fun x => (hO x).unique (C03.gives (S x) (e1 x) (e2 x))
  have g1 := F.CA.ofReal c1
  have g2 := F.CA.ofReal c2
  refine ⟨ContinuousEntries.map C03.table (fun c x => C03.lnResp c (F.ofReal (mag x)) (F.ofReal (R x))) fun c _ => ?_,
    fun hne => ContinuousEntries.map C03.table (fun c x => C03.lnStd c (F.ofReal (mag x))) fun c _ => ?_⟩
  · unfold C03.lnResp C03.f1 C03.f2 C03.f3
    fcont
    · intro _ _ _ e
      have e : R x₀ = 130 := by simpa [fsimp] using e.symm
      rw [e]; norm_num [fsimp]
    · intro _ _ _ e
      have e : R x₀ = 70 := by simpa [fsimp] using e
      rw [e]; norm_num [fsimp]
  · unfold C03.lnStd
    fcont
    intro o1 o2 o3 e
    exact absurd (by simpa [fsimp, f1] using e) hne

/-- Tavakoli & Pezeshk (2005): the median is continuous wherever it is defined (up to magnitude
8.5), the standard deviation except at magnitude 7.2. -/
theorem C116_tp05 {ks : List String} {S : X → Scenario} {x₀ : X} {m₀ R₀ : ℝ} {O : X → GmmOut}
    (h : Varies ks S x₀) (hm : (S x₀).get "mag" = .num m₀) (hR : (S x₀).get "dist_rup" = .num R₀)
    (hO : ∀ x, Gives TP05.cls (S x) (O x)) :
    ContinuousEntries (fun x => (O x).lnResp) x₀ ∧
      (m₀ ≠ 7.2 → ContinuousEntries (fun x => (O x).lnStd.getD []) x₀) := by
  obtain ⟨mag, e1, f1, c1⟩ := h.num hm
  obtain ⟨R, e2, -, c2⟩ := h.num hR
  obtain rfl : O = fun x => TP05.out (F.ofReal (mag x)) (F.ofReal (R x)) :=
    funext fun x => (hO x).unique (TP05.gives (S x) (e1 x) (e2 x))
  have g1 := F.CA.ofReal c1
  have g2 := F.CA.ofReal c2
  refine ⟨ContinuousEntries.map TP05.table (fun c x => TP05.lnResp c (F.ofReal (mag x)) (F.ofReal (R x))) fun c _ => ?_,
    fun hne => ContinuousEntries.map TP05.table (fun c x => TP05.lnStd c (F.ofReal (mag x))) fun c _ => ?_⟩
  · unfold TP05.lnResp TP05.f1 TP05.f2 TP05.f3 TP05.distR
    dsimp only
    fcont
    · intro _ _ _ e
      have e : R x₀ = 70 := by simpa [fsimp] using e.symm
      rw [e]; norm_num [fsimp]
    · intro _ _ _ e
      have e : R x₀ = 70 := by simpa [fsimp] using e.symm
      rw [e]; norm_num [fsimp]
    · intro _ _ _ e
      have e : R x₀ = 130 := by simpa [fsimp] using e.symm
      rw [e]; norm_num [fsimp]
  · unfold TP05.lnStd
    fcont
    intro o1 o2 o3 e
    exact absurd (by simpa [fsimp, f1] using e) hne

/-- Pezeshk, Zandieh & Tavakoli (2011): the median is continuous everywhere, the standard deviation
except at magnitude 7. -/
theorem C116_pea11 {ks : List String} {S : X → Scenario} {x₀ : X} {m₀ R₀ : ℝ} {O : X → GmmOut}
    (h : Varies ks S x₀) (hm : (S x₀).get "mag" = .num m₀) (hR : (S x₀).get "dist_rup" = .num R₀)
    (hO : ∀ x, Gives Pea11.cls (S x) (O x)) :
    ContinuousEntries (fun x => (O x).lnResp) x₀ ∧
      (m₀ ≠ 7 → ContinuousEntries (fun x => (O x).lnStd.getD []) x₀) := by
  obtain ⟨mag, e1, f1, c1⟩ := h.num hm
  obtain ⟨R, e2, -, c2⟩ := h.num hR
  obtain rfl : O = fun x => Pea11.out (F.ofReal (mag x)) (F.ofReal (R x)) :=
    funext fun x => (hO x).unique (Pea11.gives (S x) (e1 x) (e2 x))
  have g1 := F.CA.ofReal c1
  have g2 := F.CA.ofReal c2
  refine ⟨ContinuousEntries.map Pea11.table (fun c x => Pea11.lnResp c (F.ofReal (mag x)) (F.ofReal (R x))) fun c _ => ?_,
    fun hne => ContinuousEntries.map Pea11.table (fun c x => Pea11.lnStd c (F.ofReal (mag x))) fun c _ => ?_⟩
  · unfold Pea11.lnResp Pea11.log10Resp Pea11.distR
    fcont
  · unfold Pea11.lnStd
    dsimp only
    fcont
    intro o1 o2 o3 e
    exact absurd (by simpa [fsimp, f1] using e) hne

namespace AKB14

theorem lnRef_CA (c : Row) {m d : X → F} {x₀ : X} (hm : F.CA m x₀) (hd : F.CA d x₀) (mech : Mech) :
    F.CA (fun x => lnRef c (m x) (d x) mech) x₀ := by
  unfold lnRef
  fcont
  intro _ _ _ e
  have e : (m x₀).val = c.c_1 := e
  simp only [fsimp] at *
  refine ⟨by simp_all, ?_⟩
  rw [e]; ring

theorem site_CA {c : Row} (hc : c.v_con = 1000) {v p : X → F} {x₀ : X} (hv : F.CA v x₀) (hp : F.CA p x₀) :
    F.CA (fun x => site c (v x) (p x)) x₀ := by
  unfold site
  dsimp only
  fcont
  intro o1 _ o3 e
  have e : (v x₀).val = 750 := by simpa [fsimp] using e
  simp only [fsimp, hc, e] at *
  norm_num at o3 ⊢
  exact o1

theorem out_CE {tbl : List Row} (ht : tbl ∈ tables) {m d v : X → F} {x₀ : X} (hm : F.CA m x₀) (hd : F.CA d x₀)
    (hv : F.CA v x₀) (mech : Mech) :
    ContinuousEntries (fun x => (out tbl (m x) (d x) (v x) mech).lnResp) x₀ ∧
      ContinuousEntries (fun x => (out tbl (m x) (d x) (v x) mech).lnStd.getD []) x₀ := by
  have hp : F.CA (fun x => pgaRef tbl (m x) (d x) mech) x₀ :=
    F.CA.exp (CA_getD tbl _ (fun c _ => lnRef_CA c hm hd _) 0)
  refine ⟨ContinuousEntries.map tbl (fun c x => lnRef c (m x) (d x) mech +
      site c (v x) (pgaRef tbl (m x) (d x) mech)) fun c hc => ?_,
    ContinuousEntries.map tbl (fun c _ => (c.sd_total : F)) fun c _ => F.CA.const _⟩
  exact F.CA.add (lnRef_CA c hm hd _) (site_CA (row_facts tbl ht c hc).2.2.2.2.2.1 hv hp)

theorem spec_family {a b c : X → Option ℝ} {x₀ : X} (ha : OptCont a x₀) (hb : OptCont b x₀) (hc : OptCont c x₀)
    (hno : ¬ (Val.ofOpt (a x₀) = .none ∧ Val.ofOpt (b x₀) = .none ∧ Val.ofOpt (c x₀) = .none)) :
    ∃ tbl ∈ tables, ∃ d : X → ℝ, ContinuousAt d x₀ ∧ ∀ x, spec (a x) (b x) (c x) = some (d x, tbl) := by
  rcases ha with k3 | ⟨g3, k3, i3⟩
  · rcases hb with k4 | ⟨g4, k4, i4⟩
    · rcases hc with k5 | ⟨g5, k5, i5⟩
      · exact absurd ⟨by rw [k3]; rfl, by rw [k4]; rfl, by rw [k5]; rfl⟩ hno
      · exact ⟨epi, .tail _ (.tail _ (.head _)), g5, i5, fun x => by rw [k3, k4, k5]; rfl⟩
    · exact ⟨hyp, .tail _ (.head _), g4, i4, fun x => by rw [k3, k4]; rfl⟩
  · exact ⟨jb, .head _, g3, i3, fun x => by rw [k3]; rfl⟩

end AKB14

/-- Akkar, Sandikkaya & Bommer (2014): median and standard deviation are continuous everywhere in
magnitude, v_s30 and the distance in force, whichever of the three it is. -/
theorem C116_akb14 {ks : List String} {S : X → Scenario} {x₀ : X} {m₀ v₀ : ℝ} {t : String} {a b c : Option ℝ}
    {O : X → GmmOut}
    (h : Varies ks S x₀) (hm : (S x₀).get "mag" = .num m₀) (hv : (S x₀).get "v_s30" = .num v₀)
    (ht : (S x₀).get "mechanism" = .str t) (ha : (S x₀).get "dist_jb" = Val.ofOpt a)
    (hb : (S x₀).get "dist_hyp" = Val.ofOpt b) (hc : (S x₀).get "dist_epi" = Val.ofOpt c)
    (hks : "mechanism" ∉ ks) (hO : ∀ x, Gives AKB14.cls (S x) (O x)) :
    ContinuousEntries (fun x => (O x).lnResp) x₀ ∧ ContinuousEntries (fun x => (O x).lnStd.getD []) x₀ := by
  obtain ⟨mag, e1, -, c1⟩ := h.num hm
  obtain ⟨v, e2, -, c2⟩ := h.num hv
  obtain ⟨a', e3, -, c3⟩ := h.opt ha
  obtain ⟨b', e4, -, c4⟩ := h.opt hb
  obtain ⟨c', e5, -, c5⟩ := h.opt hc
  have hno : ¬ ((S x₀).get "dist_jb" = .none ∧ (S x₀).get "dist_hyp" = .none ∧ (S x₀).get "dist_epi" = .none) := by
    rintro ⟨k1, k2, k3⟩
    have hn := C23_no_distance (S x₀) m₀ v₀ t hm hv ht k1 k2 k3
    obtain ⟨inst, hi, -⟩ := hO x₀
    rw [hn] at hi
    simp at hi
  rw [e3, e4, e5] at hno
  obtain ⟨tbl, htb, d, hd, hs⟩ := AKB14.spec_family c3 c4 c5 hno
  obtain rfl : O = fun x => AKB14.out tbl (F.ofReal (mag x)) (F.ofReal (d x)) (F.ofReal (v x)) (AKB14.mechFor t) :=
    funext fun x => (hO x).unique (AKB14.gives (p := (d x, tbl)) (S x) (e1 x) (e2 x) ((h.fixed _ hks x).trans ht) (e3 x) (e4 x) (e5 x) (hs x))
  exact AKB14.out_CE htb (F.CA.ofReal c1) (F.CA.ofReal hd) (F.CA.ofReal c2) _

example : ∃ O : ℝ × ℝ → GmmOut, ContinuousEntries (fun x => (O x).lnResp) ((6.5 : ℝ), (70 : ℝ)) :=
  ⟨_, (C116_c03 (m₀ := 6.5) (R₀ := 70) (Varies.pair "mag" "dist_rup" [] (by decide) _) rfl rfl
    fun x => C03.gives _ rfl rfl).1⟩

example : ∃ O : ℝ × ℝ → GmmOut, ContinuousEntries (fun x => (O x).lnResp) ((6.5 : ℝ), (70 : ℝ)) :=
  ⟨_, (C116_tp05 (m₀ := 6.5) (R₀ := 70) (Varies.pair "mag" "dist_rup" [] (by decide) _) rfl rfl
    fun x => TP05.gives _ rfl rfl).1⟩

example : ∃ O : ℝ × ℝ → GmmOut, ContinuousEntries (fun x => (O x).lnResp) ((6.5 : ℝ), (70 : ℝ)) :=
  ⟨_, (C116_pea11 (m₀ := 6.5) (R₀ := 70) (Varies.pair "mag" "dist_rup" [] (by decide) _) rfl rfl
    fun x => Pea11.gives _ rfl rfl).1⟩

/-- with an epicentral distance, varying magnitude and v_s30 around 6.75 and 750 -/
example : ∃ O : ℝ × ℝ → GmmOut, ContinuousEntries (fun x => (O x).lnResp) ((6.75 : ℝ), (750 : ℝ)) :=
  ⟨_, (C116_akb14 (m₀ := 6.75) (v₀ := 750) (t := "NS") (a := none) (b := none) (c := some 30)
    (Varies.pair "mag" "v_s30" [("dist_epi", .num 30), ("mechanism", .str "NS")] (by decide) _)
    rfl rfl rfl rfl rfl rfl (by decide)
    fun x => AKB14.gives (a := none) (b := none) (c := some 30) (p := (30, AKB14.epi)) (t := "NS") _ rfl rfl rfl rfl rfl rfl rfl).1⟩
