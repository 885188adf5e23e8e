import Verif.Models.RowKernels2
import Verif.Props.CY14

/-! # C124, continued: Chiou & Youngs (2014) -/

set_option linter.unusedSimpArgs false
set_option maxHeartbeats 1000000

open Arrays Classical

namespace CY14

/-- chiou_youngs_2014.py lines 69-139 -/
theorem run_ref (i : In) (hm : i.mag.ok) (args : String → Arr) (t : Tables) (ht : Loaded t) (e : Env) :
    vexec (rowwise .cy14 table kernel) i t args (block cy14Ref) e "ln_resp" = table.map fun c => lnRef c i := by
  unfold cy14Ref
  rowrun [kernel, ht.gamma_ji, ht.gamma_c]
  refine List.map_congr_left fun c _ => ?_
  simp only [decide_eq_true_eq, lnRef, fMag, fTor, fDip, fDist, fDir, fAtn, coshMag]
  have h1 : (if i.mech = .rs then (c.c_1 : F) + (c.c_1a + c.c_1c / F.cosh (2 * F.max (i.mag - 4.5) 0)) else
      if i.mech = .ns then (c.c_1 : F) + (c.c_1b + c.c_1d / F.cosh (2 * F.max (i.mag - 4.5) 0)) else c.c_1) =
      c.c_1 + fFlt c i.mag i.mech := by
    cases i.mech <;> simp only [fFlt, coshMag, if_true, if_false, reduceCtorEq, add_zero_F]
  have h2 : (if (i.reg = .japan ∨ i.reg = .italy) ∧ 6 < i.mag.val ∧ i.mag.val < 6.9 then F.ofRat c.gamma_ji else
      if i.reg = .china then F.ofRat c.gamma_c else 1) = scale c i.mag i.reg := by
    cases i.reg with
    | japan =>
      simp only [scale, true_or, true_and, reduceCtorEq, if_false]
      rw [iteLt_of trivial hm, iteLt_of hm trivial]
      by_cases a : 6 < i.mag.val <;> by_cases b : i.mag.val < 6.9 <;> simp only [a, b, fsimp, and_self, and_true, true_and, and_false, false_and, if_true, if_false] <;> rfl
    | italy =>
      simp only [scale, or_true, true_and, reduceCtorEq, if_false]
      rw [iteLt_of trivial hm, iteLt_of hm trivial]
      by_cases a : 6 < i.mag.val <;> by_cases b : i.mag.val < 6.9 <;> simp only [a, b, fsimp, and_self, and_true, true_and, and_false, false_and, if_true, if_false] <;> rfl
    | china => simp only [scale, reduceCtorEq, or_self, false_and, if_false, if_true]; rfl
    | other => simp only [scale, reduceCtorEq, or_self, false_and, if_false]
  rw [h1, h2]
  unfold fHng
  split <;> simp only [add_assoc_F, add_zero_F]

/-- chiou_youngs_2014.py lines 163-218, from any reference motion -/
theorem run_site (i : In) (args : String → Arr) (t : Tables) (ht : Loaded t) (e : Env) (y : Row → F)
    (he : e "resp_ref" = table.map y) :
    vexec (rowwise .cy14 table kernel) i t args (block cy14Site) e "site_term" =
      table.map fun c => siteTerm c (y c) i.v i.z1 (i.reg = .japan) := by
  unfold cy14Site
  rowrun [kernel, he, ht.phi_1, ht.phi_1jp, ht.phi_5, ht.phi_5jp, ht.phi_6, ht.phi_6jp]
  refine List.map_congr_left fun c _ => ?_
  simp only [siteTerm, bNl, decide_eq_true_eq]
  by_cases h : i.reg = .japan <;> simp only [h, if_true, if_false] <;> rfl

/-- chiou_youngs_2014.py lines 62-67, 141-161, 220-261 -/
theorem run (i : In) (hm : i.mag.ok) (args : String → Arr) (t : Tables) (ht : Loaded t) :
    Accessed .cy14 (out i).gmm (call (rowwise .cy14 table kernel).toMeaning cy14 i args t).values := by
  refine accessed_of _ _ _ _ _ (by decide +kernel) (by decide +kernel) (by decide +kernel) _ args t _ _ ?_ ?_
  all_goals
    rw [List.append_assoc, List.append_assoc, vexec_block_append]
    have hr := run_ref i hm args t ht noVars
    generalize vexec _ _ _ _ _ noVars = e1 at hr ⊢
    rw [vexec_block_append]
    have h2 : vexec (rowwise .cy14 table kernel) i t args (block [Cmd.new "resp_ref" "cy14:158" ["ln_resp"]]) e1 "resp_ref" =
        table.map fun c => F.exp (lnRef c i) := by
      rowrun [kernel, hr]
    have h3 : vexec (rowwise .cy14 table kernel) i t args (block [Cmd.new "resp_ref" "cy14:158" ["ln_resp"]]) e1 "ln_resp" =
        table.map fun c => lnRef c i := by
      rw [vexec_frame _ _ _ _ _ _ (by decide), hr]
    generalize vexec _ _ _ _ _ e1 = e2 at h2 h3 ⊢
    rw [vexec_block_append]
    have h4 := run_site i args t ht e2 _ h2
    have h5 : vexec (rowwise .cy14 table kernel) i t args (block cy14Site) e2 "ln_resp" = table.map fun c => lnRef c i := by
      rw [vexec_frame _ _ _ _ _ _ (by decide +kernel), h3]
    have h6 : vexec (rowwise .cy14 table kernel) i t args (block cy14Site) e2 "resp_ref" = table.map fun c => F.exp (lnRef c i) := by
      rw [vexec_frame _ _ _ _ _ _ (by decide +kernel), h2]
    generalize vexec _ _ _ _ _ e2 = e3 at h4 h5 h6 ⊢
    rowrun [kernel, h4, h5, h6, ht.sigma_2, ht.sigma_2jp]
    refine List.map_congr_left fun c _ => ?_
    by_cases h : i.reg = .japan <;>
      simp only [lnResp, lnStd, phi, tauMag, clippedMag, nl0, bNl, decide_eq_true_eq, h, decide_true, decide_false, if_true, if_false] <;> rfl

end CY14

/-- Chiou & Youngs (2014) -/
theorem C124_cy14 (s : Scenario) (g : CY14.Given) (h : CY14.Source s g) (args : String → Arr) (t : Tables)
    (ht : CY14.Loaded t) :
    ∃ o, Gives CY14.cls s o ∧
      Accessed .cy14 o.gmm (call (rowwise .cy14 CY14.table CY14.kernel).toMeaning cy14 (g.toIn (CY14.kindOf s)) args t).values :=
  ⟨_, CY14.gives h, CY14.run _ trivial args t ht⟩

example : ∃ o, Gives CY14.cls (CY14.exS CY14.exG "japan") o ∧
    Accessed .cy14 o.gmm (call (rowwise .cy14 CY14.table CY14.kernel).toMeaning cy14
      (CY14.exG.toIn (CY14.kindOf (CY14.exS CY14.exG "japan"))) (fun _ => []) CY14.exTables).values :=
  C124_cy14 _ _ (CY14.ex_source _ rfl rfl rfl _) _ _ CY14.ex_loaded
