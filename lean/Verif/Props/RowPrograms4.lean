import Verif.Models.RowKernels4
import Verif.Props.BSSA14

/-! # C124, continued: Boore, Stewart, Seyhan & Atkinson (2014) -/

set_option linter.unusedSimpArgs false
set_option maxHeartbeats 1000000

open Arrays Classical

namespace BSSA14

/-- boore_stewart_seyhan_atkinson_2014.py lines 247-270 -/
theorem run_site (i : In) (args : String → Arr) (t : Tables) (e : Env) (y : Row → F)
    (he : e "ln_resp_ref" = table.map y) :
    vexec (rowwise .bssa14 table kernel) i t args (block (bssa14Site ["ln_resp_ref"])) e "site" =
      table.map fun c => siteTerm c (F.exp ((table.map y).getD 1 F.nan)) i.v i.z1 i.japanBasin := by
  unfold bssa14Site
  rowrun [kernel, he]
  refine List.map_congr_left fun c _ => ?_
  have hq : (0.65 : F).val ≤ (c.period : F).val ↔ 0.65 ≤ c.period := by
    have : ((0.65 : ℚ) : ℝ) = 0.65 := by norm_num
    simp only [fsimp]
    rw [← Rat.cast_le (K := ℝ), this]
  have e1 : maskLe 0.65 (c.period : F) = if 0.65 ≤ c.period then 1 else 0 := by
    rw [maskLe_of (by simp only [fsimp]) trivial]
    simp only [hq]
  simp only [siteTerm, fLin, fNl, f2, fDz1, e1]
  by_cases a : 0.65 ≤ c.period
  · simp only [a, if_true, where_one]
    cases i.z1 <;> rfl
  · simp only [a, if_false, where_zero]

/-- boore_stewart_seyhan_atkinson_2014.py lines 173-200 -/
theorem run_event (i : In) (hm : i.mag.ok) (args : String → Arr) (t : Tables) (ht : Loaded t) (e : Env) :
    let e' := vexec (rowwise .bssa14 table kernel) i t args (block ((bssa14Resp "" "" []).take 7)) e
    e' "event" = (table.map fun c => event c i.mag i.mech) ∧ e' "path" = (table.map fun c => path c i.mag i.jb i.reg) ∧
      e' "ln_resp_ref" = e "ln_resp_ref" := by
  refine ⟨?_, ?_, vexec_frame _ _ _ _ _ _ (by decide +kernel)⟩
  · unfold bssa14Resp
    simp only [List.take]
    rowrun [kernel]
    refine List.map_congr_left fun c _ => ?_
    have e1 : maskLe i.mag (c.M_h : F) = if i.mag.val ≤ c.M_h then 1 else 0 := maskLe_of hm trivial
    have e2 : ∀ x y : F, F.iteLe i.mag (c.M_h : F) x y = if i.mag.val ≤ c.M_h then x else y := fun x y => iteLe_of hm trivial x y
    simp only [event, event0, e1, e2]
    by_cases a : i.mag.val ≤ c.M_h
    · cases i.mech <;> simp only [a, if_true, where_one, decide_eq_true_eq, reduceCtorEq, if_false]
    · cases i.mech <;> simp only [a, if_true, where_zero, decide_eq_true_eq, reduceCtorEq, if_false]
  · unfold bssa14Resp
    simp only [List.take]
    rowrun [kernel, ht.dc_3ct, ht.dc_3ij, ht.dc_3global]
    refine List.map_congr_left fun c _ => ?_
    cases i.reg <;> simp only [path, dist, dc3, decide_eq_true_eq, reduceCtorEq, if_true, if_false] <;> rfl

/-- boore_stewart_seyhan_atkinson_2014.py lines 153-212, reference condition -/
theorem run_ref (i : In) (hm : i.mag.ok) (args : String → Arr) (t : Tables) (ht : Loaded t) (e : Env) :
    vexec (rowwise .bssa14 table kernel) i t args (block (bssa14Resp "" "ln_resp_ref" [])) e "ln_resp_ref" =
      table.map fun c => lnResp c i none := by
  have hs : bssa14Resp "" "ln_resp_ref" [] = (bssa14Resp "" "" []).take 7 ++ (bssa14Resp "" "ln_resp_ref" []).drop 7 := rfl
  rw [hs, vexec_block_append]
  obtain ⟨h1, h2, h3⟩ := run_event i hm args t ht e
  generalize vexec _ _ _ _ _ e = e1 at h1 h2 h3 ⊢
  unfold bssa14Resp
  simp only [List.drop]
  rowrun [kernel, h1, h2]
  rfl

/-- boore_stewart_seyhan_atkinson_2014.py lines 153-212 -/
theorem run_resp (i : In) (hm : i.mag.ok) (hp : (pgaRef i).ok) (args : String → Arr) (t : Tables) (ht : Loaded t) (e : Env)
    (he : e "ln_resp_ref" = table.map fun c => lnResp c i none) :
    vexec (rowwise .bssa14 table kernel) i t args (block (bssa14Resp " 2" "_ln_resp" ["ln_resp_ref"])) e "_ln_resp" =
      table.map fun c => lnResp c i (some (pgaRef i)) := by
  have hs : bssa14Resp " 2" "_ln_resp" ["ln_resp_ref"] = (bssa14Resp "" "" []).take 7 ++
      [Cmd.ite "bssa14:202 2" (.new "site" "bssa14:204" []) (block (bssa14Site ["ln_resp_ref"])),
       .new "_ln_resp" "bssa14:211" ["event", "path", "site"]] := rfl
  rw [hs, vexec_block_append]
  obtain ⟨h1, h2, h3⟩ := run_event i hm args t ht e
  generalize vexec _ _ _ _ _ e = e1 at h1 h2 h3 ⊢
  have h4 := run_site i args t e1 _ (h3.trans he)
  have h5 : vexec (rowwise .bssa14 table kernel) i t args (block (bssa14Site ["ln_resp_ref"])) e1 "event" = _ :=
    (vexec_frame _ _ _ _ _ _ (by decide +kernel)).trans h1
  have h6 : vexec (rowwise .bssa14 table kernel) i t args (block (bssa14Site ["ln_resp_ref"])) e1 "path" = _ :=
    (vexec_frame _ _ _ _ _ _ (by decide +kernel)).trans h2
  have ht2 : (rowwise .bssa14 table kernel).test "bssa14:202 2" i args = false := by
    simp only [rowwise, kernel, String.reduceEq, reduceIte, hp, not_true_eq_false, decide_false]
  change vexec _ _ _ _ (.seq (.ite _ _ _) (.seq _ .skip)) e1 "_ln_resp" = _
  simp only [vexec, ht2, Bool.false_eq_true, if_false]
  generalize vexec _ _ _ _ _ e1 = e2 at h4 h5 h6 ⊢
  rowrun [kernel, h4, h5, h6]
  rfl

/-- boore_stewart_seyhan_atkinson_2014.py lines 116-125, 274-302 -/
theorem run (i : In) (hm : i.mag.ok) (hp : (pgaRef i).ok) (args : String → Arr) (t : Tables) (ht : Loaded t) :
    Accessed .bssa14 (out i).gmm (call (rowwise .bssa14 table kernel).toMeaning bssa14 i args t).values := by
  refine accessed_of _ _ _ _ _ (by decide +kernel) (by decide +kernel) (by decide +kernel) _ args t _ _ ?_ ?_
  all_goals
    rw [List.append_assoc, vexec_block_append]
    have h1 := run_ref i hm args t ht noVars
    generalize vexec _ _ _ _ _ noVars = e1 at h1 ⊢
    rw [vexec_block_append]
    have h2 := run_resp i hm hp args t ht e1 h1
    generalize vexec _ _ _ _ _ e1 = e2 at h2 ⊢
  · rw [vexec_frame _ _ _ _ _ _ (by decide +kernel), h2]
  · rowrun [kernel]
    rfl

end BSSA14

/-- Boore, Stewart, Seyhan & Atkinson (2014) -/
theorem C124_bssa14 (s : Scenario) (g : BSSA14.Given) (h : BSSA14.Source s g) (args : String → Arr) (t : Tables)
    (ht : BSSA14.Loaded t) :
    ∃ o, Gives BSSA14.cls s o ∧
      Accessed .bssa14 o.gmm (call (rowwise .bssa14 BSSA14.table BSSA14.kernel).toMeaning bssa14
        (g.toIn (BSSA14.mechOf (s.get "mechanism")) (BSSA14.regOf (s.get "region"))) args t).values :=
  ⟨_, BSSA14.gives h, BSSA14.run _ trivial (BSSA14.pgaRef_facts _ _ _).1 args t ht⟩

example : ∃ o, Gives BSSA14.cls (BSSA14.exS BSSA14.exG "japan") o ∧
    Accessed .bssa14 o.gmm (call (rowwise .bssa14 BSSA14.table BSSA14.kernel).toMeaning bssa14
      (BSSA14.exG.toIn (BSSA14.mechOf ((BSSA14.exS BSSA14.exG "japan").get "mechanism"))
        (BSSA14.regOf ((BSSA14.exS BSSA14.exG "japan").get "region"))) (fun _ => []) BSSA14.exTables).values :=
  C124_bssa14 _ _ (BSSA14.ex_source _ _) _ _ BSSA14.ex_loaded
