import Verif.Models.RowKernels7
import Verif.Models.SiteTerms
import Verif.Props.RowPrograms2
import Verif.Props.RowPrograms3

/-! # C124, continued: Gülerce & Abrahamson (2011), `calc_site_term` of two models -/

set_option linter.unusedSimpArgs false
set_option maxHeartbeats 1000000

open Arrays Classical

/-- Gülerce & Abrahamson (2011): `ratio` and `ln_std` of an instance -/
theorem C124_ga11 (s : Scenario) {m r v p : ℝ} {t : String} (hm : s.get "mag" = .num m)
    (hr : s.get "dist_rup" = .num r) (hv : s.get "v_s30" = .num v) (hp : s.get "pga_ref" = .num p)
    (ht : s.get "mechanism" = .str t) (args : String → Arr) (tab : Tables) :
    ∃ o, Gives GA11.cls s o ∧
      (call (rowsOnly GA11.table GA11.kernel).toMeaning ga11
        ⟨F.ofReal m, F.ofReal r, F.ofReal v, F.ofReal p, GA11.mechFor t⟩ args tab).values = some [o.lnRatio.map F.exp, o.lnStd] := by
  refine ⟨_, GA11.gives s hm hr hv hp ht, ?_⟩
  unfold Outcome.values
  rw [(call_eq (rowsOnly GA11.table GA11.kernel) ga11 (by decide +kernel) _ args tab).2.2]
  unfold ga11
  simp only [List.map_cons, List.map_nil]
  rowrun [rowsOnly, GA11.kernel]
  refine congrArg some ?_
  simp only [GA11.out, List.map_map, List.cons.injEq, and_true]
  constructor
  · refine List.map_congr_left fun c _ => ?_
    simp only [Function.comp, GA11.lnRatio, GA11.f1, GA11.f5, GA11.fMech, decide_eq_true_eq]
    cases GA11.mechFor t <;> simp [add_zero_F]
  · refine List.map_congr_left fun c _ => ?_
    simp only [GA11.lnStd, GA11.stdPart]

/-- an array with one entry per row is a column, if the rows have different keys -/
theorem column_of {Row : Type} (rows : List Row) (key : Row → ℚ) (hn : (rows.map key).Nodup) (a : Arr) (hl : a.length = rows.length) :
    ∃ y : Row → F, rows.map y = a := by
  refine ⟨fun c => a.getD ((rows.map key).idxOf (key c)) F.nan, ?_⟩
  apply List.ext_getElem
  · simp [hl]
  · intro j h1 h2
    have h3 : j < (rows.map key).length := by simpa using h1
    have h4 : (rows.map key).idxOf (key rows[j]) = j := by
      have := hn.idxOf_getElem j h3
      simpa using this
    simp only [List.getElem_map, h4]
    simp [h2]

/-- `calc_site_term` of Abrahamson et al. (2014), called with any reference motion of the table's length -/
theorem C124_ask14_site (i : ASK14.In) (hv : i.v.ok) (resp : List F) (hl : resp.length = 24) (region : Val)
    (hreg : region.isStr "japan" = decide (i.reg = .japan)) (args : String → Arr) (ha : args "resp_ref" = resp) (t : Tables) :
    ∃ y, ASK14.calcSiteTermOf resp i.v i.z1 region = pure y ∧
      (call (rowwise .ask14 ASK14.table ASK14.kernel).toMeaning ask14SiteTerm i args t).values = some [y] := by
  have hlt : ASK14.table.length = 24 := by decide +kernel
  obtain ⟨y, hy⟩ := column_of ASK14.table (·.period) (by decide +kernel) resp (by rw [hl, hlt])
  refine ⟨ASK14.table.map fun c => ASK14.siteTerm c (y c) i.v i.z1 (decide (i.reg = .japan)), ?_, ?_⟩
  · unfold ASK14.calcSiteTermOf broadcast
    rw [if_pos (by rw [hl, hlt]), Py.pure_bind', hreg, ← hy, List.zipWith_map_right, List.zipWith_self]
  · unfold Outcome.values
    rw [(call_eq (rowwise .ask14 ASK14.table ASK14.kernel) ask14SiteTerm (by decide +kernel) _ args t).2.2]
    unfold ask14SiteTerm
    simp only [List.map_cons, List.map_nil]
    rw [vexec_block_append]
    rw [ASK14.run_site2 i hv args t _ y (by rowrun [ha, hy])]

/-- `calc_site_term` of Chiou & Youngs (2014) -/
theorem C124_cy14_site (i : CY14.In) (resp : List F) (hl : resp.length = 26) (region : Val)
    (hreg : region.isStr "japan" = decide (i.reg = .japan)) (args : String → Arr) (ha : args "resp_ref" = resp) (t : Tables)
    (ht : CY14.Loaded t) :
    ∃ y, CY14.calcSiteTermOf resp i.v (some i.z1) region = pure y ∧
      (call (rowwise .cy14 CY14.table CY14.kernel).toMeaning cy14SiteTerm i args t).values = some [y] := by
  have hlt : CY14.table.length = 26 := by decide +kernel
  obtain ⟨y, hy⟩ := column_of CY14.table (·.period) (by decide +kernel) resp (by rw [hl, hlt])
  refine ⟨CY14.table.map fun c => CY14.siteTerm c (y c) i.v i.z1 (decide (i.reg = .japan)), ?_, ?_⟩
  · unfold CY14.calcSiteTermOf broadcast CY14.calcSiteTerm
    rw [if_pos (by rw [hl, hlt]), Py.pure_bind', hreg, ← hy]
    dsimp only
    rw [List.zipWith_map_right, List.zipWith_self]
  · unfold Outcome.values
    rw [(call_eq (rowwise .cy14 CY14.table CY14.kernel) cy14SiteTerm (by decide +kernel) _ args t).2.2]
    unfold cy14SiteTerm
    simp only [List.map_cons, List.map_nil]
    rw [vexec_block_append]
    rw [CY14.run_site i args t ht _ y (by rowrun [ha, hy])]

/-- a reverse event at 700 m/s -/
example : ∃ o, Gives GA11.cls ⟨[("mag", .num 6.5), ("dist_rup", .num 20), ("v_s30", .num 700), ("pga_ref", .num 0.2),
      ("mechanism", .str "RS")], []⟩ o ∧
    (call (rowsOnly GA11.table GA11.kernel).toMeaning ga11
      ⟨F.ofReal 6.5, F.ofReal 20, F.ofReal 700, F.ofReal 0.2, GA11.mechFor "RS"⟩ (fun _ => []) (fun _ => [])).values =
      some [o.lnRatio.map F.exp, o.lnStd] :=
  C124_ga11 _ rfl rfl rfl rfl rfl _ _

/-- a Japanese site with a measured basin, reference motion 0.1 g at every period -/
example : let i : CY14.In := ⟨F.ofReal 7, F.ofReal 20, F.ofReal 20, F.ofReal 20, F.ofReal 90, F.ofReal 0, F.ofReal 0.2, F.ofReal 0,
      F.ofReal 300, .other, .japan, false, false⟩
    ∃ y, CY14.calcSiteTermOf (List.replicate 26 (F.ofReal 0.1)) i.v (some i.z1) (.str "japan") = pure y ∧
      (call (rowwise .cy14 CY14.table CY14.kernel).toMeaning cy14SiteTerm i
        (fun _ => List.replicate 26 (F.ofReal 0.1)) CY14.exTables).values = some [y] := by
  intro i
  exact C124_cy14_site i _ List.length_replicate _ (by simp [Val.isStr, i]) _ rfl _ CY14.ex_loaded

/-- the same for Abrahamson et al. (2014) -/
example : let i : ASK14.In := ⟨F.ofReal 7, F.ofReal 20, F.ofReal 20, F.ofReal 20, none, F.ofReal 90, F.ofReal 10, F.ofReal 0,
      some (F.ofReal 0.2), F.ofReal 15, F.ofReal 300, .other, .japan, false, false, false⟩
    ∃ y, ASK14.calcSiteTermOf (List.replicate 24 (F.ofReal 0.1)) i.v i.z1 (.str "japan") = pure y ∧
      (call (rowwise .ask14 ASK14.table ASK14.kernel).toMeaning ask14SiteTerm i
        (fun _ => List.replicate 24 (F.ofReal 0.1)) (fun _ => [])).values = some [y] := by
  intro i
  exact C124_ask14_site i trivial _ List.length_replicate _ (by simp [Val.isStr, i]) _ rfl _
