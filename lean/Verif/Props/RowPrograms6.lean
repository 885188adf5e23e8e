import Verif.Models.RowKernels6
import Verif.Props.AGA16

/-! # C124, continued: Abrahamson, Gregor & Addo (2016), Coppersmith & Bommer (2014) -/

set_option linter.unusedSimpArgs false
set_option maxHeartbeats 1000000

open Arrays Classical

namespace AGA16

/-- abrahamson_gregor_addo_2016.py lines 66-83 -/
theorem run_adjust {a : Adjust} {adj : List F} {ev : Ev} (ha : adjust (table.map (·.period)) ev a = pure adj) (i : In)
    (hi : i.ev = ev) (args : String → Arr) (hargs : ∀ l, a = .array l → args "adjust_c1" = l.map F.ofReal) (t : Tables) (e : Env) :
    vexec (rowwise .aga16 (table.zip adj) kernel) (a, i) t args (block aga16Adjust) e "_adjust_c1" =
      (table.zip adj).map Prod.snd := by
  have hl := (adjust_ok ha).1
  have hs : (table.zip adj).map Prod.snd = adj := List.map_snd_zip (by rw [hl]; decide +kernel)
  have hf : ∀ f : Row → F, ((table.zip adj).map fun p => f p.1) = table.map f := by
    intro f
    have : ((table.zip adj).map Prod.fst) = table := List.map_fst_zip (by rw [hl]; decide +kernel)
    conv_rhs => rw [← this, List.map_map]
    rfl
  rw [hs]
  have hinj : ∀ {x y : List F}, (pure x : Py (List F)) = pure y → x = y := by
    intro x y hxy
    have := congrArg Py.res hxy
    simpa using this
  cases a with
  | default =>
    have ha := hinj ha
    have e1 : vexec (rowwise .aga16 (table.zip adj) kernel) (.default, i) t args (block aga16Adjust) e "_adjust_c1" =
        if ev = .intraslab then (table.zip adj).map (fun p => (fun _ => (-0.3 : F)) p.1)
        else (table.zip adj).map (fun p => (fun c : Row => adjustInterface c.period) p.1) := by
      unfold aga16Adjust
      rowrun [kernel, hi]
      by_cases h : ev = .intraslab <;> simp only [h, decide_true, decide_false, if_true, if_false, Bool.false_eq_true]
    rw [e1, hf fun _ => (-0.3 : F), hf fun c => adjustInterface c.period]
    conv_rhs => rw [← ha, List.map_map, List.map_map]
    rfl
  | scalar x =>
    have ha := hinj ha
    have e1 : vexec (rowwise .aga16 (table.zip adj) kernel) (.scalar x, i) t args (block aga16Adjust) e "_adjust_c1" =
        (table.zip adj).map (fun p => (fun _ => F.ofReal x) p.1) := by
      unfold aga16Adjust
      rowrun [kernel, hi, Bool.false_eq_true]
    rw [e1, hf fun _ => F.ofReal x]
    conv_rhs => rw [← ha, List.map_map]
    rfl
  | array l =>
    have ha' : adj = l.map F.ofReal := by
      change (if l.length = (table.map (·.period)).length then pure (l.map F.ofReal) else Py.raise (.valueError "broadcast")) = _ at ha
      split at ha
      · exact (hinj ha).symm
      · have := congrArg Py.res ha
        cases this
    unfold aga16Adjust
    rowrun [kernel, hi, hargs l rfl, Bool.false_eq_true]
    exact ha'.symm

/-- abrahamson_gregor_addo_2016.py lines 101-142, reference condition -/
theorem run_ref (a : Adjust) (adj : List F) (i : In) (args : String → Arr) (t : Tables) (e : Env)
    (he : e "_adjust_c1" = (table.zip adj).map Prod.snd) :
    vexec (rowwise .aga16 (table.zip adj) kernel) (a, i) t args (block (aga16Resp "" "ln_resp_ref" [])) e "ln_resp_ref" =
      (table.zip adj).map fun p => lnResp p.1 p.2 i none := by
  unfold aga16Resp
  rowrun [kernel, he]
  refine List.map_congr_left fun p _ => ?_
  unfold lnResp
  simp only [decide_eq_true_eq]
  by_cases h1 : i.backarc = true <;> by_cases h2 : i.ev = .intraslab <;>
    simp only [h1, h2, if_true, if_false, add_zero_F, Bool.false_eq_true]

/-- abrahamson_gregor_addo_2016.py lines 101-142 -/
theorem run_resp (a : Adjust) (adj : List F) (i : In) (args : String → Arr) (t : Tables) (e : Env)
    (he : e "_adjust_c1" = (table.zip adj).map Prod.snd) (hp : (pgaRef adj i).ok)
    (hr : e "ln_resp_ref" = (table.zip adj).map fun p => lnResp p.1 p.2 i none) :
    vexec (rowwise .aga16 (table.zip adj) kernel) (a, i) t args (block (aga16Resp " 2" "_ln_resp" ["ln_resp_ref"])) e "_ln_resp" =
      (table.zip adj).map fun p => lnResp p.1 p.2 i (some (pgaRef adj i)) := by
  have hz : F.exp (((table.zip adj).map fun p => lnResp p.1 p.2 i none).getD 0 F.nan) = pgaRef adj i := by
    unfold pgaRef
    rw [← List.map_uncurry_zip_eq_zipWith]
    rfl
  unfold aga16Resp
  rowrun [kernel, he, hr, hz, hp]
  refine List.map_congr_left fun p _ => ?_
  unfold lnResp
  simp only [decide_eq_true_eq]
  by_cases h1 : i.backarc = true <;> by_cases h2 : i.ev = .intraslab <;>
    simp only [h1, h2, if_true, if_false, add_zero_F, Bool.false_eq_true]

/-- abrahamson_gregor_addo_2016.py lines 55-87 -/
theorem run {a : Adjust} {adj : List F} {ev : Ev} (ha : adjust (table.map (·.period)) ev a = pure adj) (i : In)
    (hi : i.ev = ev) (hp : (pgaRef adj i).ok) (args : String → Arr)
    (hargs : ∀ l, a = .array l → args "adjust_c1" = l.map F.ofReal) (t : Tables) :
    Accessed .aga16 (out adj i) (call (rowwise .aga16 (table.zip adj) kernel).toMeaning aga16 (a, i) args t).values := by
  have hl := (adjust_ok ha).1
  have hlt : table.length = 23 := by decide +kernel
  have e : out adj i = ⟨(table.zip adj).map fun p => lnResp p.1 p.2 i (some (pgaRef adj i)),
      some ((table.zip adj).map fun p => lnStd p.1)⟩ := by
    have h1 : List.zipWith (fun c a => lnResp c a i (some (pgaRef adj i))) table adj =
        (table.zip adj).map fun p => lnResp p.1 p.2 i (some (pgaRef adj i)) :=
      List.map_uncurry_zip_eq_zipWith.symm
    have h2 : ((table.zip adj).map fun p => lnStd p.1) = table.map lnStd := by
      have : ((table.zip adj).map Prod.fst) = table := List.map_fst_zip (by rw [hl, hlt])
      conv_rhs => rw [← this, List.map_map]
      rfl
    rw [h2, ← h1]
    rfl
  rw [e]
  have hlen : (table.zip adj).length = GmmClass.aga16.periods.length := by
    rw [List.length_zip, hl, hlt]; decide +kernel
  refine accessed_of _ _ _ _ _ (by decide +kernel) (by decide +kernel) hlen _ args t _ _ ?_ ?_
  all_goals
    rw [List.append_assoc, List.append_assoc, vexec_block_append]
    have h1 := run_adjust ha i hi args hargs t noVars
    generalize vexec _ _ _ _ _ noVars = e1 at h1 ⊢
    rw [vexec_block_append]
    have h2 := run_ref a adj i args t e1 h1
    have h3 : vexec (rowwise .aga16 (table.zip adj) kernel) (a, i) t args (block (aga16Resp "" "ln_resp_ref" [])) e1 "_adjust_c1" = _ :=
      (vexec_frame _ _ _ _ _ _ (by decide +kernel)).trans h1
    generalize vexec _ _ _ _ _ e1 = e2 at h2 h3 ⊢
    rw [vexec_block_append]
    have h4 := run_resp a adj i args t e2 h3 hp h2
    generalize vexec _ _ _ _ _ e2 = e3 at h4 ⊢
  · rw [vexec_frame _ _ _ _ _ _ (by decide +kernel), h4]
  · rowrun [kernel, lnStd]

end AGA16

/-- Abrahamson, Gregor & Addo (2016), constructed with any adjustments (none, a number, or an array) -/
theorem C124_aga16 (s : Scenario) (m v d z0 : ℝ) (e : String) (r : Option String) (rup hyp z : Option ℝ) (a : AGA16.Adjust)
    (c4 sc : ℝ) (adj : List F) (hd0 : 0 ≤ d) (h : AGA16.Source s m v e r rup hyp z)
    (hd : (if AGA16.evFor e = .intraslab then hyp else rup) = some d) (hz : AGA16.evFor e = .intraslab → z = some z0)
    (hev : r = some "backarc" → AGA16.evFor e ≠ .other)
    (ha : AGA16.adjust (AGA16.table.map (·.period)) (AGA16.evFor e) a = pure adj) (args : String → Arr)
    (hargs : ∀ l, a = .array l → args "adjust_c1" = l.map F.ofReal) (t : Tables) :
    ∃ o, Gives (AGA16.cls a c4 sc) s o ∧
      Accessed .aga16 o.gmm (call (rowwise .aga16 (AGA16.table.zip adj) AGA16.kernel).toMeaning aga16
        (a, AGA16.input m v d e r z0 sc) args t).values := by
  obtain ⟨hl, hok⟩ := AGA16.adjust_ok ha
  obtain ⟨y0, hy0, hy⟩ := AGA16.ref_ok hl hok m v hd0 e r z0 sc
  exact ⟨_, AGA16.gives h hd hz hev c4 sc ha, AGA16.run ha _ rfl (by rw [hy, F.ok_exp]; exact hy0) args hargs t⟩

namespace CoppersmithBommer

/-- coppersmith_bommer_2014.py lines 51-113 -/
theorem run (i : In) (hp : (pgaRef (adj i.ev) i.mag i.dist i.vs30 i.scale).ok) (args : String → Arr) (t : Tables) :
    Accessed .coppersmith (out (adj i.ev) i.mag i.dist i.vs30 i.scale)
      (call (rowwise .coppersmith table kernel).toMeaning coppersmith i args t).values := by
  have ea : adj i.ev = table.map fun c => if i.ev = .intraslab then -0.3 else AGA16.adjustInterface c.period := by
    unfold adj
    by_cases h : i.ev = .intraslab
    · simp only [h, if_true, List.map_map]; rfl
    · simp only [h, if_false, List.map_map]; rfl
  have hz : ∀ f : Row → F → F, List.zipWith f table (adj i.ev) =
      table.map fun c => f c (if i.ev = .intraslab then -0.3 else AGA16.adjustInterface c.period) := by
    intro f
    rw [ea, List.zipWith_map_right, List.zipWith_self]
  have e : out (adj i.ev) i.mag i.dist i.vs30 i.scale =
      ⟨table.map fun c => lnResp c (if i.ev = .intraslab then -0.3 else AGA16.adjustInterface c.period) i.mag i.dist i.vs30 i.scale
        (some (pgaRef (adj i.ev) i.mag i.dist i.vs30 i.scale)),
       some (table.map fun c => F.sqrt ((c.phi : F) ^ 2 + (c.tau : F) ^ 2))⟩ := by
    unfold out
    rw [hz]
  rw [e]
  have hp' : F.exp ((table.map fun c => lnResp c (if i.ev = .intraslab then -0.3 else AGA16.adjustInterface c.period)
      i.mag i.dist i.vs30 i.scale none).getD 0 F.nan) = pgaRef (adj i.ev) i.mag i.dist i.vs30 i.scale := by
    unfold pgaRef
    rw [hz]
  generalize pgaRef (adj i.ev) i.mag i.dist i.vs30 i.scale = p at hp hp' ⊢
  refine accessed_of _ _ _ _ _ (by decide +kernel) (by decide +kernel) (by decide +kernel) _ args t _ _ ?_ ?_
  all_goals
    rw [vexec_block_append]
    have h1 : vexec (rowwise .coppersmith table kernel) i t args (block aga16Adjust) noVars "_adjust_c1" =
        table.map fun c => if i.ev = .intraslab then -0.3 else AGA16.adjustInterface c.period := by
      unfold aga16Adjust
      rowrun [kernel, Bool.false_eq_true]
      simp only [decide_eq_true_eq]
    generalize vexec _ _ _ _ _ noVars = e1 at h1 ⊢
  · have h2 : vexec (rowwise .coppersmith table kernel) i t args (block
        [.new "ln_resp_ref" "coppersmith_bommer_2014.py:81" ["_adjust_c1"],
         .new "_ln_resp" "coppersmith_bommer_2014.py:81 2" ["_adjust_c1", "ln_resp_ref"], .new "_ln_std" "aga16:259" []]) e1 "ln_resp_ref" =
        table.map fun c => lnResp c (if i.ev = .intraslab then -0.3 else AGA16.adjustInterface c.period) i.mag i.dist i.vs30 i.scale none := by
      rowrun [kernel, h1, lnResp]
    rowrun [kernel, h1]
    simp only [lnResp] at hp'
    simp only [hp', hp, if_true, lnResp]
  · rowrun [kernel]

end CoppersmithBommer

/-- Coppersmith & Bommer (2014) -/
theorem C124_coppersmith (s : Scenario) {m d v : ℝ} {e : String} (hm : s.get "mag" = .num m) (hd : s.get "dist_rup" = .num d)
    (hv : s.get "v_s30" = .num v) (he : s.get "event_type" = .str e) (hd0 : 0 ≤ d) (sc : ℝ) (args : String → Arr) (t : Tables) :
    ∃ o, Gives (CoppersmithBommer.cls sc) s o ∧
      Accessed .coppersmith o (call (rowwise .coppersmith CoppersmithBommer.table CoppersmithBommer.kernel).toMeaning coppersmith
        ⟨AGA16.evFor e, F.ofReal m, F.ofReal d, F.ofReal v, F.ofReal sc⟩ args t).values := by
  refine ⟨_, CoppersmithBommer.gives s hm hd hv he sc, CoppersmithBommer.run ⟨AGA16.evFor e, F.ofReal m, F.ofReal d, F.ofReal v, F.ofReal sc⟩ ?_ args t⟩
  obtain ⟨hl, hok⟩ := CoppersmithBommer.adj_ok (AGA16.evFor e)
  obtain ⟨r0, hr0, hh, hvl, -⟩ := CoppersmithBommer.head_eq
  change (CoppersmithBommer.pgaRef (CoppersmithBommer.adj (AGA16.evFor e)) (F.ofReal m) (F.ofReal d) (F.ofReal v) (F.ofReal sc)).ok
  match hadj : CoppersmithBommer.adj (AGA16.evFor e), hl with
  | a0 :: adj, hl' =>
    rw [hadj] at hok
    rw [CoppersmithBommer.pgaRef_eq hh, F.ok_exp]
    exact CoppersmithBommer.ref_ok hr0 hvl (hok _ (by simp)) m hd0 v sc

/-- an array of the caller, one number per row -/
example : ∃ o, Gives (AGA16.cls (.array (List.replicate 23 0.5)) 10 1) ⟨[("mag", .num 7), ("v_s30", .num 250),
    ("event_type", .str "intraslab"), ("tectonic_region", .str "backarc"), ("dist_hyp", .num 60), ("depth_hyp", .num 80)], []⟩ o ∧
    Accessed .aga16 o.gmm (call (rowwise .aga16 (AGA16.table.zip ((List.replicate 23 0.5).map F.ofReal)) AGA16.kernel).toMeaning aga16
      (.array (List.replicate 23 0.5), AGA16.input 7 250 60 "intraslab" (some "backarc") 80 1)
      (fun _ => (List.replicate 23 0.5).map F.ofReal) (fun _ => [])).values :=
  C124_aga16 _ 7 250 60 80 "intraslab" (some "backarc") none (some 60) (some 80) _ 10 1 _ (by norm_num)
    (AGA16.source_example 7 250 60) (if_pos (by decide)) (fun _ => rfl) (by decide)
    (show AGA16.adjust _ _ (.array _) = pure _ from if_pos (by rw [List.length_map, List.length_replicate]; decide +kernel)) _ (by rintro l h; injection h with h; rw [h]) _

example : ∃ o, Gives (CoppersmithBommer.cls 1) ⟨[("mag", .num 7), ("dist_rup", .num 80), ("v_s30", .num 400), ("event_type", .str "interface")], []⟩ o ∧
    Accessed .coppersmith o (call (rowwise .coppersmith CoppersmithBommer.table CoppersmithBommer.kernel).toMeaning coppersmith
      ⟨AGA16.evFor "interface", F.ofReal 7, F.ofReal 80, F.ofReal 400, F.ofReal 1⟩ (fun _ => []) (fun _ => [])).values :=
  C124_coppersmith _ rfl rfl rfl rfl (by norm_num) 1 _ _
