import Verif.Models.RowKernels10
import Verif.Props.RowPrograms7
import Verif.Props.BA19

/-! # C124, continued: Bayless & Abrahamson (2019) -/

set_option linter.unusedSimpArgs false
set_option maxHeartbeats 1000000

open Arrays Classical

namespace BA19

theorem fillAfterMin_eq (a : Arr) : fillAfterMin a = flatten a := by
  unfold fillAfterMin flatten
  congr 1
  funext k x
  by_cases h : k ≤ argmin a
  · rw [if_pos h, if_neg (not_lt.2 h)]
  · rw [if_neg h, if_pos (not_le.1 h)]

theorem convolveSame_eq (a : Arr) : convolveSame a (List.replicate 7 (1 / 7)) = smooth a := by
  unfold convolveSame smooth
  refine List.map_congr_left fun k _ => ?_
  congr 1

/-- lines 156-162 -/
theorem run_shape (a : Arr) : fillTail (argmin a) (convolveSame (fillAfterMin a) (List.replicate 7 (1 / 7))) = shape a := by
  rw [fillAfterMin_eq, convolveSame_eq]
  unfold fillTail shape
  dsimp only
  congr 1
  funext k x
  have hl : (smooth (flatten a)).length = a.length := by rw [smooth_length, flatten_length]
  rw [hl]
  by_cases h : k + 7 < a.length
  · rw [if_pos h, if_neg (by omega)]
  · rw [if_neg h, if_pos (by omega)]

theorem usable_freqs : (usable.map (·.freq_hz)).Nodup := by decide +kernel

/-- lines 97-121 -/
theorem run_base (s : In) (args : String → Arr) (t : Tables)
    (ht : t "BaylessAbrahamson2019.c10" = usable.map fun c => co c.c10) (e : Env) :
    vexec meaning s t args (block
      [.new "f_M" "ba19:97" [], .new "f_P" "ba19:103" [], .new "f_Ztor" "ba19:110" [],
       .ite "ba19:112" (.bind "f_NM" (.column "BaylessAbrahamson2019.c10")) (.new "f_NM" "ba19:112" []),
       .new "c11" "ba19:114" [], .new "f_Z1" "ba19:117" ["c11"], .new "ln_eas" "ba19:121" ["f_M", "f_P", "f_Ztor", "f_NM", "f_Z1"]]) e "ln_eas" =
      usable.map fun c => lnBase c s s.v s.z1 := by
  rowrun [meaning, formula, perRow, ht]
  refine List.map_congr_left fun c _ => ?_
  simp only [lnBase, fM, fP, fTorNM, fZ1, c11, add_assoc_F]

/-- lines 141-164 -/
theorem run_site (s : In) (args : String → Arr) (t : Tables) (e : Env) (he : e "ln_eas_ref" = [lnRef s]) (y : Row → F)
    (hy : usable.map y = fNl s.v (lnRef s)) :
    vexec meaning s t args (block
      [.new "f_sl" "ba19:144" ["ln_eas_ref"], .new "f2" "ba19:146" [], .new "f_nl" "ba19:151" ["f2", "ln_eas_ref"],
       .write "f_nl" "ba19:157" ["f_nl"], .new "kernel" "ba19:159" [], .new "f_nl" "ba19:160" ["f_nl", "kernel"],
       .write "f_nl" "ba19:162" ["f_nl"], .new "f_s" "ba19:164" ["f_sl", "f_nl"]]) e "f_s" =
      usable.map fun c => fSl c s.v + y c := by
  have p1 : ∀ (k : Row → (ℕ → F) → F) (a : Row → F) (b : Arr), (∀ c u w, (u 0 = w 0) → k c u = k c w) →
      pw usable k [usable.map a, b] = usable.map fun c => k c fun n => [a c].getD n F.nan := by
    intro k a b hk
    rw [← pw1]
    simp only [pw]
    refine List.map_congr_left fun p _ => ?_
    exact hk _ _ _ rfl
  have p0 : ∀ (k : Row → F) (b : Arr), pw usable (fun c _ => k c) [b] = usable.map k := by
    intro k b
    have := pw0 usable fun c _ => k c
    simpa only [pw] using this
  have h151 : formula "ba19:151" s [formula "ba19:146" s [], [lnRef s]] = usable.map (nlRaw s.v (lnRef s)) := by
    simp only [formula, perRow, String.reduceEq, ↓reduceIte, pw0, List.getD_cons_zero, List.getD_cons_succ]
    rw [p1 _ _ _ (by intro c u w h; simp only [h])]
    rfl
  have h162 : formula "ba19:162" s [formula "ba19:160" s [formula "ba19:157" s [usable.map (nlRaw s.v (lnRef s))],
      formula "ba19:159" s []]] = usable.map y := by
    rw [hy]
    simp only [formula, String.reduceEq, ↓reduceIte, List.getD_cons_zero, List.getD_cons_succ]
    rw [run_shape]
    rfl
  have h144 : ∀ b, formula "ba19:144" s [b] = usable.map fun c => fSl c s.v := by
    intro b
    simp only [formula, perRow, String.reduceEq, ↓reduceIte, p0]
    rfl
  have h164 : formula "ba19:164" s [usable.map fun c => fSl c s.v, usable.map y] = usable.map fun c => fSl c s.v + y c := by
    simp only [formula, perRow, String.reduceEq, ↓reduceIte, pw2, List.getD_cons_zero, List.getD_cons_succ]
  rowrun [meaning, he, h151, h162, h144, h164]

/-- bayless_abrahamson_2019.py lines 48-181 -/
theorem run (s : In) (args : String → Arr) (t : Tables) (ht : t "BaylessAbrahamson2019.c10" = usable.map fun c => co c.c10) :
    (call meaning.toMeaning ba19 s args t).values = some [(out s).lnEas.map F.exp, (out s).lnEas, (out s).lnStd] := by
  obtain ⟨y, hy⟩ := column_of usable (·.freq_hz) usable_freqs (fNl s.v (lnRef s)) (by rw [fNl, shape_length, List.length_map])
  unfold Outcome.values
  rw [(call_eq meaning ba19 (by decide +kernel) s args t).2.2]
  have hu : lnUsable s = usable.map fun c => lnBase c s s.v s.z1 + (fSl c s.v + y c) := by
    unfold lnUsable
    rw [← hy, List.zipWith_map_right, List.zipWith_self]
  have heas : vexec meaning s t args (block (ba19Ref ++ ba19Eas)) noVars "_ln_eas" = lnEas s := by
    rw [vexec_block_append]
    have e1 : vexec meaning s t args (block ba19Ref) noVars "ln_eas_ref" = [lnRef s] := by
      unfold ba19Ref
      rowrun [meaning, formula]
    generalize vexec meaning s t args (block ba19Ref) noVars = e at e1 ⊢
    change vexec _ _ _ _ (block ([_, _, _, _, _, _, _] ++ ([_, _, _, _, _, _, _, _] ++ [_, _, _]))) _ _ = _
    rw [vexec_block_append]
    have e2 := run_base s args t ht e
    have e3 : vexec meaning s t args (block
      [.new "f_M" "ba19:97" [], .new "f_P" "ba19:103" [], .new "f_Ztor" "ba19:110" [],
       .ite "ba19:112" (.bind "f_NM" (.column "BaylessAbrahamson2019.c10")) (.new "f_NM" "ba19:112" []),
       .new "c11" "ba19:114" [], .new "f_Z1" "ba19:117" ["c11"], .new "ln_eas" "ba19:121" ["f_M", "f_P", "f_Ztor", "f_NM", "f_Z1"]]) e "ln_eas_ref" =
      [lnRef s] := (vexec_frame _ _ _ _ _ _ (by decide +kernel)).trans e1
    generalize vexec _ _ _ _ _ e = e' at e2 e3 ⊢
    rw [vexec_block_append]
    have e4 := run_site s args t e' e3 y hy
    have e5 : vexec meaning s t args (block
      [.new "f_sl" "ba19:144" ["ln_eas_ref"], .new "f2" "ba19:146" [], .new "f_nl" "ba19:151" ["f2", "ln_eas_ref"],
       .write "f_nl" "ba19:157" ["f_nl"], .new "kernel" "ba19:159" [], .new "f_nl" "ba19:160" ["f_nl", "kernel"],
       .write "f_nl" "ba19:162" ["f_nl"], .new "f_s" "ba19:164" ["f_sl", "f_nl"]]) e' "ln_eas" =
      usable.map fun c => lnBase c s s.v s.z1 := (vexec_frame _ _ _ _ _ _ (by decide +kernel)).trans e2
    generalize vexec _ _ _ _ _ e' = e'' at e4 e5 ⊢
    have h125 : formula "ba19:125" s [usable.map fun c => lnBase c s s.v s.z1, usable.map fun c => fSl c s.v + y c] = lnUsable s := by
      rw [hu]
      simp only [formula, perRow, String.reduceEq, ↓reduceIte, pw2, List.getD_cons_zero, List.getD_cons_succ]
    rowrun [meaning, e4, e5, h125]
    simp only [formula, String.reduceEq, ↓reduceIte, List.getD_cons_zero, List.getD_cons_succ, List.map_map]
    rfl
  change some (List.map (vexec meaning s t args (block ((ba19Ref ++ ba19Eas) ++ [_, _, _, _, _, _, _])) noVars) ["eas", "ln_eas", "ln_std"]) = _
  rw [vexec_block_append]
  generalize vexec _ _ _ _ _ noVars = e at heas ⊢
  have hstd : formula "ba19:180" s [formula "ba19:176" s [], formula "ba19:177" s [], formula "ba19:178" s []] = table.map (lnStd s.mag) := by
    simp only [formula, String.reduceEq, ↓reduceIte, pw3, List.getD_cons_zero, List.getD_cons_succ]
    rfl
  rowrun [meaning, heas, hstd]
  rfl

end BA19

/-- Bayless & Abrahamson (2019): `eas`, `ln_eas` and `ln_std` of an instance -/
theorem C124_ba19 (s : Scenario) (g : BA19.Given) (h : BA19.Source s g) (args : String → Arr) (t : Tables)
    (ht : t "BaylessAbrahamson2019.c10" = BA19.usable.map fun c => BA19.co c.c10) :
    ∃ o, Gives BA19.cls s o ∧
      (call BA19.meaning.toMeaning ba19 (g.toIn ((s.get "mechanism").isStr "NS")) args t).values =
        some [o.lnEas.map F.exp, o.lnEas, o.lnStd] :=
  ⟨_, BA19.gives h, BA19.run _ args t ht⟩

/-- a normal-faulting event at 500 m/s -/
example : ∃ o, Gives BA19.cls ⟨[("mag", .num 6.5), ("dist_rup", .num 20), ("v_s30", .num 500), ("depth_tor", .num 2),
      ("depth_1_0", .num 0.1), ("mechanism", .str "NS")], []⟩ o ∧
    (call BA19.meaning.toMeaning ba19 (BA19.Given.toIn ⟨20, 6.5, 500, 2, some 0.1⟩ true) (fun _ => [])
      (fun _ => BA19.usable.map fun c => BA19.co c.c10)).values = some [o.lnEas.map F.exp, o.lnEas, o.lnStd] := by
  obtain ⟨o, h1, h2⟩ := C124_ba19 ⟨[("mag", .num 6.5), ("dist_rup", .num 20), ("v_s30", .num 500), ("depth_tor", .num 2),
      ("depth_1_0", .num 0.1), ("mechanism", .str "NS")], []⟩ ⟨20, 6.5, 500, 2, some 0.1⟩ ⟨rfl, rfl, rfl, rfl, rfl⟩ (fun _ => [])
      (fun _ => BA19.usable.map fun c => BA19.co c.c10) rfl
  refine ⟨o, h1, ?_⟩
  rwa [show ((⟨[("mag", .num 6.5), ("dist_rup", .num 20), ("v_s30", .num 500), ("depth_tor", .num 2),
      ("depth_1_0", .num 0.1), ("mechanism", .str "NS")], []⟩ : Scenario).get "mechanism").isStr "NS" = true by
    change (Val.str "NS").isStr "NS" = true; simp] at h2
