import Verif.Models.RowKernels3
import Verif.Props.ASK14

/-! # C124, continued: Abrahamson, Silva & Kamai (2014) -/

set_option linter.unusedSimpArgs false
set_option maxHeartbeats 1000000

open Arrays Classical

namespace ASK14

/-- abrahamson_silva_kamai_2014.py lines 343-379 -/
theorem run_f1 (i : In) (hm : i.mag.ok) (args : String → Arr) (t : Tables) (e : Env) :
    vexec (rowwise .ask14 table kernel) i t args (block ask14F1) e "f1" = table.map fun c => f1 c i.mag i.rup := by
  unfold ask14F1
  rowrun [kernel]
  refine List.map_congr_left fun c _ => ?_
  have e1 : maskLe i.mag (c.m2 : F) = if i.mag.val ≤ c.m2 then 1 else 0 := maskLe_of hm trivial
  have e2 : maskLe i.mag (c.m1 : F) = if i.mag.val ≤ c.m1 then 1 else 0 := maskLe_of hm trivial
  have e3 : maskLt (c.m1 : F) i.mag = if (c.m1 : ℝ) < i.mag.val then 1 else 0 := maskLt_of trivial hm
  have e4 : ∀ x y : F, F.iteLe i.mag (c.m2 : F) x y = if i.mag.val ≤ c.m2 then x else y := fun x y => iteLe_of hm trivial x y
  have e5 : ∀ x y : F, F.iteLe i.mag (c.m1 : F) x y = if i.mag.val ≤ c.m1 then x else y := fun x y => iteLe_of hm trivial x y
  simp only [f1, dist, e1, e2, e3, e4, e5]
  by_cases a : i.mag.val ≤ c.m2
  · simp only [a, if_true, where_one, where_zero]
  · by_cases b : i.mag.val ≤ c.m1
    · have b' : ¬ (c.m1 : ℝ) < i.mag.val := not_lt.2 b
      simp only [a, b, b', if_true, if_false, where_one, where_zero]
    · have b' : (c.m1 : ℝ) < i.mag.val := not_le.1 b
      simp only [a, b, b', if_true, if_false, where_one, where_zero]

/-- abrahamson_silva_kamai_2014.py lines 155-217, reference condition -/
theorem run_site1 (i : In) (args : String → Arr) (t : Tables) (e : Env) :
    vexec (rowwise .ask14 table kernel) i t args (block (ask14Site "" [])) e "site_term" =
      table.map fun c => siteTerm c F.nan vRef i.z1 (i.reg = .japan) := by
  unfold ask14Site
  rowrun [kernel, where_lt]
  refine List.map_congr_left fun c _ => ?_
  have h : f10 c vRef i.z1 (i.reg = .japan) = 0 := by
    unfold f10
    cases i.z1 with
    | none => rfl
    | some z => ext <;> simp [F.iteEq, vRef]
  simp only [siteTerm, h, f5, ratio, v1]
  rfl

/-- abrahamson_silva_kamai_2014.py lines 155-217 -/
theorem run_site2 (i : In) (hv : i.v.ok) (args : String → Arr) (t : Tables) (e : Env) (y : Row → F)
    (he : e "resp_ref" = table.map y) :
    vexec (rowwise .ask14 table kernel) i t args (block (ask14Site " 2" ["resp_ref"])) e "site_term" =
      table.map fun c => siteTerm c (y c) i.v i.z1 (i.reg = .japan) := by
  unfold ask14Site
  rowrun [kernel, where_lt, he]
  refine List.map_congr_left fun c _ => ?_
  have h : f10 c i.v i.z1 (i.reg = .japan) = if i.v.val = 1180 ∨ i.z1 = none then 0 else
      match i.z1 with
      | some z => basinSlope c i.v * F.log ((z + 0.01) / (calcDepth10 i.v (i.reg = .japan) + 0.01))
      | none => F.nan := by
    unfold f10
    cases i.z1 with
    | none => simp
    | some z =>
      by_cases a : i.v.val = 1180
      · ext <;> simp [F.iteEq, vRef, a, hv]
      · ext <;> simp [F.iteEq, vRef, a, hv]
  simp only [siteTerm, h, f5, ratio, v1, decide_eq_true_eq]
  cases i.z1 <;> rfl

/-- abrahamson_silva_kamai_2014.py lines 109-153 around the site term -/
theorem run_resp (i : In) (hm : i.mag.ok) (args : String → Arr) (t : Tables) (k : String) (hk : k = "" ∨ k = " 2") (r : String)
    (vars : List String) (e : Env) (v : F) (st : Row → F) (hkv : v = if k = "" then 1180 else i.v)
    (hs : ∀ e' : Env, e' "resp_ref" = e "resp_ref" →
      vexec (rowwise .ask14 table kernel) i t args (block (ask14Site k vars)) e' "site_term" = table.map st) :
    vexec (rowwise .ask14 table kernel) i t args (block (ask14Resp k r vars)) e r =
      table.map fun c => f1 c i.mag i.rup + (if i.hw then f4 c i else 0) + f6 c i.tor + fMech c i.mag i.mech + f11 c i +
        freg c v i.rup i.reg + st c := by
  unfold ask14Resp
  rw [vexec_block_append, vexec_block_append, vexec_block_append]
  have a1 := run_f1 i hm args t e
  have a2 : vexec (rowwise .ask14 table kernel) i t args (block ask14F1) e "resp_ref" = e "resp_ref" :=
    vexec_frame _ _ _ _ _ _ (by decide +kernel)
  generalize vexec _ _ _ _ _ e = e1 at a1 a2 ⊢
  generalize hB : block [Cmd.ite "ask14:109" _ _, _, _] = B
  have b1 : vexec (rowwise .ask14 table kernel) i t args B e1 "f1" = table.map fun c => f1 c i.mag i.rup := by
    rw [← hB, vexec_frame _ _ _ _ _ _ (by decide +kernel), a1]
  have b2 : vexec (rowwise .ask14 table kernel) i t args B e1 "f4" = table.map fun c => if i.hw then f4 c i else 0 := by
    rw [← hB]; rowrun [kernel]
  have b3 : vexec (rowwise .ask14 table kernel) i t args B e1 "f6" = table.map fun c => f6 c i.tor := by
    rw [← hB]; rowrun [kernel]; rfl
  have b4 : vexec (rowwise .ask14 table kernel) i t args B e1 "f7" =
      table.map fun c => if i.mech = .rs then c.a11 * F.clip (i.mag - 4) 0 1 else 0 := by
    rw [← hB]; rowrun [kernel]; simp only [decide_eq_true_eq]
  have b5 : vexec (rowwise .ask14 table kernel) i t args B e1 "f8" =
      table.map fun c => if i.mech = .rs then 0 else if i.mech = .ns then c.a12 * F.clip (i.mag - 4) 0 1 else 0 := by
    rw [← hB]; rowrun [kernel]; simp only [decide_eq_true_eq]
  have b6 : vexec (rowwise .ask14 table kernel) i t args B e1 "resp_ref" = e "resp_ref" := by
    rw [← hB, vexec_frame _ _ _ _ _ _ (by decide +kernel), a2]
  generalize vexec _ _ _ _ _ e1 = e2 at b1 b2 b3 b4 b5 b6 ⊢
  have c0 := hs e2 b6
  have fr : ∀ x ∈ ["f1", "f4", "f6", "f7", "f8"], vexec (rowwise .ask14 table kernel) i t args (block (ask14Site k vars)) e2 x = e2 x := by
    intro x hx
    refine vexec_frame _ _ _ _ _ _ ?_
    have : (block (ask14Site k vars)).targets = (block (ask14Site "" [])).targets := rfl
    rw [this]
    revert x; decide +kernel
  have c1 := (fr "f1" (by simp)).trans b1
  have c2 := (fr "f4" (by simp)).trans b2
  have c3 := (fr "f6" (by simp)).trans b3
  have c4 := (fr "f7" (by simp)).trans b4
  have c5 := (fr "f8" (by simp)).trans b5
  generalize vexec _ _ _ _ _ e2 = e3 at c0 c1 c2 c3 c4 c5 ⊢
  rcases hk with rfl | rfl
  · have hv : v = 1180 := hkv
    rowrun [kernel, c0, c1, c2, c3, c4, c5]
    refine List.map_congr_left fun c _ => ?_
    subst hv
    cases i.mech <;> cases i.reg <;> simp only [fMech, freg, f11, ratio, v1, decide_eq_true_eq, reduceCtorEq, if_true, if_false, add_assoc_F]
  · have hv : v = i.v := hkv
    rowrun [kernel, c0, c1, c2, c3, c4, c5]
    refine List.map_congr_left fun c _ => ?_
    subst hv
    cases i.mech <;> cases i.reg <;> simp only [fMech, freg, f11, ratio, v1, decide_eq_true_eq, reduceCtorEq, if_true, if_false, add_assoc_F]

/-- abrahamson_silva_kamai_2014.py lines 76-83, 219-261 -/
theorem run (i : In) (hm : i.mag.ok) (hv : i.v.ok) (args : String → Arr) (t : Tables) :
    Accessed .ask14 (out i).gmm (call (rowwise .ask14 table kernel).toMeaning ask14 i args t).values := by
  refine accessed_of _ _ _ _ _ (by decide +kernel) (by decide +kernel) (by decide +kernel) _ args t _ _ ?_ ?_
  all_goals
    rw [List.append_assoc, List.append_assoc, vexec_block_append]
    have h1 : vexec (rowwise .ask14 table kernel) i t args (block (ask14Resp "" "ln_resp_ref" [])) noVars "ln_resp_ref" =
        table.map fun c => lnRespAt c i vRef F.nan :=
      run_resp i hm args t "" (Or.inl rfl) "ln_resp_ref" [] noVars vRef _ rfl fun e' _ => run_site1 i args t e'
    generalize vexec _ _ _ _ _ noVars = e1 at h1 ⊢
    rw [vexec_block_append]
    have h2 : vexec (rowwise .ask14 table kernel) i t args (block [Cmd.new "resp_ref" "ask14:81" ["ln_resp_ref"]]) e1 "resp_ref" =
        table.map fun c => refMotion c i := by
      rowrun [kernel, h1]
      rfl
    generalize vexec _ _ _ _ _ e1 = e2 at h2 ⊢
    rw [vexec_block_append]
    have h3 : vexec (rowwise .ask14 table kernel) i t args (block (ask14Resp " 2" "_ln_resp" ["resp_ref"])) e2 "_ln_resp" =
        table.map fun c => lnResp c i :=
      run_resp i hm args t " 2" (Or.inr rfl) "_ln_resp" ["resp_ref"] e2 i.v _ rfl fun e' he =>
        run_site2 i hv args t e' _ (he.trans h2)
    have h4 : vexec (rowwise .ask14 table kernel) i t args (block (ask14Resp " 2" "_ln_resp" ["resp_ref"])) e2 "resp_ref" =
        table.map fun c => refMotion c i := by
      rw [vexec_frame _ _ _ _ _ _ (by decide +kernel), h2]
    generalize vexec _ _ _ _ _ e2 = e3 at h3 h4 ⊢
  · rw [vexec_frame _ _ _ _ _ _ (by decide +kernel), h3]
  · unfold ask14Std
    rowrun [kernel, h4, where_le]
    refine List.map_congr_left fun c _ => ?_
    simp only [lnStd, phi, tau, phiB, tauB, deriv, phiAl, decide_eq_true_eq]

end ASK14

/-- Abrahamson, Silva & Kamai (2014) -/
theorem C124_ask14 (s : Scenario) (g : ASK14.Given) (h : ASK14.Source s g) (hx : (ASK14.kindOf s).hw → g.x ≠ none)
    (args : String → Arr) (t : Tables) :
    ∃ o, Gives ASK14.cls s o ∧
      Accessed .ask14 o.gmm (call (rowwise .ask14 ASK14.table ASK14.kernel).toMeaning ask14 (g.toIn (ASK14.kindOf s)) args t).values :=
  ⟨_, ASK14.gives h hx, ASK14.run _ trivial trivial args t⟩

example : ∃ o, Gives ASK14.cls (ASK14.exS ASK14.exG "japan" true) o ∧
    Accessed .ask14 o.gmm (call (rowwise .ask14 ASK14.table ASK14.kernel).toMeaning ask14
      (ASK14.exG.toIn (ASK14.kindOf (ASK14.exS ASK14.exG "japan" true))) (fun _ => []) (fun _ => [])).values :=
  C124_ask14 _ _ (ASK14.ex_source _ rfl rfl rfl rfl _ _) (by simp [ASK14.exG]) _ _
