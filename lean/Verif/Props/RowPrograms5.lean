import Verif.Models.RowKernels5
import Verif.Props.CB14

/-! # C124, continued: Campbell & Bozorgnia (2014) -/

set_option linter.unusedSimpArgs false
set_option maxHeartbeats 1000000

open Arrays Classical

namespace CB14

theorem fSed_split (c : Row) {z : F} (hz : z.ok) (japan : Bool) :
    fSed c z japan = if z.val ≤ 1 then c.c_14 * (z - 1) + (if japan then c.c_15 * (z - 1) else 0)
      else if z.val ≤ 3 then 0 else c.c_16 * c.k_3 * F.exp (-0.75) * (1 - F.exp (-0.25 * (z - 3))) := by
  unfold fSed
  rw [iteLe_of hz trivial, iteLe_of hz trivial]
  simp only [fsimp]

theorem fSite_split (c : Row) (p : Option F) {v : F} (hv : v.ok) :
    fSite c p v = if v.val ≤ c.k_1 then
      (match p with
        | none => F.nan
        | some p => c.c_11 * F.log (v / c.k_1) + c.k_2 * (F.log (p + 1.88 * (v / c.k_1) ^ (1.18 : F)) - F.log (p + 1.88)))
      else (c.c_11 + c.k_2 * 1.18) * F.log (v / c.k_1) := by
  unfold fSite
  rw [iteLe_of hv trivial]
  rfl

theorem fSiteJp_split (c : Row) {v : F} (hv : v.ok) :
    fSiteJp c v = if v.val ≤ 200 then (c.c_12 + c.k_2 * 1.18) * (F.log (v / c.k_1) - F.log (200 / c.k_1))
      else (c.c_13 + c.k_2 * 1.18) * F.log (v / c.k_1) := by
  unfold fSiteJp
  rw [iteLe_of hv trivial]
  simp only [fsimp]

/-- campbell_bozorgnia_2014.py lines 235-275, reference condition -/
theorem run_site1 (i : In) (args : String → Arr) (t : Tables) (e : Env) :
    vexec (rowwise .cb14 table kernel) i t args (block (cb14Site "" [])) e "site_term" =
      table.map fun c => siteTerm c none 1100 i.z25 (i.reg = .japan) := by
  have hz : (zRef i).ok := by
    unfold zRef depth25OfVs; split <;> simp only [fsimp] <;> norm_num
  unfold cb14Site
  rowrun [kernel]
  refine List.map_congr_left fun c _ => ?_
  have e1 : maskLe 1100 (c.k_1 : F) = if (1100 : F).val ≤ c.k_1 then 1 else 0 := maskLe_of trivial trivial
  have h200 : ¬ (1100 : F).val ≤ 200 := by simp only [fsimp]; norm_num
  have hz' : depth25OfVs 1100 (i.reg = .japan) = zRef i := rfl
  simp only [siteTerm, hz']
  rw [fSed_split c hz, fSite_split c none trivial, fSiteJp_split c trivial, e1]
  simp only [decide_eq_true_eq, h200, if_false, Bool.false_eq_true]
  by_cases a : (1100 : F).val ≤ c.k_1 <;> by_cases b : i.reg = .japan <;>
    simp only [a, b, if_true, if_false, where_one, where_zero, add_zero_F, add_assoc_F]

/-- campbell_bozorgnia_2014.py lines 235-275 -/
theorem run_site2 (i : In) (hv : i.v.ok) (hz : i.z25.ok) (args : String → Arr) (t : Tables) (e : Env) (y : Row → F)
    (he : e "ln_resp_ref" = table.map y) :
    vexec (rowwise .cb14 table kernel) i t args (block (cb14Site " 2" ["ln_resp_ref"])) e "site_term" =
      table.map fun c => siteTerm c (some (pgaOf (table.map y))) i.v i.z25 (i.reg = .japan) := by
  unfold cb14Site
  rowrun [kernel, he]
  refine List.map_congr_left fun c _ => ?_
  have e1 : maskLe i.v (c.k_1 : F) = if i.v.val ≤ c.k_1 then 1 else 0 := maskLe_of hv trivial
  rw [siteTerm, fSed_split c hz, fSite_split c _ hv, fSiteJp_split c hv, e1]
  simp only [decide_eq_true_eq]
  by_cases a : i.v.val ≤ c.k_1 <;> by_cases b : i.reg = .japan <;> by_cases d : i.v.val ≤ 200 <;>
    simp only [a, b, d, if_true, if_false, where_one, where_zero, add_zero_F, add_assoc_F]

/-- campbell_bozorgnia_2014.py lines 131-137 -/
theorem run_mag (i : In) (hm : i.mag.ok) (args : String → Arr) (t : Tables) (ht : Loaded t) (e : Env) :
    vexec (rowwise .cb14 table kernel) i t args (block cb14Mag) e "f_mag" = table.map fun c => fMag c i.mag := by
  have h : (table.map fun c => fMag c i.mag) = table.map fun c => (c.c_0 + c.c_1 * i.mag) + if 4.5 < i.mag.val then (c.c_2 * (i.mag - 4.5) +
      if 5.5 < i.mag.val then (c.c_3 * (i.mag - 5.5) + if 6.5 < i.mag.val then c.c_4 * (i.mag - 6.5) else 0) else 0) else 0 := by
    refine List.map_congr_left fun c _ => ?_
    unfold fMag
    rw [iteLt_of (a := 4.5) (by simp only [fsimp]) hm, iteLt_of (a := 5.5) (by simp only [fsimp]) hm, iteLt_of (a := 6.5) (by simp only [fsimp]) hm]
    simp only [fsimp]
  rw [h]
  unfold cb14Mag
  by_cases a : 4.5 < i.mag.val
  · by_cases b : 5.5 < i.mag.val
    · by_cases d : 6.5 < i.mag.val
      · rowrun [kernel, ht.c_2, ht.c_3, ht.c_4, a, b, d, decide_true, add_assoc_F]; rfl
      · rowrun [kernel, ht.c_2, ht.c_3, ht.c_4, a, b, d, decide_true, decide_false, Bool.false_eq_true, add_assoc_F, add_zero_F]; rfl
    · rowrun [kernel, ht.c_2, ht.c_3, ht.c_4, a, b, decide_true, decide_false, Bool.false_eq_true, add_assoc_F, add_zero_F]; rfl
  · rowrun [kernel, ht.c_2, ht.c_3, ht.c_4, a, decide_true, decide_false, Bool.false_eq_true, add_assoc_F, add_zero_F]

/-- campbell_bozorgnia_2014.py lines 139-149 -/
theorem run_flt (i : In) (args : String → Arr) (t : Tables) (e : Env) :
    let e' := vexec (rowwise .cb14 table kernel) i t args (block cb14Flt) e
    e' "f_dis" = (table.map fun c => fDis c i.mag i.rup) ∧ e' "f_flt" = (table.map fun c => fFlt c i.mag i.mech) := by
  refine ⟨?_, ?_⟩
  · unfold cb14Flt
    rowrun [kernel]
    rfl
  · unfold cb14Flt
    rowrun [kernel]
    refine List.map_congr_left fun c _ => ?_
    cases i.mech <;> simp only [fFlt, decide_eq_true_eq, reduceCtorEq, if_true, if_false]

/-- campbell_bozorgnia_2014.py lines 151-176 -/
theorem run_hng (i : In) (hx : i.x.ok) (hw : i.width.ok) (hd : i.dip.ok) (args : String → Arr) (t : Tables) (e : Env) :
    vexec (rowwise .cb14 table kernel) i t args (block cb14Hng) e "f_hng" = table.map fun c => fHng c i := by
  unfold cb14Hng
  rowrun [kernel]
  refine List.map_congr_left fun c _ => ?_
  have hr : (i.width * F.cos (F.radians i.dip)).ok := by simp only [fsimp, hw, hd, and_self]
  unfold fHng fHngRx fHngRrup fHngM fHngZ r1Of r2Of
  rw [iteLt_of hx (b := 0) trivial, iteLe_of hx hr]
  simp only [decide_eq_true_eq, fsimp]

/-- campbell_bozorgnia_2014.py lines 110-199 around the site term -/
theorem run_resp (i : In) (hm : i.mag.ok) (hx : i.x.ok) (hw : i.width.ok) (hd : i.dip.ok) (args : String → Arr) (t : Tables)
    (ht : Loaded t) (k r : String) (vars : List String) (e : Env) (p : Option F) (v : F)
    (hs : ∀ e' : Env, e' "ln_resp_ref" = e "ln_resp_ref" →
      vexec (rowwise .cb14 table kernel) i t args (block (cb14Site k vars)) e' "site_term" =
        table.map fun c => siteTerm c p v i.z25 (i.reg = .japan)) :
    vexec (rowwise .cb14 table kernel) i t args (block (cb14Resp k r vars)) e r = table.map fun c => lnResp c i p v := by
  unfold cb14Resp
  rw [List.append_assoc, List.append_assoc, List.append_assoc, vexec_block_append]
  have a1 := run_mag i hm args t ht e
  have a5 : vexec (rowwise .cb14 table kernel) i t args (block cb14Mag) e "ln_resp_ref" = e "ln_resp_ref" :=
    vexec_frame _ _ _ _ _ _ (by decide +kernel)
  generalize vexec _ _ _ _ _ e = e1 at a1 a5 ⊢
  rw [vexec_block_append]
  obtain ⟨b2, b3⟩ := run_flt i args t e1
  have b1 : vexec (rowwise .cb14 table kernel) i t args (block cb14Flt) e1 "f_mag" = _ := (vexec_frame _ _ _ _ _ _ (by decide +kernel)).trans a1
  have b5 : vexec (rowwise .cb14 table kernel) i t args (block cb14Flt) e1 "ln_resp_ref" = _ := (vexec_frame _ _ _ _ _ _ (by decide +kernel)).trans a5
  generalize vexec _ _ _ _ _ e1 = e2 at b1 b2 b3 b5 ⊢
  rw [vexec_block_append]
  have d4 := run_hng i hx hw hd args t e2
  have d1 : vexec (rowwise .cb14 table kernel) i t args (block cb14Hng) e2 "f_mag" = _ := (vexec_frame _ _ _ _ _ _ (by decide +kernel)).trans b1
  have d2 : vexec (rowwise .cb14 table kernel) i t args (block cb14Hng) e2 "f_dis" = _ := (vexec_frame _ _ _ _ _ _ (by decide +kernel)).trans b2
  have d3 : vexec (rowwise .cb14 table kernel) i t args (block cb14Hng) e2 "f_flt" = _ := (vexec_frame _ _ _ _ _ _ (by decide +kernel)).trans b3
  have d5 : vexec (rowwise .cb14 table kernel) i t args (block cb14Hng) e2 "ln_resp_ref" = _ := (vexec_frame _ _ _ _ _ _ (by decide +kernel)).trans b5
  generalize vexec _ _ _ _ _ e2 = e3 at d1 d2 d3 d4 d5 ⊢
  rw [vexec_block_append]
  have c0 := hs e3 d5
  have fr : ∀ x ∈ ["f_mag", "f_dis", "f_flt", "f_hng"], vexec (rowwise .cb14 table kernel) i t args (block (cb14Site k vars)) e3 x = e3 x := by
    intro x hx
    refine vexec_frame _ _ _ _ _ _ ?_
    have : (block (cb14Site k vars)).targets = (block (cb14Site "" [])).targets := rfl
    rw [this]
    revert x; decide +kernel
  have c1 := (fr "f_mag" (by simp)).trans d1
  have c2 := (fr "f_dis" (by simp)).trans d2
  have c3 := (fr "f_flt" (by simp)).trans d3
  have c4 := (fr "f_hng" (by simp)).trans d4
  generalize vexec _ _ _ _ _ e3 = e4 at c0 c1 c2 c3 c4 ⊢
  rowrun [kernel, c0, c1, c2, c3, c4, ht.dc_20jp, ht.dc_20ch, ht.dc_20ca]
  refine List.map_congr_left fun c _ => ?_
  unfold lnResp fHyp fDip fAtn
  cases i.reg <;> simp only [decide_eq_true_eq, reduceCtorEq, or_false, false_or, or_true, true_or, if_true, if_false, Bool.false_eq_true, F.ofRat]

theorem tauY_pga (m : F) : atPga (table.map fun c => tauY c m) = tauY pgaRow m := rfl
theorem phiY_pga (m : F) : atPga (table.map fun c => phiY c m) = phiY pgaRow m := rfl

/-- campbell_bozorgnia_2014.py lines 295-308 -/
theorem run_alpha (i : In) (args : String → Arr) (t : Tables) (e : Env) (y : Row → F) (he : e "ln_resp_ref" = table.map y) :
    let e' := vexec (rowwise .cb14 table kernel) i t args (block cb14Alpha) e
    e' "tau_lnY" = (table.map fun c => tauY c i.mag) ∧ e' "phi_lnY" = (table.map fun c => phiY c i.mag) ∧
      e' "alpha" = table.map fun c => alpha c (pgaOf (table.map y)) i.v := by
  refine ⟨?_, ?_, ?_⟩
  · unfold cb14Alpha; rowrun [kernel, tauY]
  · unfold cb14Alpha; rowrun [kernel, phiY]
  · unfold cb14Alpha; rowrun [kernel, he, where_lt, alpha]

/-- campbell_bozorgnia_2014.py lines 310-329 -/
theorem run_std (i : In) (args : String → Arr) (t : Tables) (e : Env) (p : F)
    (h1 : e "tau_lnY" = table.map fun c => tauY c i.mag) (h2 : e "phi_lnY" = table.map fun c => phiY c i.mag)
    (h3 : e "alpha" = table.map fun c => alpha c p i.v) :
    vexec (rowwise .cb14 table kernel) i t args (block cb14Std) e "_ln_std" = table.map fun c => lnStd c i.mag p i.v := by
  unfold cb14Std
  rowrun [kernel, h1, h2, h3, tauY_pga, phiY_pga]
  rfl

/-- campbell_bozorgnia_2014.py lines 98-108, 277-331 -/
theorem run (i : In) (hm : i.mag.ok) (hx : i.x.ok) (hw : i.width.ok) (hd : i.dip.ok) (hv : i.v.ok) (hz : i.z25.ok)
    (args : String → Arr) (t : Tables) (ht : Loaded t) :
    Accessed .cb14 (out i).gmm (call (rowwise .cb14 table kernel).toMeaning cb14 i args t).values := by
  refine accessed_of _ _ _ _ _ (by decide +kernel) (by decide +kernel) (by decide +kernel) _ args t _ _ ?_ ?_
  all_goals
    rw [List.append_assoc, List.append_assoc, vexec_block_append]
    have h1 := run_resp i hm hx hw hd args t ht "" "ln_resp_ref" [] noVars none 1100 fun e' _ => run_site1 i args t e'
    generalize vexec _ _ _ _ _ noVars = e1 at h1 ⊢
    rw [vexec_block_append]
    have h2 := run_resp i hm hx hw hd args t ht " 2" "_ln_resp" ["ln_resp_ref"] e1 (some (pgaRef i)) i.v fun e' he =>
      run_site2 i hv hz args t e' _ (he.trans h1)
    have h3 : vexec (rowwise .cb14 table kernel) i t args (block (cb14Resp " 2" "_ln_resp" ["ln_resp_ref"])) e1 "ln_resp_ref" = _ :=
      (vexec_frame _ _ _ _ _ _ (by decide +kernel)).trans h1
    generalize vexec _ _ _ _ _ e1 = e2 at h2 h3 ⊢
  · rw [vexec_frame _ _ _ _ _ _ (by decide +kernel), h2]
  · rw [vexec_block_append]
    obtain ⟨k1, k2, k3⟩ := run_alpha i args t e2 _ h3
    generalize vexec _ _ _ _ _ e2 = e3 at k1 k2 k3 ⊢
    exact run_std i args t e3 _ k1 k2 k3

end CB14

/-- Campbell & Bozorgnia (2014) -/
theorem C124_cb14 (s : Scenario) (g : CB14.Given) (h : CB14.Source s g) (hr : CB14.Regular g (CB14.mechOf (s.get "mechanism")))
    (hv : 0 < g.v) (args : String → Arr) (t : Tables) (ht : CB14.Loaded t) :
    ∃ o, Gives CB14.cls s o ∧
      Accessed .cb14 o.gmm (call (rowwise .cb14 CB14.table CB14.kernel).toMeaning cb14
        (g.toIn (CB14.mechOf (s.get "mechanism")) (CB14.regOf (s.get "region"))) args t).values :=
  ⟨_, CB14.gives h hv.ne', CB14.run _ trivial trivial (CB14.effWidth_ok hr) trivial trivial (CB14.effZ25_ok hv _) args t ht⟩

example : ∃ o, Gives CB14.cls (CB14.exS 20) o ∧
    Accessed .cb14 o.gmm (call (rowwise .cb14 CB14.table CB14.kernel).toMeaning cb14
      (({ CB14.exG with rup := 20 } : CB14.Given).toIn (CB14.mechOf ((CB14.exS 20).get "mechanism"))
        (CB14.regOf ((CB14.exS 20).get "region"))) (fun _ => []) CB14.exTables).values :=
  C124_cb14 _ _ (CB14.ex_source 20) (CB14.ex_regular 20) (by norm_num [CB14.exG]) _ _ CB14.ex_loaded
