import Verif.Compute
import Verif.Decls
import Verif.GMMClasses

/-! # Idriss (2014): src/pygmm/idriss_2014.py -/

namespace I14
noncomputable section

/-- idriss_2014.py lines 64-78: `_calc_ln_resp` for one row of the table in force;
`rs` is `s.mechanism == "RS"` -/
def lnResp (c : Row) (mag dist vs30 : F) (rs : Bool) : F :=
  let flag : F := if rs then 1 else 0
  let fMag := c.alpha_1 + c.alpha_2 * mag + c.alpha_3 * (8.5 - mag) ^ 2
  let fDst := -(c.beta_1 + c.beta_2 * mag) * F.log (dist + 10) + c.gamma * dist
  let fSte := c.epsilon * F.log vs30
  let fMec := c.phi * flag
  fMag + fDst + fSte + fMec

open Classical in
/-- idriss_2014.py line 62: the coefficient table in force -/
def coeff (mag : F) : List Row := if mag.val ≤ 6.75 then small else large

/-- idriss_2014.py lines 82-97: `_calc_ln_std`, one period.  `self.PERIODS` is the period
column of the small-magnitude table. -/
def lnStd (period : ℚ) (mag : F) : F :=
  1.18 + 0.035 * F.log (F.clip period 0.05 3) - 0.06 * F.clip mag 5 7.5

/-- what the constructor leaves for numeric inputs -/
def out (mag dist vs30 : F) (rs : Bool) : GmmOut :=
  ⟨(coeff mag).map fun c => lnResp c mag dist vs30 rs,
   some (small.map fun c => lnStd c.period mag)⟩

/-- idriss_2014.py lines 46-50: the class -/
def cls : ModelClass GmmOut where
  params := Decls.i14
  compute := fun s => do
    let mag ← s.num "mag"
    let mech ← s.getAttr "mechanism"
    let dist ← s.num "dist_rup"
    let vs30 ← s.num "v_s30"
    pure (out mag dist vs30 (mech.isStr "RS"))

end

/-- construction from a scenario that has the three numbers and some mechanism string:
anything but `RS` counts as strike slip -/
theorem gives (s : Scenario) {m r v : ℝ} {t : String} (hm : s.get "mag" = .num m)
    (hr : s.get "dist_rup" = .num r) (hv : s.get "v_s30" = .num v)
    (ht : s.get "mechanism" = .str t) :
    Gives cls s (out (F.ofReal m) (F.ofReal r) (F.ofReal v) (t = "RS")) := by
  apply gives_of (by decide +kernel) rfl
  · simp only [cls, Decls.i14, List.forall_mem_cons]
    exact ⟨pass_num hr, pass_num hm, pass_num hv, pass_cat ht, fun _ h => by simp at h⟩
  · intro d hd
    have hn : (Decls.i14.map Param.name).Nodup := by decide +kernel
    have h1 := Checked.num hd hn (name := "mag") (by mem_tac) hm
    have h2 := Checked.num hd hn (name := "dist_rup") (by mem_tac) hr
    have h3 := Checked.num hd hn (name := "v_s30") (by mem_tac) hv
    by_cases hs : t ∈ ["SS", "RS"]
    · have h4 := Checked.cat hd hn (name := "mechanism") (by mem_tac) hs ht
      simp only [cls, Scenario.num_of h1, Scenario.num_of h2, Scenario.num_of h3,
        Scenario.getAttr_of h4, Py.pure_bind', Val.isStr_str]
      rfl
    · have h4 := Checked.cat_other hd hn (name := "mechanism") (by mem_tac) hs ht
      have hne : ¬ t = "RS" := by rintro rfl; simp at hs
      simp only [cls, Scenario.num_of h1, Scenario.num_of h2, Scenario.num_of h3,
        Scenario.getAttr_of h4, Py.pure_bind', Lit.toVal, Val.isStr_str]
      simp [hne]

end I14
