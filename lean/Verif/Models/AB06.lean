import Verif.Compute
import Verif.Decls
import Verif.Interp
import Verif.GMMClasses
import Verif.Data.AB06SF
import Verif.Data.AB06Site

/-! # Atkinson & Boore (2006): src/pygmm/atkinson_boore_2006.py -/

namespace AB06
noncomputable section

/-- lines 65-83: `log10_resp` at the reference condition, one row, cm/s² -/
def log10Ref (c : Row) (mag dist : F) : F :=
  let f0 := F.max (F.log10 (10 / dist)) 0
  let f1 := F.min (F.log10 dist) (F.log10 70)
  let f2 := F.max (F.log10 (dist / 140)) 0
  c.c_1 + c.c_2 * mag + c.c_3 * mag ^ 2 + (c.c_4 + c.c_5 * mag) * f1
    + (c.c_6 + c.c_7 * mag) * f2 + (c.c_8 + c.c_9 * mag) * f0 + c.c_10 * dist

/-- lines 126-130: one row of `log10_stress_factor` -/
def stressNode (c : SfRow) (mag : F) : F :=
  let stressDrop := (10 : F) ^ (3.45 - 0.2 * mag)
  let v1 := (c.delta : F) + 0.05
  let v2 := 0.05 + c.delta * F.max (mag - c.m_1) 0 / ((c.m_h : F) - c.m_1)
  F.min 2 (stressDrop / 140) * F.min v1 v2

/-- lines 114-132: `_calc_stress_factor` at one of the model's periods -/
def stressFactor (T : ℚ) (mag : F) : F :=
  npInterp (sf.map fun c => ((c.period : ℝ), stressNode c mag)) T

/-- lines 153-161: `b_nl` -/
def bNl (c : SiteRow) (vs30 : F) : F :=
  F.iteLe vs30 180 c.b_1
    (F.iteLe vs30 300 ((c.b_1 - c.b_2) * F.log (vs30 / 300) / F.log (180 / 300))
      (F.iteLe vs30 760 (c.b_2 * F.log (vs30 / 760) / F.log (300 / 760)) 0))

/-- lines 163-167: one row of `log10_site` -/
def siteNode (c : SiteRow) (vs30 pgaBc : F) : F :=
  F.log10 (F.exp (c.b_lin * F.log (vs30 / 760) + bNl c vs30 * F.log (F.max pgaBc 60 / 100)))

/-- lines 134-168: `_calc_log10_site` at one of the model's periods -/
def log10Site (T : ℚ) (vs30 pgaBc : F) : F :=
  npInterp (site.map fun c => ((c.period : ℝ), siteNode c vs30 pgaBc)) T

/-- lines 75-86: reference response with the stress factor, one row.  The stress factor is
computed at `PERIODS`, the periods of the B/C table; the rock table lists the same periods
(`Props/AB06.lean`, `periods_agree`). -/
def log10Base (c : Row) (mag dist : F) : F := log10Ref c mag dist + stressFactor c.period mag

/-- line 90: `pga_bc`, from row `INDEX_PGA = 2` of the B/C table -/
def pgaBc (mag dist : F) : F :=
  (10 : F) ^ ((bc.map fun c => log10Base c mag dist).getD 2 F.nan)

/-- lines 96-99: to g and to natural logarithm -/
def toLn (y : F) : F := F.log ((10 : F) ^ (y - F.log10 980.665))

/-- lines 54-100 and 102-112: `some vs30` when `s.v_s30` is truthy, `none` otherwise -/
def out (mag dist : F) : Option F → GmmOut
  | none => ⟨rock.map fun c => toLn (log10Base c mag dist), some (bc.map fun _ => 0.30)⟩
  | some vs30 =>
    ⟨bc.map fun c => toLn (log10Base c mag dist + log10Site c.period vs30 (pgaBc mag dist)),
     some (bc.map fun _ => 0.30)⟩

/-- `if s.v_s30` (lines 63, 88) and its use as a number in the site term -/
def siteOf (v : Val) : Py (Option F) :=
  if v.truthy then do
    let x ← v.toF
    pure (some x)
  else pure none

/-- lines 48-52: the class -/
def cls : ModelClass GmmOut where
  params := Decls.ab06
  compute := fun s => do
    let v ← s.getAttr "v_s30"
    let dist ← s.num "dist_rup"
    let mag ← s.num "mag"
    let vs30 ← siteOf v
    pure (out mag dist vs30)

end

/-- construction from three numbers -/
theorem gives (s : Scenario) {m r v : ℝ} (hm : s.get "mag" = .num m)
    (hr : s.get "dist_rup" = .num r) (hv : s.get "v_s30" = .num v) :
    Gives cls s (out (F.ofReal m) (F.ofReal r) (if v = 0 then none else some (F.ofReal v))) := by
  apply gives_of (by change ParamsOk Decls.ab06; decide +kernel) rfl
  · simp only [cls, Decls.ab06, List.forall_mem_cons]
    exact ⟨pass_num hm, pass_num hr, pass_num hv, fun _ h => by simp at h⟩
  · intro d hd
    have hn : (Decls.ab06.map Param.name).Nodup := by decide +kernel
    have h1 := Checked.num hd hn (name := "mag") (by mem_tac) hm
    have h2 := Checked.num hd hn (name := "dist_rup") (by mem_tac) hr
    have h3 := Checked.num hd hn (name := "v_s30") (by mem_tac) hv
    simp only [cls, Scenario.num_of h1, Scenario.num_of h2, Scenario.getAttr_of h3,
      Py.pure_bind', siteOf, Val.truthy, Val.toF]
    by_cases h : v = 0 <;> simp [h]

end AB06
