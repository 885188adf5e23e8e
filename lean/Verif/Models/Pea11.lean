import Verif.Compute
import Verif.Decls
import Verif.GMMClasses

/-! # Pezeshk, Zandieh & Tavakoli (2011): src/pygmm/pezeshk_zandieh_tavakoli_2011.py -/

namespace Pea11
noncomputable section

/-- pezeshk_zandieh_tavakoli_2011.py line 59 -/
def distR (c : Row) (dist : F) : F := F.sqrt (dist ^ 2 + (c.c_11 : F) ^ 2)

/-- pezeshk_zandieh_tavakoli_2011.py lines 61-70 -/
def log10Resp (c : Row) (mag dist : F) : F :=
  c.c_1 + c.c_2 * mag + c.c_3 * mag ^ 2
    + (c.c_4 + c.c_5 * mag) * F.min (F.log10 (distR c dist)) (F.log10 70)
    + (c.c_6 + c.c_7 * mag) *
      F.max (F.min (F.log10 (distR c dist / 70)) (F.log10 (140 / 70))) 0
    + (c.c_8 + c.c_9 * mag) * F.max (F.log10 (distR c dist / 140)) 0
    + c.c_10 * distR c dist

/-- pezeshk_zandieh_tavakoli_2011.py lines 47-73: `_calc_ln_resp`, one row -/
def lnResp (c : Row) (mag dist : F) : F := F.log ((10 : F) ^ log10Resp c mag dist)

/-- pezeshk_zandieh_tavakoli_2011.py lines 75-94: `_calc_ln_std`, one row -/
def lnStd (c : Row) (mag : F) : F :=
  let mean := F.iteLe mag 7 (c.c_12 * mag + c.c_13) (-6.95e-3 * mag + c.c_14)
  F.sqrt (mean ^ 2 + (c.sigma_reg : F) ^ 2)

/-- what the constructor leaves for numeric inputs -/
def out (mag dist : F) : GmmOut :=
  ⟨table.map fun c => lnResp c mag dist, some (table.map fun c => lnStd c mag)⟩

/-- pezeshk_zandieh_tavakoli_2011.py lines 41-45: the class -/
def cls : ModelClass GmmOut where
  params := Decls.pea11
  compute := fun s => do
    let mag ← s.num "mag"
    let dist ← s.num "dist_rup"
    pure (out mag dist)

end

/-- construction from a scenario that has the two numbers -/
theorem gives (s : Scenario) {m r : ℝ} (hm : s.get "mag" = .num m)
    (hr : s.get "dist_rup" = .num r) : Gives cls s (out (F.ofReal m) (F.ofReal r)) := by
  apply gives_of (by decide +kernel) rfl
  · simp only [cls, Decls.pea11, List.forall_mem_cons]
    exact ⟨pass_num hm, pass_num hr, fun _ h => by simp at h⟩
  · intro d hd
    have hn : (Decls.pea11.map Param.name).Nodup := by decide +kernel
    have h1 := Checked.num hd hn (name := "mag") (by mem_tac) hm
    have h2 := Checked.num hd hn (name := "dist_rup") (by mem_tac) hr
    simp only [cls, Scenario.num_of h1, Scenario.num_of h2, Py.pure_bind']
    rfl

end Pea11
