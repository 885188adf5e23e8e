import Verif.Compute
import Verif.Decls
import Verif.GMMClasses

/-! # Tavakoli & Pezeshk (2005): src/pygmm/tavakoli_pezeshk_2005.py -/

namespace TP05
noncomputable section

/-- tavakoli_pezeshk_2005.py line 60: magnitude scaling.  `(8.5 - mag) ** 2.5` is a
fractional power: for a Python float base it is complex when the base is negative. -/
def f1 (c : Row) (mag : F) : F := c.c_1 + c.c_2 * mag + c.c_3 * (8.5 - mag) ^ (2.5 : F)

/-- tavakoli_pezeshk_2005.py lines 63-69: distance scaling; the two `f2 +=` blocks -/
def f2 (c : Row) (dist : F) : F :=
  let f2 := c.c_9 * F.log (dist + 4.5)
  let f2 := F.iteLt 70 dist (f2 + c.c_10 * F.log (dist / 70)) f2
  F.iteLt 130 dist (f2 + c.c_11 * F.log (dist / 130)) f2

/-- tavakoli_pezeshk_2005.py lines 73-76: magnitude-dependent distance -/
def distR (c : Row) (mag dist : F) : F :=
  F.sqrt (dist ^ 2 + (c.c_5 * F.exp (c.c_6 * mag + c.c_7 * (8.5 - mag) ^ (2.5 : F))) ^ 2)

/-- tavakoli_pezeshk_2005.py line 77 -/
def f3 (c : Row) (mag dist : F) : F :=
  (c.c_4 + c.c_13 * mag) * F.log (distR c mag dist) + (c.c_8 + c.c_12 * mag) * distR c mag dist

/-- tavakoli_pezeshk_2005.py lines 47-82: `_calc_ln_resp`, one row -/
def lnResp (c : Row) (mag dist : F) : F := f1 c mag + f2 c dist + f3 c mag dist

/-- tavakoli_pezeshk_2005.py lines 84-101: `_calc_ln_std`, one row -/
def lnStd (c : Row) (mag : F) : F := F.iteLt mag 7.2 (c.c_14 + c.c_15 * mag) c.c_16

/-- what the constructor leaves for numeric inputs -/
def out (mag dist : F) : GmmOut :=
  ⟨table.map fun c => lnResp c mag dist, some (table.map fun c => lnStd c mag)⟩

/-- tavakoli_pezeshk_2005.py lines 41-45: the class -/
def cls : ModelClass GmmOut where
  params := Decls.tp05
  compute := fun s => do
    let mag ← s.num "mag"
    let dist ← s.num "dist_rup"
    pure (out mag dist)

end

/-- construction from a scenario that has the two numbers -/
theorem gives (s : Scenario) {m r : ℝ} (hm : s.get "mag" = .num m)
    (hr : s.get "dist_rup" = .num r) : Gives cls s (out (F.ofReal m) (F.ofReal r)) := by
  apply gives_of (by decide +kernel) rfl
  · simp only [cls, Decls.tp05, List.forall_mem_cons]
    exact ⟨pass_num hr, pass_num hm, fun _ h => by simp at h⟩
  · intro d hd
    have hn : (Decls.tp05.map Param.name).Nodup := by decide +kernel
    have h1 := Checked.num hd hn (name := "mag") (by mem_tac) hm
    have h2 := Checked.num hd hn (name := "dist_rup") (by mem_tac) hr
    simp only [cls, Scenario.num_of h1, Scenario.num_of h2, Py.pure_bind']
    rfl

end TP05
