import Verif.Compute
import Verif.Decls
import Verif.GMMClasses

/-! # Campbell (2003): src/pygmm/campbell_2003.py -/

namespace C03
noncomputable section

/-- campbell_2003.py line 57: magnitude scaling `f_1` -/
def f1 (c : Row) (mag : F) : F := c.c_2 * mag + c.c_3 * (8.5 - mag) ^ 2

/-- campbell_2003.py lines 59-63: distance scaling `f_2` -/
def f2 (c : Row) (mag dist : F) : F :=
  c.c_4 * F.log (F.sqrt (dist ^ 2 + (c.c_7 * F.exp (c.c_8 * mag)) ^ 2)) +
    (c.c_5 + c.c_6 * mag) * dist

/-- campbell_2003.py lines 65-73: geometric attenuation `f_3`, hinges at 70 and 130 km -/
def f3 (c : Row) (dist : F) : F :=
  F.iteLe dist 70 0
    (F.iteLt 130 dist
      (c.c_9 * (F.log dist - F.log 70) + c.c_10 * (F.log dist - F.log 130))
      (c.c_9 * (F.log dist - F.log 70)))

/-- campbell_2003.py lines 45-78: `_calc_ln_resp`, one row -/
def lnResp (c : Row) (mag dist : F) : F := c.c_1 + f1 c mag + f2 c mag dist + f3 c dist

/-- campbell_2003.py lines 80-97: `_calc_ln_std`, one row -/
def lnStd (c : Row) (mag : F) : F :=
  F.iteLt mag 7.16 (c.c_11 + c.c_12 * mag) c.c_13

/-- what the constructor leaves for numeric inputs -/
def out (mag dist : F) : GmmOut :=
  ⟨table.map fun c => lnResp c mag dist, some (table.map fun c => lnStd c mag)⟩

/-- campbell_2003.py lines 39-43: the class -/
def cls : ModelClass GmmOut where
  params := Decls.c03
  compute := fun s => do
    let mag ← s.num "mag"
    let dist ← s.num "dist_rup"
    pure (out mag dist)

end

/-- construction from a scenario that has the two numbers -/
theorem gives (s : Scenario) {m r : ℝ} (hm : s.get "mag" = .num m)
    (hr : s.get "dist_rup" = .num r) : Gives cls s (out (F.ofReal m) (F.ofReal r)) := by
  apply gives_of_checked (by decide +kernel) rfl
  · intro p hp
    simp only [cls, Decls.c03, List.mem_cons, List.not_mem_nil, or_false] at hp
    rcases hp with rfl | rfl
    · exact ⟨fun _ => by simp [numP, hm], by simp [numP, hm, Spec.CannotCompare]⟩
    · exact ⟨fun _ => by simp [numP, hr], by simp [numP, hr, Spec.CannotCompare]⟩
  · intro d hd
    have hn : (Decls.c03.map Param.name).Nodup := by decide +kernel
    have h1 := Checked.num hd hn (name := "mag") (by simp [cls, Decls.c03]; left; rfl) hm
    have h2 := Checked.num hd hn (name := "dist_rup") (by simp [cls, Decls.c03]; right; rfl) hr
    simp only [cls, Scenario.num_of h1, Scenario.num_of h2, Py.pure_bind']
    rfl

end C03
