import Verif.RowPrograms
import Verif.Models.C03
import Verif.Models.TP05
import Verif.Models.Pea11
import Verif.Models.I14
import Verif.Models.AKB14

/-!
# The statements of the constructors as row formulas

For every label of `Verif/Models/ArrayMethods.lean`: what the statement in that line computes in one row.
`v k` is the entry of the `k`-th variable of the statement.
-/

open Arrays Classical

noncomputable section

namespace C03

/-- campbell_2003.py lines 57-97; input: magnitude and distance -/
def kernel : Kernel (ℝ × ℝ) Row where
  f := fun l i _ c v =>
    let mag := F.ofReal i.1
    let dist := F.ofReal i.2
    if l = "c03:57" then c.c_2 * mag + c.c_3 * (8.5 - mag) ^ 2
    else if l = "c03:59" then
      c.c_4 * F.log (F.sqrt (dist ^ 2 + (c.c_7 * F.exp (c.c_8 * mag)) ^ 2)) + (c.c_5 + c.c_6 * mag) * dist
    else if l = "c03:68" then 0
    else if l = "c03:70" then c.c_9 * (F.log dist - F.log 70)
    else if l = "c03:73" then v 0 + c.c_10 * (F.log dist - F.log 130)
    else if l = "c03:76" then c.c_1 + v 0 + v 1 + v 2
    else if l = "c03:93" then c.c_11 + c.c_12 * mag
    else F.nan
  test := fun l i =>
    if l = "c03:67" then decide (i.2 ≤ 70)
    else if l = "c03:72" then decide (130 < i.2)
    else if l = "c03:92" then decide (i.1 < 7.16)
    else false

end C03

namespace TP05

/-- tavakoli_pezeshk_2005.py lines 60-101; input: magnitude and distance -/
def kernel : Kernel (ℝ × ℝ) Row where
  f := fun l i _ c v =>
    let mag := F.ofReal i.1
    let dist := F.ofReal i.2
    if l = "tp05:60" then c.c_1 + c.c_2 * mag + c.c_3 * (8.5 - mag) ^ (2.5 : F)
    else if l = "tp05:63" then c.c_9 * F.log (dist + 4.5)
    else if l = "tp05:66" then v 0 + c.c_10 * F.log (dist / 70)
    else if l = "tp05:69" then v 0 + c.c_11 * F.log (dist / 130)
    else if l = "tp05:73" then
      F.sqrt (dist ^ 2 + (c.c_5 * F.exp (c.c_6 * mag + c.c_7 * (8.5 - mag) ^ (2.5 : F))) ^ 2)
    else if l = "tp05:77" then (c.c_4 + c.c_13 * mag) * F.log (v 0) + (c.c_8 + c.c_12 * mag) * v 0
    else if l = "tp05:80" then v 0 + v 1 + v 2
    else if l = "tp05:97" then c.c_14 + c.c_15 * mag
    else F.nan
  test := fun l i =>
    if l = "tp05:65" then decide (70 < i.2)
    else if l = "tp05:68" then decide (130 < i.2)
    else if l = "tp05:96" then decide (i.1 < 7.2)
    else false

end TP05

namespace Pea11

/-- pezeshk_zandieh_tavakoli_2011.py lines 59-92; input: magnitude and distance -/
def kernel : Kernel (ℝ × ℝ) Row where
  f := fun l i _ c v =>
    let mag := F.ofReal i.1
    let dist := F.ofReal i.2
    if l = "pea11:59" then F.sqrt (dist ^ 2 + (c.c_11 : F) ^ 2)
    else if l = "pea11:61" then
      c.c_1 + c.c_2 * mag + c.c_3 * mag ^ 2 + (c.c_4 + c.c_5 * mag) * F.min (F.log10 (v 0)) (F.log10 70) +
        (c.c_6 + c.c_7 * mag) * F.max (F.min (F.log10 (v 0 / 70)) (F.log10 (140 / 70))) 0 +
        (c.c_8 + c.c_9 * mag) * F.max (F.log10 (v 0 / 140)) 0 + c.c_10 * v 0
    else if l = "pea11:72" then F.log ((10 : F) ^ v 0)
    else if l = "pea11:88" then c.c_12 * mag + c.c_13
    else if l = "pea11:90" then -6.95e-3 * mag + c.c_14
    else if l = "pea11:92" then F.sqrt (v 0 ^ 2 + (c.sigma_reg : F) ^ 2)
    else F.nan
  test := fun l i => if l = "pea11:87" then decide (i.1 ≤ 7) else false

end Pea11

namespace I14

/-- idriss_2014.py lines 69-91; input: magnitude, distance, site velocity, reverse faulting.  The table
the statements read is chosen in line 62 (`coeff`); its period column is `PERIODS`. -/
def kernel : Kernel (ℝ × ℝ × ℝ × Bool) Row where
  f := fun l i _ c v =>
    let mag := F.ofReal i.1
    let dist := F.ofReal i.2.1
    let vs30 := F.ofReal i.2.2.1
    let flag : F := if i.2.2.2 then 1 else 0
    if l = "i14:69" then c.alpha_1 + c.alpha_2 * mag + c.alpha_3 * (8.5 - mag) ^ 2
    else if l = "i14:70" then -(c.beta_1 + c.beta_2 * mag) * F.log (dist + 10) + c.gamma * dist
    else if l = "i14:74" then c.epsilon * F.log vs30
    else if l = "i14:75" then c.phi * flag
    else if l = "i14:77" then v 0 + v 1 + v 2 + v 3
    else if l = "i14:91" then 1.18 + 0.035 * F.log (F.clip c.period 0.05 3) - 0.06 * F.clip mag 5 7.5
    else F.nan
  test := fun _ _ => false

end I14

namespace AKB14

/-- akkar_sandikkaya_bommer_2014.py lines 75-101; input: magnitude, distance, site velocity, mechanism -/
def kernel : Kernel (ℝ × ℝ × ℝ × Mech) Row where
  f := fun l i vs c v =>
    let mag := F.ofReal i.1
    let dist := F.ofReal i.2.1
    let vs30 := F.ofReal i.2.2.1
    let vsRatio := vs30 / 750
    let pgaRef := F.exp ((vs.getD 0 []).getD 0 F.nan)
    if l = "akb14:75" then
      c.a_1 + c.a_3 * (8.5 - mag) ^ 2 + (c.a_4 + c.a_5 * (mag - c.c_1)) * F.log (F.sqrt (dist ^ 2 + (c.a_6 : F) ^ 2))
    else if l = "akb14:80" then maskLe mag c.c_1
    else if l = "akb14:81" then where_ (v 1) (v 0 + c.a_2 * (mag - c.c_1)) (v 0)
    else if l = "akb14:82" then where_ (v 1) (v 0) (v 0 + c.a_7 * (mag - c.c_1))
    else if l = "akb14:85" then v 0 + c.a_8
    else if l = "akb14:87" then v 0 + c.a_9
    else if l = "akb14:94" then
      c.b_1 * F.log vsRatio + c.b_2 * F.log ((pgaRef + c.c * vsRatio ^ (c.n : F)) / ((pgaRef + c.c) * vsRatio ^ (c.n : F)))
    else if l = "akb14:98" then c.b_1 * F.log (F.min vs30 c.v_con / 750)
    else if l = "akb14:100" then v 0 + v 1
    else if l = "akb14:101" then c.sd_total
    else F.nan
  test := fun l i =>
    if l = "akb14:84" then decide (i.2.2.2 = .ns)
    else if l = "akb14:86" then decide (i.2.2.2 = .rs)
    else if l = "akb14:92" then decide (i.2.2.1 ≤ 750)
    else false

end AKB14
