import Verif.RowPrograms
import Verif.Models.AGA16

/-! # The statements of the constructors as row formulas: Abrahamson, Gregor & Addo (2016), Coppersmith
& Bommer (2014) -/

open Arrays Classical

noncomputable section

namespace AGA16

/-- abrahamson_gregor_addo_2016.py lines 66-142, 144-248.  The rows are those of the table, each with its
entry of the caller's array (used by no formula); the methods `_calc_f_mag`, `_calc_f_site`,
`_calc_f_faba` and `_calc_f_depth` build new arrays, so they are taken over from the row model.  Line 215
asks whether the reference PGA, entry 0 of the first pass, is a number. -/
def kernel : Kernel (Adjust × In) (Row × F) where
  f := fun l a vs p v =>
    if l = "aga16:70" then -0.3
    else if l = "aga16:72" then adjustInterface p.1.period
    else if l = "aga16:81" then
      match a.1 with
      | .scalar x => F.ofReal x
      | _ => F.nan
    else if l = "aga16:122" then
      (p.1.t_2 + p.1.t_14 * (if a.2.ev = .intraslab then 1 else 0) + p.1.t_3 * (a.2.mag - 7.8)) *
        F.log (a.2.dist + p.1.c_4 * F.exp (p.1.t_9 * (a.2.mag - 6)))
    else if l = "aga16:126" then
      p.1.t_1 + p.1.t_4 * v 1 + v 0 + a.2.scale * p.1.t_6 * a.2.dist + p.1.t_10 * (if a.2.ev = .intraslab then 1 else 0)
        + fMag p.1.t_4 p.1.t_5 p.1.t_13 (v 1) a.2.mag + fSite p.1.v_lin p.1.b p.1.n p.1.c p.1.t_12 a.2.vs30 none
    else if l = "aga16:126 2" then
      p.1.t_1 + p.1.t_4 * v 1 + v 0 + a.2.scale * p.1.t_6 * a.2.dist + p.1.t_10 * (if a.2.ev = .intraslab then 1 else 0)
        + fMag p.1.t_4 p.1.t_5 p.1.t_13 (v 1) a.2.mag
        + fSite p.1.v_lin p.1.b p.1.n p.1.c p.1.t_12 a.2.vs30
          (if (F.exp ((vs.getD 2 []).getD 0 F.nan)).ok then some (F.exp ((vs.getD 2 []).getD 0 F.nan)) else none)
    else if l = "aga16:137" then v 0 + fFaba p.1 a.2.ev a.2.dist
    else if l = "aga16:140" then v 0 + fDepth p.1 a.2.depth
    else if l = "aga16:259" then F.sqrt ((p.1.phi : F) ^ 2 + (p.1.tau : F) ^ 2)
    else F.nan
  test := fun l a =>
    if l = "aga16:67" then (match a.1 with | .default => true | _ => false)
    else if l = "aga16:69" then decide (a.2.ev = .intraslab)
    else if l = "aga16:80" then (match a.1 with | .scalar _ => true | _ => false)
    else if l = "aga16:136" then a.2.backarc
    else if l = "aga16:139" then decide (a.2.ev = .intraslab)
    else false

end AGA16

namespace CoppersmithBommer

/-- numbers the formulas use -/
structure In where
  ev : AGA16.Ev
  mag : F
  dist : F
  vs30 : F
  scale : F

/-- abrahamson_gregor_addo_2016.py lines 66-83, coppersmith_bommer_2014.py lines 51-113 -/
def kernel : Kernel In Row where
  f := fun l i vs c v =>
    if l = "aga16:70" then -0.3
    else if l = "aga16:72" then AGA16.adjustInterface c.period
    else if l = "coppersmith_bommer_2014.py:81" then
      c.t_1 + c.t_4 * v 0 + (c.t_2 + c.t_3 * (i.mag - 7.8)) * F.log (i.dist + c.c_4 * F.exp (c.t_9 * (i.mag - 6)))
        + i.scale * c.t_6 * i.dist + AGA16.fMag c.t_4 c.t_5 c.t_13 (v 0) i.mag
        + AGA16.fSite c.v_lin c.b c.n c.c c.t_12 i.vs30 none + c.t_16 * F.log (F.max i.dist 40 / 40)
    else if l = "coppersmith_bommer_2014.py:81 2" then
      c.t_1 + c.t_4 * v 0 + (c.t_2 + c.t_3 * (i.mag - 7.8)) * F.log (i.dist + c.c_4 * F.exp (c.t_9 * (i.mag - 6)))
        + i.scale * c.t_6 * i.dist + AGA16.fMag c.t_4 c.t_5 c.t_13 (v 0) i.mag
        + AGA16.fSite c.v_lin c.b c.n c.c c.t_12 i.vs30
          (if (F.exp ((vs.getD 1 []).getD 0 F.nan)).ok then some (F.exp ((vs.getD 1 []).getD 0 F.nan)) else none)
        + c.t_16 * F.log (F.max i.dist 40 / 40)
    else if l = "aga16:259" then F.sqrt ((c.phi : F) ^ 2 + (c.tau : F) ^ 2)
    else F.nan
  test := fun l i =>
    if l = "aga16:67" then true
    else if l = "aga16:69" then decide (i.ev = .intraslab)
    else false

end CoppersmithBommer
end
