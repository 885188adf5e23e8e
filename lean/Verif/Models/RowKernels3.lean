import Verif.RowPrograms
import Verif.Models.ASK14
import Verif.GMMClasses

/-! # The statements of the constructors as row formulas: Abrahamson, Silva & Kamai (2014) -/

open Arrays Classical

noncomputable section

namespace ASK14

/-- abrahamson_silva_kamai_2014.py lines 76-261, 343-379; `_calc_f4` and `calc_depth_1_0` compute numbers
and a product, so they are taken over from the row model -/
def kernel : Kernel In Row where
  f := fun l i _ c v =>
    -- lines 349-379
    if l = "ask14:349" then F.sqrt (i.rup ^ 2 + (c.c4 - ((c.c4 : F) - 1) * F.clip (5 - i.mag) 0 1) ^ 2)
    else if l = "ask14:356" then c.a1
    else if l = "ask14:357" then maskLe i.mag c.m2
    else if l = "ask14:358" then
      where_ (v 1) (v 0 + (c.a4 * ((c.m2 : F) - c.m1) + c.a8 * (8.5 - (c.m2 : F)) ^ 2 + c.a6 * (i.mag - c.m2) +
        c.a7 * (i.mag - c.m2) ^ 2 + (c.a2 + c.a3 * ((c.m2 : F) - c.m1)) * F.log (v 2) + c.a17 * i.rup)) (v 0)
    else if l = "ask14:367" then
      where_ (v 1) (v 0) (v 0 + (c.a8 * (8.5 - i.mag) ^ 2 + (c.a2 + c.a3 * (i.mag - c.m1)) * F.log (v 2) + c.a17 * i.rup))
    else if l = "ask14:373" then where_ (v 0) 0 (maskLe i.mag c.m1)
    else if l = "ask14:374" then where_ (v 1) (v 0 + c.a4 * (i.mag - c.m1)) (v 0)
    else if l = "ask14:376" then where_ (v 0) 0 (maskLt c.m1 i.mag)
    else if l = "ask14:377" then where_ (v 1) (v 0 + c.a5 * (i.mag - c.m1)) (v 0)
    -- lines 109-153
    else if l = "ask14:111" then f4 c i
    else if l = "ask14:113" then 0
    else if l = "ask14:116" then c.a15 * F.clip (i.tor / 20) 0 1
    else if l = "ask14:119" then c.a11 * F.clip (i.mag - 4) 0 1
    else if l = "ask14:120" then 0
    else if l = "ask14:122" then 0
    else if l = "ask14:123" then c.a12 * F.clip (i.mag - 4) 0 1
    else if l = "ask14:125" then 0
    else if l = "ask14:131" then c.a14 * F.clip (1 - (i.crjb - 5) / 10) 0 1
    else if l = "ask14:133" then 0
    else if l = "ask14:136" then F.exp (-0.35 * F.log (F.clip c.period 0.5 3 / 0.5) + F.log 1500)
    else if l = "ask14:137" then F.min 1180 (v 0) / c.v_lin
    else if l = "ask14:137 2" then F.min i.v (v 0) / c.v_lin
    else if l = "ask14:138" then c.a31 * F.log (v 0) + c.a25 * i.rup
    else if l = "ask14:140" then c.a28 * i.rup
    else if l = "ask14:142" then f13 c 1180
    else if l = "ask14:142 2" then f13 c i.v
    else if l = "ask14:149" then v 0 + c.a29 * i.rup
    else if l = "ask14:151" then 0
    else if l = "ask14:153" then v 0 + v 1 + v 2 + v 3 + v 4 + v 5 + v 6 + v 7
    -- lines 187-218
    else if l = "ask14:187" then F.exp (-0.35 * F.log (F.clip c.period 0.5 3 / 0.5) + F.log 1500)
    else if l = "ask14:189" then F.min 1180 (v 0) / c.v_lin
    else if l = "ask14:189 2" then F.min i.v (v 0) / c.v_lin
    else if l = "ask14:191" then (c.a10 + (c.b : F) * c.n) * F.log (v 0)
    else if l = "ask14:193" then maskLt (v 0) 1
    else if l = "ask14:194" then
      where_ (v 1) (c.a10 * F.log (v 2) - c.b * F.log (F.nan + c.c) + c.b * F.log (F.nan + c.c * v 2 ^ (c.n : F))) (v 0)
    else if l = "ask14:194 2" then
      where_ (v 1) (c.a10 * F.log (v 2) - c.b * F.log (v 3 + c.c) + c.b * F.log (v 3 + c.c * v 2 ^ (c.n : F))) (v 0)
    else if l = "ask14:203" then 0
    else if l = "ask14:209 2" then basinSlope c i.v
    else if l = "ask14:216 2" then
      match i.z1 with
      | some z => v 0 * F.log ((z + 0.01) / (calcDepth10 i.v (i.reg = .japan) + 0.01))
      | none => F.nan
    else if l = "ask14:218" then v 0 + v 1
    -- lines 81, 236-261
    else if l = "ask14:81" then F.exp (v 0)
    else if l = "ask14:237" then c.s5 + ((c.s6 : F) - c.s5) * F.clip ((i.rup - 30) / 50) 0 1
    else if l = "ask14:241" then c.s1m + ((c.s2m : F) - c.s1m) * F.clip ((i.mag - 4) / 2) 0 1
    else if l = "ask14:243" then c.s1e + ((c.s2e : F) - c.s1e) * F.clip ((i.mag - 4) / 2) 0 1
    else if l = "ask14:245" then c.s3 + ((c.s4 : F) - c.s3) * F.clip ((i.mag - 5) / 2) 0 1
    else if l = "ask14:250" then F.sqrt (F.max (v 0 ^ 2 - 0.4 ^ 2) 0)
    else if l = "ask14:254" then
      -c.b * v 0 / (v 0 + c.c) + c.b * v 0 / (v 0 + c.c * (i.v / c.v_lin) ^ (c.n : F))
    else if l = "ask14:257" then where_ (maskLe c.v_lin i.v) 0 (v 0)
    else if l = "ask14:258" then v 0 * (1 + v 1)
    else if l = "ask14:259" then F.sqrt (v 0 ^ 2 * (1 + v 1) ^ 2 + 0.4 ^ 2)
    else if l = "ask14:261" then F.sqrt (v 0 ^ 2 + v 1 ^ 2)
    else F.nan
  test := fun l i =>
    if l = "ask14:109" then i.hw
    else if l = "ask14:118" then decide (i.mech = .rs)
    else if l = "ask14:121" then decide (i.mech = .ns)
    else if l = "ask14:130" then i.aftershock
    else if l = "ask14:135" then decide (i.reg = .taiwan)
    else if l = "ask14:139" then decide (i.reg = .china)
    else if l = "ask14:141" then decide (i.reg = .japan)
    else if l = "ask14:201" then true
    else if l = "ask14:201 2" then decide (i.v.val = 1180 ∨ i.z1 = none)
    else if l = "ask14:236" then decide (i.reg = .japan)
    else if l = "ask14:240" then i.measured
    else false

end ASK14
end
