import Verif.RowPrograms
import Verif.Models.GA11

/-! # The statements of the constructors as row formulas: Gülerce & Abrahamson (2011) -/

open Arrays Classical

noncomputable section

namespace GA11

/-- numbers the formulas use -/
structure In where
  mag : F
  dist : F
  vs30 : F
  pgaRef : F
  mech : Mech

/-- gulerce_abrahamson_2011.py lines 59-65, 107-180: the statements of `_calc_ln_ratio`, `_calc_ln_std`
and `ratio` -/
def kernel : Kernel In Row where
  f := fun l i _ c v =>
    if l = "ga11:111" then F.sqrt (i.dist ^ 2 + (c.c4 : F) ^ 2)
    else if l = "ga11:114" then
      c.a1 + c.a8 * (8.5 - i.mag) ^ 2 + (c.a2 + c.a3 * (i.mag - c.c1)) * F.log (v 0)
        + F.iteLt i.mag c.c1 (c.a4 * (i.mag - c.c1)) (c.a5 * (i.mag - c.c1))
    else if l = "ga11:123" then v1 c.period
    else if l = "ga11:141" then F.min i.vs30 (v 0)
    else if l = "ga11:142" then v 0 / c.v_lin
    else if l = "ga11:143" then
      c.a10 * F.log (v 0) - F.iteLt (v 1) c.v_lin
        (-c.b * F.log (i.pgaRef + c.c) + c.b * F.log (i.pgaRef + c.c * v 0 ^ (c.n : F)))
        (c.b * c.n * F.log (v 0))
    else if l = "ga11:152" then v 0 + v 1
    else if l = "ga11:154" then v 0 + c.a6
    else if l = "ga11:156" then v 0 + c.a7
    else if l = "ga11:170" then
      F.iteLt i.mag 5 c.s3 (F.iteLe i.mag 7 (c.s3 + 0.5 * (c.s4 - c.s3) * (i.mag - 5)) c.s4)
    else if l = "ga11:162" then
      F.iteLt i.mag 5 c.s1 (F.iteLe i.mag 7 (c.s1 + 0.5 * (c.s2 - c.s1) * (i.mag - 5)) c.s2)
    else if l = "ga11:179" then F.sqrt (v 0 ^ 2 + v 1 ^ 2)
    else if l = "ga11:61" then F.exp (v 0)
    else F.nan
  test := fun l i =>
    if l = "ga11:153" then decide (i.mech = .rs)
    else if l = "ga11:155" then decide (i.mech = .ns)
    else false

end GA11

/-- row formulas alone, for operations that do not use the accessors of model.py -/
def Arrays.rowsOnly {I Row : Type} (rows : List Row) (K : Kernel I Row) : VMeaning I where
  formula := fun l i _ _ vs => pw rows (K.f l i vs) vs
  test := fun l i _ => K.test l i

end
