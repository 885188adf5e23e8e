import Verif.Models.RowKernels4
import Verif.Models.RowKernels5

/-! # The statements of `calc_site_term` as row formulas, called by a user with a number as reference PGA -/

open Arrays Classical

noncomputable section

/-- boore_stewart_seyhan_atkinson_2014.py lines 240-272: as in the constructor, with the given `pga_ref` in line 253 -/
def BSSA14.siteKernel : Kernel (F × BSSA14.In) BSSA14.Row where
  f := fun l i vs c v =>
    if l = "bssa14:253" then c.f_1 + v 0 * F.log ((i.1 + c.f_3) / c.f_3) else BSSA14.kernel.f l i.2 vs c v
  test := fun l i => BSSA14.kernel.test l i.2

/-- campbell_bozorgnia_2014.py lines 226-275: as in the constructor, with the given `pga_ref` in line 238 -/
def CB14.siteKernel : Kernel (F × CB14.In) CB14.Row where
  f := fun l i vs c v =>
    if l = "cb14:238 2" then
      where_ (v 2) (c.c_11 * F.log (v 1) + c.k_2 * (F.log (i.1 + 1.88 * v 1 ^ (1.18 : F)) - F.log (i.1 + 1.88))) (v 0)
    else CB14.kernel.f l i.2 vs c v
  test := fun l i => CB14.kernel.test l i.2

end
