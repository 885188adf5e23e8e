import Verif.RowPrograms
import Verif.Models.CB14
import Verif.GMMClasses

/-! # The statements of the constructors as row formulas: Campbell & Bozorgnia (2014) -/

open Arrays Classical

noncomputable section

namespace CB14

/-- the class-level columns the programs bind to variables -/
structure Loaded (t : Tables) : Prop where
  c_2 : t "CampbellBozorgnia2014.c_2" = table.map fun c => F.ofRat c.c_2
  c_3 : t "CampbellBozorgnia2014.c_3" = table.map fun c => F.ofRat c.c_3
  c_4 : t "CampbellBozorgnia2014.c_4" = table.map fun c => F.ofRat c.c_4
  dc_20jp : t "CampbellBozorgnia2014.dc_20jp" = table.map fun c => F.ofRat c.dc_20jp
  dc_20ch : t "CampbellBozorgnia2014.dc_20ch" = table.map fun c => F.ofRat c.dc_20ch
  dc_20ca : t "CampbellBozorgnia2014.dc_20ca" = table.map fun c => F.ofRat c.dc_20ca

/-- lines 152-153 -/
def r1Of (i : In) : F := i.width * F.cos (F.radians i.dip)
@[inherit_doc r1Of]
def r2Of (i : In) : F := 62 * i.mag - 350
/-- line 262 in the reference pass -/
def zRef (i : In) : F := depth25OfVs 1100 (i.reg = .japan)
/-- entry `INDEX_PGA` of an array -/
def atPga (a : Arr) : F := a.getD 21 F.nan
/-- line 106 -/
def pgaOf (a : Arr) : F := F.exp (a.getD 21 F.nan)

/-- campbell_bozorgnia_2014.py lines 106-331.  Line 106 takes entry `INDEX_PGA = -2`, the 22nd of 23, of
the reference array.  In the reference pass `pga_ref` is nan: the expression of lines 239-245 is nan, and
line 262 computes the depth. -/
def kernel : Kernel In Row where
  f := fun l i vs c v =>
    -- lines 132-149
    if l = "cb14:132" then c.c_0 + c.c_1 * i.mag
    else if l = "cb14:135-1" then v 0 + v 1 * (i.mag - 4.5)
    else if l = "cb14:135-2" then v 0 + v 1 * (i.mag - 5.5)
    else if l = "cb14:135-3" then v 0 + v 1 * (i.mag - 6.5)
    else if l = "cb14:140" then (c.c_5 + c.c_6 * i.mag) * F.log (F.sqrt (i.rup ^ 2 + (c.c_7 : F) ^ 2))
    else if l = "cb14:145" then c.c_8 * F.clip (i.mag - 4.5) 0 1
    else if l = "cb14:147" then c.c_9 * F.clip (i.mag - 4.5) 0 1
    else if l = "cb14:149" then 0
    -- lines 152-176
    else if l = "cb14:155" then 0
    else if l = "cb14:158" then c.h_1 + c.h_2 * (i.x / (r1Of i)) + c.h_3 * (i.x / (r1Of i)) ^ 2
    else if l = "cb14:161" then
      F.max 0 (c.h_4 + c.h_5 * ((i.x - (r1Of i)) / ((r2Of i) - (r1Of i))) + c.h_6 * ((i.x - (r1Of i)) / ((r2Of i) - (r1Of i))) ^ 2)
    else if l = "cb14:176" then
      c.c_10 * v 0 * F.iteEq i.rup 0 1 ((i.rup - i.jb) / i.rup) *
        F.iteLe i.mag 5.5 0 (F.min (i.mag - 5.5) 1 * (1 + c.a_2 * (i.mag - 6.5))) *
        F.iteLt 16.66 i.tor 0 (1 - 0.06 * i.tor) * ((90 - i.dip) / 45)
    -- lines 181-198
    else if l = "cb14:183" then F.clip (i.hyp - 7) 0 13 * (c.c_17 + (c.c_18 - c.c_17) * F.clip (i.mag - 5.5) 0 1)
    else if l = "cb14:186" then c.c_19 * i.dip * F.clip (5.5 - i.mag) 0 1
    else if l = "cb14:196" then (c.c_20 + v 0) * F.max (i.rup - 80) 0
    else if l = "cb14:198" then v 0 + v 1 + v 2 + v 3 + v 4 + v 5 + v 6 + v 7
    -- lines 235-255
    else if l = "cb14:235" then 0
    else if l = "cb14:236" then 1100 / c.k_1
    else if l = "cb14:236 2" then i.v / c.k_1
    else if l = "cb14:237" then maskLe 1100 c.k_1
    else if l = "cb14:237 2" then maskLe i.v c.k_1
    else if l = "cb14:238" then where_ (v 2) F.nan (v 0)
    else if l = "cb14:238 2" then
      where_ (v 2)
        (c.c_11 * F.log (v 1) + c.k_2 * (F.log (pgaOf (vs.getD 3 []) + 1.88 * v 1 ^ (1.18 : F)) - F.log (pgaOf (vs.getD 3 []) + 1.88))) (v 0)
    else if l = "cb14:246" then where_ (v 2) (v 0) ((c.c_11 + c.k_2 * 1.18) * F.log (v 1))
    else if l = "cb14:251" then v 0 + (c.c_12 + c.k_2 * 1.18) * (F.log (v 1) - F.log (200 / c.k_1))
    else if l = "cb14:255" then v 0 + (c.c_13 + c.k_2 * 1.18) * F.log (v 1)
    -- lines 264-275
    else if l = "cb14:265" then c.c_14 * ((zRef i) - 1)
    else if l = "cb14:265 2" then c.c_14 * (i.z25 - 1)
    else if l = "cb14:267" then v 0 + c.c_15 * ((zRef i) - 1)
    else if l = "cb14:267 2" then v 0 + c.c_15 * (i.z25 - 1)
    else if l = "cb14:269" then 0
    else if l = "cb14:271" then c.c_16 * c.k_3 * F.exp (-0.75) * (1 - F.exp (-0.25 * ((zRef i) - 3)))
    else if l = "cb14:271 2" then c.c_16 * c.k_3 * F.exp (-0.75) * (1 - F.exp (-0.25 * (i.z25 - 3)))
    else if l = "cb14:275" then v 0 + v 1
    -- lines 295-329
    else if l = "cb14:295" then c.tau_2 + (c.tau_1 - c.tau_2) * F.clip (5.5 - i.mag) 0 1
    else if l = "cb14:296" then c.phi_2 + (c.phi_1 - c.phi_2) * F.clip (5.5 - i.mag) 0 1
    else if l = "cb14:298" then i.v / c.k_1
    else if l = "cb14:299" then 0
    else if l = "cb14:300" then maskLt i.v c.k_1
    else if l = "cb14:301" then
      where_ (v 1) (c.k_2 * pgaOf (vs.getD 3 []) * (1 / (pgaOf (vs.getD 3 []) + 1.88 * v 2 ^ (1.18 : F)) - 1 / (pgaOf (vs.getD 3 []) + 1.88))) (v 0)
    else if l = "cb14:311" then
      F.sqrt (v 0 ^ 2 + v 1 ^ 2 * atPga (vs.getD 0 []) ^ 2 + 2 * v 1 * c.rho_lnPGAlnY * v 0 * atPga (vs.getD 0 []))
    else if l = "cb14:320" then F.sqrt (v 0 ^ 2 - (c.phi_lnAF : F) ^ 2)
    else if l = "cb14:322" then
      F.sqrt (v 0 ^ 2 + (c.phi_lnAF : F) ^ 2 + v 1 ^ 2 * (atPga (vs.getD 2 []) ^ 2 - (pgaRow.phi_lnAF : F) ^ 2) +
        2 * v 1 * c.rho_lnPGAlnY * v 0 * F.sqrt (atPga (vs.getD 2 []) ^ 2 - (pgaRow.phi_lnAF : F) ^ 2))
    else if l = "cb14:329" then F.sqrt (v 0 ^ 2 + v 1 ^ 2)
    else F.nan
  test := fun l i =>
    if l = "cb14:134-1" then decide (4.5 < i.mag.val)
    else if l = "cb14:134-2" then decide (5.5 < i.mag.val)
    else if l = "cb14:134-3" then decide (6.5 < i.mag.val)
    else if l = "cb14:144" then decide (i.mech = .rs)
    else if l = "cb14:146" then decide (i.mech = .ns)
    else if l = "cb14:154" then decide (i.x.val < 0)
    else if l = "cb14:156" then decide (i.x.val ≤ (i.width * F.cos (F.radians i.dip)).val)
    else if l = "cb14:189" then decide (i.reg = .japan ∨ i.reg = .italy)
    else if l = "cb14:191" then false
    else if l = "cb14:248" then decide (i.reg = .japan)
    else if l = "cb14:250" then false
    else if l = "cb14:250 2" then decide (i.v.val ≤ 200)
    else if l = "cb14:264" then decide ((zRef i).val ≤ 1)
    else if l = "cb14:264 2" then decide (i.z25.val ≤ 1)
    else if l = "cb14:266" then decide (i.reg = .japan)
    else if l = "cb14:268" then decide ((zRef i).val ≤ 3)
    else if l = "cb14:268 2" then decide (i.z25.val ≤ 3)
    else false

/-- tables that hold the columns of the class -/
def exTables : Tables := fun x =>
  if x = "CampbellBozorgnia2014.c_2" then table.map fun c => F.ofRat c.c_2
  else if x = "CampbellBozorgnia2014.c_3" then table.map fun c => F.ofRat c.c_3
  else if x = "CampbellBozorgnia2014.c_4" then table.map fun c => F.ofRat c.c_4
  else if x = "CampbellBozorgnia2014.dc_20jp" then table.map fun c => F.ofRat c.dc_20jp
  else if x = "CampbellBozorgnia2014.dc_20ch" then table.map fun c => F.ofRat c.dc_20ch
  else if x = "CampbellBozorgnia2014.dc_20ca" then table.map fun c => F.ofRat c.dc_20ca
  else []

theorem ex_loaded : Loaded exTables := by
  constructor <;> rfl

end CB14
end
