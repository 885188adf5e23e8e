import Verif.RowPrograms
import Verif.Models.BSSA14
import Verif.GMMClasses

/-! # The statements of the constructors as row formulas: Boore, Stewart, Seyhan & Atkinson (2014) -/

open Arrays Classical

noncomputable section

namespace BSSA14

/-- the class-level columns the programs bind to variables -/
structure Loaded (t : Tables) : Prop where
  dc_3ct : t "BooreStewartSeyhanAtkinson2014.dc_3ct" = table.map fun c => F.ofRat c.dc_3ct
  dc_3ij : t "BooreStewartSeyhanAtkinson2014.dc_3ij" = table.map fun c => F.ofRat c.dc_3ij
  dc_3global : t "BooreStewartSeyhanAtkinson2014.dc_3global" = table.map fun c => F.ofRat c.dc_3global

/-- boore_stewart_seyhan_atkinson_2014.py lines 123-302.  Line 123 takes entry `INDEX_PGA = 1` of the
reference array; line 202 asks whether it is a number, which is a property of the inputs. -/
def kernel : Kernel In Row where
  f := fun l i vs c v =>
    -- lines 173-200
    if l = "bssa14:174" then c.e_1
    else if l = "bssa14:176" then c.e_2
    else if l = "bssa14:178" then c.e_3
    else if l = "bssa14:181" then c.e_0
    else if l = "bssa14:183" then maskLe i.mag c.M_h
    else if l = "bssa14:184" then
      where_ (v 1) (v 0 + (c.e_4 * (i.mag - c.M_h) + c.e_5 * (i.mag - c.M_h) ^ 2)) (v 0)
    else if l = "bssa14:185" then where_ (v 1) (v 0) (v 0 + c.e_6 * (i.mag - c.M_h))
    else if l = "bssa14:197" then F.sqrt (i.jb ^ 2 + (c.h : F) ^ 2)
    else if l = "bssa14:198" then
      (c.c_1 + c.c_2 * (i.mag - c.M_ref)) * F.log (v 0 / c.R_ref) + ((c.c_3 : F) + v 1) * (v 0 - c.R_ref)
    -- lines 202-211
    else if l = "bssa14:204" then 0
    else if l = "bssa14:211" then v 0 + v 1 + v 2
    -- lines 247-270
    else if l = "bssa14:247" then c.c * F.log (F.min i.v c.V_c / c.V_ref)
    else if l = "bssa14:250" then
      c.f_4 * (F.exp (c.f_5 * (F.min i.v 760 - 360)) - F.exp (c.f_5 * (760 - 360)))
    else if l = "bssa14:253" then
      c.f_1 + v 0 * F.log ((F.exp ((vs.getD 1 []).getD 1 F.nan) + c.f_3) / c.f_3)
    else if l = "bssa14:256" then 0
    else if l = "bssa14:267" then maskLe 0.65 c.period
    else if l = "bssa14:268" then
      where_ (v 1)
        (F.min (c.f_6 * match i.z1 with
          | some z => z - F.exp (F.log (CY14.calcDepth10 i.v i.japanBasin))
          | none => 0) c.f_7) (v 0)
    else if l = "bssa14:270" then v 0 + v 1 + v 2
    -- lines 287-301
    else if l = "bssa14:287" then c.tau_1 + ((c.tau_2 : F) - c.tau_1) * (F.clip i.mag 4.5 5.5 - 4.5)
    else if l = "bssa14:288" then c.phi_1 + ((c.phi_2 : F) - c.phi_1) * (F.clip i.mag 4.5 5.5 - 4.5)
    else if l = "bssa14:291" then v 0 - c.dphi_V * F.clip (F.log (c.V_2 / i.v) / F.log ((c.V_2 : F) / c.V_1)) 0 1
    else if l = "bssa14:294" then
      v 0 + c.dphi_R * F.clip (F.log (F.max i.jb 0.1 / c.R_1) / F.log ((c.R_2 : F) / c.R_1)) 0 1
    else if l = "bssa14:301" then F.sqrt (v 1 ^ 2 + v 0 ^ 2)
    else F.nan
  test := fun l i =>
    if l = "bssa14:173" then decide (i.mech = .ss)
    else if l = "bssa14:175" then decide (i.mech = .ns)
    else if l = "bssa14:177" then decide (i.mech = .rs)
    else if l = "bssa14:189" then decide (i.reg = .chinaTurkey)
    else if l = "bssa14:191" then decide (i.reg = .italyJapan)
    else if l = "bssa14:202" then true
    else if l = "bssa14:202 2" then decide (¬ (pgaRef i).ok)
    else false

/-- tables that hold the columns of the class -/
def exTables : Tables := fun x =>
  if x = "BooreStewartSeyhanAtkinson2014.dc_3ct" then table.map fun c => F.ofRat c.dc_3ct
  else if x = "BooreStewartSeyhanAtkinson2014.dc_3ij" then table.map fun c => F.ofRat c.dc_3ij
  else if x = "BooreStewartSeyhanAtkinson2014.dc_3global" then table.map fun c => F.ofRat c.dc_3global
  else []

theorem ex_loaded : Loaded exTables := by
  constructor <;> rfl

end BSSA14
end
