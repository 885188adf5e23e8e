import Verif.RowPrograms
import Verif.Models.CY14
import Verif.GMMClasses

/-! # The statements of the constructors as row formulas, continued -/

open Arrays Classical

noncomputable section

namespace CY14

/-- the class-level columns the programs bind to variables -/
structure Loaded (t : Tables) : Prop where
  gamma_ji : t "ChiouYoungs2014.gamma_ji" = table.map fun c => F.ofRat c.gamma_ji
  gamma_c : t "ChiouYoungs2014.gamma_c" = table.map fun c => F.ofRat c.gamma_c
  phi_1 : t "ChiouYoungs2014.phi_1" = table.map fun c => F.ofRat c.phi_1
  phi_1jp : t "ChiouYoungs2014.phi_1jp" = table.map fun c => F.ofRat c.phi_1jp
  phi_5 : t "ChiouYoungs2014.phi_5" = table.map fun c => F.ofRat c.phi_5
  phi_5jp : t "ChiouYoungs2014.phi_5jp" = table.map fun c => F.ofRat c.phi_5jp
  phi_6 : t "ChiouYoungs2014.phi_6" = table.map fun c => F.ofRat c.phi_6
  phi_6jp : t "ChiouYoungs2014.phi_6jp" = table.map fun c => F.ofRat c.phi_6jp
  sigma_2 : t "ChiouYoungs2014.sigma_2" = table.map fun c => F.ofRat c.sigma_2
  sigma_2jp : t "ChiouYoungs2014.sigma_2jp" = table.map fun c => F.ofRat c.sigma_2jp

/-- chiou_youngs_2014.py lines 81-262 -/
def kernel : Kernel In Row where
  f := fun l i _ c v =>
    let coshMag := F.cosh (2 * F.max (i.mag - 4.5) 0)
    let clippedMag := F.clip i.mag 5 6.5 - 5
    if l = "cy14:82" then c.c_1
    else if l = "cy14:86" then v 0 + (c.c_1a + c.c_1c / coshMag)
    else if l = "cy14:89" then v 0 + (c.c_1b + c.c_1d / coshMag)
    else if l = "cy14:92" then v 0 + c.c_2 * (i.mag - 6)
    else if l = "cy14:93" then
      v 0 + ((c.c_2 : F) - c.c_3) / c.c_n * F.log (1 + F.exp (c.c_n * ((c.c_m : F) - i.mag)))
    else if l = "cy14:97" then v 0 + (c.c_7 + c.c_7b / coshMag) * (i.tor - calcDepthTor i.mag (i.mech = .rs))
    else if l = "cy14:100" then v 0 + (c.c_11 + c.c_11b / coshMag) * F.cos (F.radians i.dip) ^ 2
    else if l = "cy14:103" then
      v 0 + c.c_4 * F.log (i.rup + c.c_5 * F.cosh (c.c_6 * F.max (i.mag - c.c_hm) 0))
    else if l = "cy14:106" then
      v 0 + ((c.c_4a : F) - c.c_4) * F.log (F.sqrt (i.rup ^ 2 + (c.c_rb : F) ^ 2))
    else if l = "cy14:114" then 1
    else if l = "cy14:115" then
      v 0 + v 1 * (c.c_gamma1 + c.c_gamma2 / F.cosh (F.max (i.mag - c.c_gamma3) 0)) * i.rup
    else if l = "cy14:122" then
      v 0 + c.c_8 * F.max (1 - F.max (i.rup - 40) 0 / 30) 0 * F.min (F.max (i.mag - 5.5) 0 / 0.8) 1 *
        F.exp (-c.c_8a * (i.mag - c.c_8b) ^ 2) * i.dpp
    else if l = "cy14:132" then
      v 0 + c.c_9 * F.cos (F.radians i.dip) * (c.c_9a + (1 - c.c_9a) * F.tanh (i.x / c.c_9b)) *
        (1 - F.sqrt (i.jb ^ 2 + i.tor ^ 2) / (i.rup + 1))
    else if l = "cy14:158" then F.exp (v 0)
    else if l = "cy14:201" then F.log (v 0)
    else if l = "cy14:204" then v 0 * F.min (F.log (i.v / 1130)) 0
    else if l = "cy14:206" then
      v 0 + c.phi_2 * (F.exp (c.phi_3 * (F.min i.v 1130 - 360)) - F.exp (c.phi_3 * (1130 - 360))) *
        F.log ((F.exp (v 1) + c.phi_4) / c.phi_4)
    else if l = "cy14:216" then
      v 0 + v 1 * (1 - F.exp (-(1000 * (i.z1 - calcDepth10 i.v (i.reg = .japan))) / v 2))
    else if l = "cy14:160" then v 0 + v 1
    else if l = "cy14:245" then c.tau_1 + ((c.tau_2 : F) - c.tau_1) / 1.5 * clippedMag
    else if l = "cy14:247" then
      c.phi_2 * (F.exp (c.phi_3 * (F.min i.v 1130 - 360)) - F.exp (c.phi_3 * (1130 - 360))) *
        (v 0 / (v 0 + c.phi_4))
    else if l = "cy14:257" then
      let flag : F := if i.measured then 1 else 0
      (c.sigma_1 + (v 0 - c.sigma_1) / 1.5 * clippedMag) *
        F.sqrt (c.sigma_3 * (1 - flag) + 0.7 * flag + (1 + v 1) ^ 2)
    else if l = "cy14:261" then F.sqrt ((1 + v 0) ^ 2 * v 1 ^ 2 + v 2 ^ 2)
    else if l = "cy14:262" then F.sqrt ((1 + v 0) ^ 2 * v 1 ^ 2)
    else F.nan
  test := fun l i =>
    if l = "cy14:84" then decide (i.mech = .rs)
    else if l = "cy14:87" then decide (i.mech = .ns)
    else if l = "cy14:109" then decide ((i.reg = .japan ∨ i.reg = .italy) ∧ 6 < i.mag.val ∧ i.mag.val < 6.9)
    else if l = "cy14:111" then decide (i.reg = .china)
    else if l = "cy14:131" then i.hw
    else if l = "cy14:189" then decide (i.reg = .japan)
    else if l = "cy14:239" then decide (i.reg = .japan)
    else false

/-- tables that hold the columns of the class -/
def exTables : Tables := fun x =>
  if x = "ChiouYoungs2014.gamma_ji" then table.map fun c => F.ofRat c.gamma_ji
  else if x = "ChiouYoungs2014.gamma_c" then table.map fun c => F.ofRat c.gamma_c
  else if x = "ChiouYoungs2014.phi_1" then table.map fun c => F.ofRat c.phi_1
  else if x = "ChiouYoungs2014.phi_1jp" then table.map fun c => F.ofRat c.phi_1jp
  else if x = "ChiouYoungs2014.phi_5" then table.map fun c => F.ofRat c.phi_5
  else if x = "ChiouYoungs2014.phi_5jp" then table.map fun c => F.ofRat c.phi_5jp
  else if x = "ChiouYoungs2014.phi_6" then table.map fun c => F.ofRat c.phi_6
  else if x = "ChiouYoungs2014.phi_6jp" then table.map fun c => F.ofRat c.phi_6jp
  else if x = "ChiouYoungs2014.sigma_2" then table.map fun c => F.ofRat c.sigma_2
  else if x = "ChiouYoungs2014.sigma_2jp" then table.map fun c => F.ofRat c.sigma_2jp
  else []

theorem ex_loaded : Loaded exTables := by
  constructor <;> rfl

end CY14
end
