import Verif.GMM
import Verif.Data.ASK14
import Verif.Data.CB14
import Verif.Data.CY14
import Verif.Data.BSSA14
import Verif.Data.AKB14
import Verif.Data.AB06
import Verif.Data.C03
import Verif.Data.TP05
import Verif.Data.Pea11
import Verif.Data.AGA16
import Verif.Data.CB14H
import Verif.Data.I14
import Verif.Data.DBC14

/-! # Class attributes of every shipped `GroundMotionModel` -/

/-- `np.arange(a, b)` -/
def arange (a b : ℕ) : List ℕ := (List.range (b - a)).map (a + ·)

namespace GmmClass

/-- abrahamson_silva_kamai_2014.py lines 34-38 -/
def ask14 : GmmClass :=
  { periods := ASK14.table.map (·.period), indicesPsa := arange 0 22,
    indexPga := some (-2), indexPgv := some (-1) }
/-- campbell_bozorgnia_2014.py lines 31-40 -/
def cb14 : GmmClass :=
  { periods := CB14.table.map (·.period), indicesPsa := arange 0 21,
    indexPga := some (-2), indexPgv := some (-1) }
/-- chiou_youngs_2014.py lines 36-40 -/
def cy14 : GmmClass :=
  { periods := CY14.table.map (·.period), indicesPsa := arange 0 24,
    indexPga := some 24, indexPgv := some 25 }
/-- boore_stewart_seyhan_atkinson_2014.py lines 81-85 -/
def bssa14 : GmmClass :=
  { periods := BSSA14.table.map (·.period), indicesPsa := arange 2 107,
    indexPga := some 1, indexPgv := some 0 }
/-- akkar_sandikkaya_bommer_2014.py lines 47-51 -/
def akb14 : GmmClass :=
  { periods := AKB14.jb.map (·.period), indicesPsa := arange 2 64,
    indexPga := some 0, indexPgv := some 1 }
/-- atkinson_boore_2006.py lines 32-40 -/
def ab06 : GmmClass :=
  { periods := AB06.bc.map (·.period), indicesPsa := arange 3 27,
    indexPga := some 2, indexPgv := some 1, indexPgd := some 0 }
/-- campbell_2003.py lines 30-32 -/
def c03 : GmmClass := { periods := C03.table.map (·.period), indicesPsa := arange 0 16 }
/-- tavakoli_pezeshk_2005.py lines 31-34 -/
def tp05 : GmmClass :=
  { periods := TP05.table.map (·.period), indicesPsa := arange 1 14, indexPga := some 0 }
/-- pezeshk_zandieh_tavakoli_2011.py lines 31-34 -/
def pea11 : GmmClass :=
  { periods := Pea11.table.map (·.period), indicesPsa := arange 1 23, indexPga := some 0 }
/-- abrahamson_gregor_addo_2016.py lines 31-34 -/
def aga16 : GmmClass :=
  { periods := AGA16.table.map (·.period), indicesPsa := arange 1 23, indexPga := some 0 }
/-- coppersmith_bommer_2014.py lines 31-35 -/
def coppersmith : GmmClass :=
  { periods := CoppersmithBommer.table.map (·.period), indicesPsa := arange 0 14,
    indexPga := some 0 }
/-- idriss_2014.py lines 34-37 -/
def i14 : GmmClass :=
  { periods := I14.small.map (·.period), indicesPsa := arange 0 22, indexPga := some 0 }
/-- hermkes_kuehn_riggelsen_2014.py lines 70-73 -/
def hkr14 : GmmClass :=
  { periods := [-1, 0.01, 0.1, 0.5, 1.0, 4.0], indicesPsa := arange 1 6,
    indexPga := some 1, indexPgv := some 0 }
/-- derras_bard_cotton_2014.py lines 35-39 -/
def dbc14 : GmmClass :=
  { periods := DBC14.table.map (·.period), indicesPsa := arange 2 64,
    indexPga := some 1, indexPgv := some 0 }

/-- every shipped subclass of `GroundMotionModel` -/
def all : List (String × GmmClass) :=
  [("AbrahamsonSilvaKamai2014", ask14), ("CampbellBozorgnia2014", cb14),
   ("ChiouYoungs2014", cy14), ("BooreStewartSeyhanAtkinson2014", bssa14),
   ("AkkarSandikkayaBommer2014", akb14), ("AtkinsonBoore2006", ab06), ("Campbell2003", c03),
   ("TavakoliPezeshk05", tp05), ("PezeshkZandiehTavakoli2011", pea11),
   ("AbrahamsonGregorAddo2016", aga16), ("CoppersmithBommer2014", coppersmith),
   ("Idriss2014", i14), ("HermkesKuehnRiggelsen2014", hkr14), ("DerrasBardCotton2014", dbc14)]

end GmmClass
