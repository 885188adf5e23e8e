import Verif.Param

/-!
# The `PARAMS` declarations of every shipped model class

`Decls.all` lists every subclass of `model.Model` under src/pygmm.
-/

namespace Decls

/-- abrahamson_bhasin_2020.py lines 79-83 -/
def ab20 : List Param :=
  [numP "dist_rup" true (some 0) (some 300), numP "mag" true (some 3) (some 8),
   numP "v_s30" true (some 180) (some 1500)]

/-- abrahamson_gregor_addo_2016.py lines 43-53 -/
def aga16 : List Param :=
  [numP "mag" true (some 3) (some 8.5), numP "dist_rup" false, numP "dist_hyp" false,
   numP "depth_hyp" false, numP "v_s30" true (some 150) (some 1500),
   catP "event_type" true ["interface", "intraslab"],
   catP "tectonic_region" false ["forearc", "backarc", "unknown"] (.str "unknown")]

/-- abrahamson_silva_1996.py lines 23-28 -/
def as96 : List Param :=
  [numP "mag" true (some 4) (some 7.5), numP "dist_rup" true (some 0) (some 250),
   catP "site_cond" true ["soil", "rock"]]

/-- abrahamson_silva_kamai_2014.py lines 40-64 -/
def ask14 : List Param :=
  [numP "dist_rup" true none (some 300), numP "dist_jb" true, numP "mag" true (some 3) (some 8.5),
   numP "v_s30" true (some 180) (some 1000), numP "depth_1_0" false, numP "depth_tor" false,
   numP "dip" true, numP "dist_crjb" false none none (.num 15), numP "dist_x" false,
   numP "dist_y0" false, numP "width" false, catP "mechanism" true ["SS", "NS", "RS"],
   catP "region" false ["global", "california", "china", "italy", "japan", "taiwan"] (.str "global"),
   catP "vs_source" false ["measured", "inferred"] (.str "measured"),
   boolP "is_aftershock" false (.bool false), boolP "on_hanging_wall" false (.bool false)]

/-- afshari_stewart_2016.py lines 21-27 -/
def as16 : List Param :=
  [numP "mag" true (some 3) (some 7.9), numP "dist_rup" true (some 0) (some 200),
   numP "v_s30" true (some 200) (some 1000), catP "mechanism" true ["SS", "NS", "RS"],
   numP "depth_1_0" false]

/-- akkar_sandikkaya_bommer_2014.py lines 52-59 -/
def akb14 : List Param :=
  [numP "dist_jb" false (some 0) (some 200), numP "dist_epi" false (some 0) (some 200),
   numP "dist_hyp" false (some 0) (some 200), numP "mag" true (some 4) (some 8),
   numP "v_s30" true (some 150) (some 1200), catP "mechanism" true ["SS", "NS", "RS"]]

/-- atkinson_boore_2006.py lines 42-46 -/
def ab06 : List Param :=
  [numP "mag" true, numP "dist_rup" true, numP "v_s30" true]

/-- bayless_abrahamson_2019.py lines 39-46 -/
def ba19 : List Param :=
  [numP "dist_rup" true (some 0) (some 300), numP "mag" true (some 3) (some 8),
   numP "v_s30" true (some 180) (some 1500), numP "depth_tor" true (some 0) (some 20),
   numP "depth_1_0" false, catP "mechanism" false ["SS", "NS", "RS"] (.str "SS")]

/-- boore_stewart_seyhan_atkinson_2014.py lines 93-114 -/
def bssa14 : List Param :=
  [numP "mag" true (some 3) (some 8.5), numP "depth_1_0" false,
   numP "dist_jb" true none (some 300), numP "v_s30" true (some 150) (some 1500),
   catP "mechanism" false ["U", "SS", "NS", "RS"] (.str "U"),
   catP "region" false ["global", "california", "china", "italy", "japan", "new_zealand",
     "taiwan", "turkey"] (.str "global")]

/-- campbell_2003.py lines 34-37 -/
def c03 : List Param :=
  [numP "mag" true (some 5) (some 8.2), numP "dist_rup" true none (some 1000)]

/-- campbell_bozorgnia_2014.py lines 42-63 -/
def cb14 : List Param :=
  [numP "depth_1_0" false, numP "depth_2_5" false (some 0) (some 10), numP "depth_bor" false,
   numP "depth_bot" false none none (.num 15), numP "depth_hyp" false (some 0) (some 20),
   numP "depth_tor" false (some 0) (some 20), numP "dip" true (some 15) (some 90),
   numP "dist_jb" true, numP "dist_rup" true none (some 300), numP "dist_x" true,
   numP "mag" true (some 3.3) (some 8.5), numP "v_s30" true (some 150) (some 1500),
   numP "width" false,
   catP "region" false ["global", "california", "japan", "italy", "china"] (.str "global"),
   catP "mechanism" true ["SS", "NS", "RS"]]

/-- chiou_youngs_2014.py lines 42-60 -/
def cy14 : List Param :=
  [numP "dist_rup" true (some 0) (some 300), numP "dist_x" true, numP "dist_jb" true,
   numP "mag" true (some 3.5) (some 8.5), numP "v_s30" true (some 180) (some 1500),
   numP "depth_tor" false (some 0) (some 20), numP "depth_1_0" false,
   numP "dpp_centered" false none none (.num 0), numP "dip" true,
   catP "mechanism" false ["U", "SS", "NS", "RS"] (.str "U"),
   boolP "on_hanging_wall" false (.bool false),
   catP "region" false ["california", "china", "italy", "japan"] (.str "california"),
   catP "vs_source" false ["measured", "inferred"] (.str "measured")]

/-- coppersmith_bommer_2014.py lines 44-49 -/
def coppersmith : List Param :=
  [numP "mag" true (some 3) (some 8.5), numP "dist_rup" false,
   numP "v_s30" true (some 150) (some 1500), catP "event_type" true ["interface", "intraslab"]]

/-- derras_bard_cotton_2014.py lines 40-46 -/
def dbc14 : List Param :=
  [numP "dist_jb" true (some 5) (some 200), numP "mag" true (some 4) (some 7),
   numP "v_s30" true (some 200) (some 800), numP "depth_hyp" true (some 0) (some 25),
   catP "mechanism" true ["SS", "NS", "RS"]]

/-- gulerce_abrahamson_2011.py lines 38-44 -/
def ga11 : List Param :=
  [numP "dist_rup" true none (some 200), numP "mag" true (some 5) (some 8.5),
   numP "v_s30" true (some 450) (some 1200), numP "pga_ref" true (some 0.001) (some 10),
   catP "mechanism" true ["SS", "NS", "RS"]]

/-- hermkes_kuehn_riggelsen_2014.py lines 74-80 -/
def hkr14 : List Param :=
  [numP "depth_hyp" false (some 0) (some 40) (.num 15), numP "dist_jb" false (some 0) (some 200),
   numP "mag" true (some 4) (some 8), numP "v_s30" true (some 100) (some 1200),
   catP "mechanism" true ["SS", "NS", "RS"]]

/-- idriss_2014.py lines 39-44 -/
def i14 : List Param :=
  [numP "dist_rup" true none (some 150), numP "mag" true (some 5) none,
   numP "v_s30" true (some 450) (some 1200), catP "mechanism" true ["SS", "RS"] (.str "SS")]

/-- kempton_stewart_2006.py lines 23-27 -/
def ks06 : List Param :=
  [numP "mag" true (some 5) (some 7.6), numP "dist_rup" true (some 0) (some 200),
   numP "v_s30" true (some 200) (some 1000)]

/-- pezeshk_zandieh_tavakoli_2011.py lines 36-39 -/
def pea11 : List Param :=
  [numP "mag" true (some 5) (some 8), numP "dist_rup" true none (some 1000)]

/-- pinilla_ramos_et_al_2023.py lines 30-34 -/
def pr23 : List Param :=
  [numP "mag" true (some 4) (some 8), numP "dist_rup" true (some 0) (some 300),
   numP "v_s30" true (some 150) (some 2000)]

/-- pinilla_ramos_et_al_2024.py lines 49-57 -/
def pr24 : List Param :=
  [numP "mag" true (some 4.5) (some 8.5), numP "dist_rup" true (some 0) (some 300),
   numP "v_s30" true (some 150) (some 2000), catP "event_type" true ["interface", "slab"],
   catP "region" true ["Japan", "New Zealand", "South America", "Taiwan"]]

/-- tavakoli_pezeshk_2005.py lines 36-39 -/
def tp05 : List Param :=
  [numP "dist_rup" true none (some 1000), numP "mag" true (some 5) (some 8.2)]

/-- every shipped class with its declarations -/
def all : List (String × List Param) :=
  [("AbrahamsonBhasin2020", ab20), ("AbrahamsonGregorAddo2016", aga16),
   ("AbrahamsonSilva1996", as96), ("AbrahamsonSilvaKamai2014", ask14),
   ("AfshariStewart2016", as16), ("AkkarSandikkayaBommer2014", akb14),
   ("AtkinsonBoore2006", ab06), ("BaylessAbrahamson2019", ba19),
   ("BooreStewartSeyhanAtkinson2014", bssa14), ("Campbell2003", c03),
   ("CampbellBozorgnia2014", cb14), ("ChiouYoungs2014", cy14),
   ("CoppersmithBommer2014", coppersmith), ("DerrasBardCotton2014", dbc14),
   ("GulerceAbrahamson2011", ga11), ("HermkesKuehnRiggelsen2014", hkr14),
   ("Idriss2014", i14), ("KemptonStewart2006", ks06),
   ("PezeshkZandiehTavakoli2011", pea11), ("PinillaRamosEtAl2023", pr23),
   ("PinillaRamosEtAl2024", pr24), ("TavakoliPezeshk05", tp05)]

end Decls
