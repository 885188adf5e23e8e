import Verif.Arrays

/-!
# What the methods of pygmm do to arrays

For every class with coefficient arrays: the constructor followed by the accessors that return arrays.
Labels are `file:line` of the statement.  Expressions without assignment effects (including calls of
methods that only build new arrays) are single formulas; calls of methods with in-place updates are
written out.  Numbers are not arrays; a branch that assigns a number to a variable is a `new`.  Where a
method is executed twice, first for the reference condition, the labels of the lines that depend on the
site end in ` 2` in the second pass.
-/

namespace Arrays
open Cmd

/-- model.py lines 299-315: `periods`, `spec_accels` and `ln_stds` index with integer arrays, which
copies -/
def gmmAccessors : List Cmd :=
  [new "spec_accels" "model.py:307" ["_ln_resp"], new "ln_stds" "model.py:315" ["_ln_std"],
   new "periods" "model.py:302" []]

/-- a ground motion model: constructor body, then all array accessors -/
def gmm (name : String) (body : List Cmd) : Method :=
  ⟨name, block (body ++ gmmAccessors), ["spec_accels", "ln_stds", "periods"]⟩

/-- abrahamson_gregor_addo_2016.py lines 66-83 -/
def aga16Adjust : List Cmd :=
  [ite "aga16:67" (ite "aga16:69" (new "_adjust_c1" "aga16:70" []) (new "_adjust_c1" "aga16:72" []))
     (ite "aga16:80" (new "_adjust_c1" "aga16:81" []) (bind "_adjust_c1" (.arg "adjust_c1")))]

/-- abrahamson_gregor_addo_2016.py lines 116-142: `_calc_ln_resp` -/
def aga16Resp (k r : String) (vars : List String) : List Cmd :=
  [new "path_atten" "aga16:122" [], new r ("aga16:126" ++ k) ("path_atten" :: "_adjust_c1" :: vars),
   ite "aga16:136" (write r "aga16:137" [r]) skip, ite "aga16:139" (write r "aga16:140" [r]) skip]

/-- abrahamson_gregor_addo_2016.py lines 55-142, 236-248 -/
def aga16 : Method :=
  gmm "AbrahamsonGregorAddo2016"
    (aga16Adjust ++ aga16Resp "" "ln_resp_ref" [] ++ aga16Resp " 2" "_ln_resp" ["ln_resp_ref"] ++
      [new "_ln_std" "aga16:259" []])

/-- coppersmith_bommer_2014.py lines 51-113 (a subclass of AbrahamsonGregorAddo2016) -/
def coppersmith : Method :=
  gmm "CoppersmithBommer2014"
    (aga16Adjust ++
      [new "ln_resp_ref" "coppersmith_bommer_2014.py:81" ["_adjust_c1"],
       new "_ln_resp" "coppersmith_bommer_2014.py:81 2" ["_adjust_c1", "ln_resp_ref"],
       new "_ln_std" "aga16:259" []])

/-- abrahamson_silva_kamai_2014.py lines 343-379: `_calc_f1` -/
def ask14F1 : List Cmd :=
  [new "dist" "ask14:349" [], new "f1" "ask14:356" [], new "ma1" "ask14:357" [],
   write "f1" "ask14:358" ["f1", "ma1", "dist"], write "f1" "ask14:367" ["f1", "ma1", "dist"],
   new "ma2" "ask14:373" ["ma1"], write "f1" "ask14:374" ["f1", "ma2"], new "ma3" "ask14:376" ["ma1"],
   write "f1" "ask14:377" ["f1", "ma3"]]

/-- abrahamson_silva_kamai_2014.py lines 155-217: `calc_site_term`, leaving the result in
`site_term` -/
def ask14Site (k : String) (vars : List String) : List Cmd :=
  [new "v_1" "ask14:187" [], new "vs_ratio" ("ask14:189" ++ k) ["v_1"], new "f5" "ask14:191" ["vs_ratio"],
   new "mask" "ask14:193" ["vs_ratio"], write "f5" ("ask14:194" ++ k) ("f5" :: "mask" :: "vs_ratio" :: vars),
   ite ("ask14:201" ++ k) (new "f10" "ask14:203" []) (block [new "slope" ("ask14:209" ++ k) [], new "f10" ("ask14:216" ++ k) ["slope"]]),
   new "site_term" "ask14:218" ["f5", "f10"]]

/-- abrahamson_silva_kamai_2014.py lines 85-153: `_calc_ln_resp` -/
def ask14Resp (k r : String) (vars : List String) : List Cmd :=
  ask14F1 ++
  [ite "ask14:109" (new "f4" "ask14:111" []) (new "f4" "ask14:113" []), new "f6" "ask14:116" [],
   ite "ask14:118" (block [new "f7" "ask14:119" [], new "f8" "ask14:120" []])
     (ite "ask14:121" (block [new "f7" "ask14:122" [], new "f8" "ask14:123" []])
       (block [new "f7" "ask14:125" [], new "f8" "ask14:125" []]))] ++
  ask14Site k vars ++
  [ite "ask14:130" (new "f11" "ask14:131" []) (new "f11" "ask14:133" []),
   ite "ask14:135" (block [new "v_1" "ask14:136" [], new "vs_ratio" ("ask14:137" ++ k) ["v_1"], new "freg" "ask14:138" ["vs_ratio"]])
     (ite "ask14:139" (new "freg" "ask14:140" [])
       (ite "ask14:141" (block [new "f13" ("ask14:142" ++ k) [], new "freg" "ask14:149" ["f13"]]) (new "freg" "ask14:151" []))),
   new r "ask14:153" ["f1", "f4", "f6", "f7", "f8", "f11", "freg", "site_term"]]

/-- abrahamson_silva_kamai_2014.py lines 219-261: `_calc_ln_std` -/
def ask14Std : List Cmd :=
  [ite "ask14:236" (new "phi_al" "ask14:237" []) (ite "ask14:240" (new "phi_al" "ask14:241" []) (new "phi_al" "ask14:243" [])),
   new "tau_al" "ask14:245" [], bind "tau_b" (.var "tau_al"), new "phi_b" "ask14:250" ["phi_al"],
   new "deriv" "ask14:254" ["resp_ref"], write "deriv" "ask14:257" ["deriv"], new "_tau" "ask14:258" ["tau_b", "deriv"],
   new "_phi" "ask14:259" ["phi_b", "deriv"], new "_ln_std" "ask14:261" ["_phi", "_tau"]]

/-- abrahamson_silva_kamai_2014.py lines 76-83: the constructor -/
def ask14 : Method :=
  gmm "AbrahamsonSilvaKamai2014"
    (ask14Resp "" "ln_resp_ref" [] ++ [new "resp_ref" "ask14:81" ["ln_resp_ref"]] ++ ask14Resp " 2" "_ln_resp" ["resp_ref"] ++ ask14Std)

/-- abrahamson_silva_kamai_2014.py lines 155-217: `calc_site_term` called by a user -/
def ask14SiteTerm : Method :=
  ⟨"AbrahamsonSilvaKamai2014.calc_site_term",
    block ([bind "resp_ref" (.arg "resp_ref")] ++ ask14Site " 2" ["resp_ref"]), ["site_term"]⟩

/-- akkar_sandikkaya_bommer_2014.py lines 61-101: the constructor -/
def akb14 : Method :=
  gmm "AkkarSandikkayaBommer2014"
    [new "ln_resp_ref" "akb14:75" [], new "mask" "akb14:80" [], write "ln_resp_ref" "akb14:81" ["ln_resp_ref", "mask"],
     write "ln_resp_ref" "akb14:82" ["ln_resp_ref", "mask"],
     ite "akb14:84" (write "ln_resp_ref" "akb14:85" ["ln_resp_ref"])
       (ite "akb14:86" (write "ln_resp_ref" "akb14:87" ["ln_resp_ref"]) skip),
     ite "akb14:92" (new "site" "akb14:94" ["ln_resp_ref"]) (new "site" "akb14:98" []),
     new "_ln_resp" "akb14:100" ["ln_resp_ref", "site"], new "_ln_std" "akb14:101" []]

/-- atkinson_boore_2006.py lines 48-112: the constructor -/
def ab06 : Method :=
  gmm "AtkinsonBoore2006"
    [new "log10_resp" "ab06:75" [], write "log10_resp" "ab06:86" ["log10_resp"],
     ite "ab06:88"
       (block
         [ite "ab06:157" (bind "b_nl" (.column "AtkinsonBoore2006.site.b_1"))
            (ite "ab06:159" (new "b_nl" "ab06:160" []) (ite "ab06:161" (new "b_nl" "ab06:162" []) (new "b_nl" "ab06:165" []))),
          new "log10_site" "ab06:169" ["log10_resp", "b_nl"], new "log10_site" "ab06:172" ["log10_site"],
          write "log10_resp" "ab06:94" ["log10_resp", "log10_site"]])
       skip,
     write "log10_resp" "ab06:97" ["log10_resp"], new "_ln_resp" "ab06:99" ["log10_resp"], new "_ln_std" "ab06:111" []]

/-- bayless_abrahamson_2019.py lines 80-135: `_calc_ln_eas(None)`, which computes one number -/
def ba19Ref : List Cmd := [new "ln_eas_ref" "ba19:84-118" []]

/-- bayless_abrahamson_2019.py lines 94-166: `_calc_ln_eas` with the site response, and
`_calc_site_response` -/
def ba19Eas : List Cmd :=
  [new "f_M" "ba19:97" [], new "f_P" "ba19:103" [], new "f_Ztor" "ba19:110" [],
   ite "ba19:112" (bind "f_NM" (.column "BaylessAbrahamson2019.c10")) (new "f_NM" "ba19:112" []),
   new "c11" "ba19:114" [], new "f_Z1" "ba19:117" ["c11"], new "ln_eas" "ba19:121" ["f_M", "f_P", "f_Ztor", "f_NM", "f_Z1"],
   new "f_sl" "ba19:144" ["ln_eas_ref"], new "f2" "ba19:146" [], new "f_nl" "ba19:151" ["f2", "ln_eas_ref"],
   write "f_nl" "ba19:157" ["f_nl"], new "kernel" "ba19:159" [], new "f_nl" "ba19:160" ["f_nl", "kernel"],
   write "f_nl" "ba19:162" ["f_nl"], new "f_s" "ba19:164" ["f_sl", "f_nl"],
   write "ln_eas" "ba19:125" ["ln_eas", "f_s"], new "dimin" "ba19:131" [], new "_ln_eas" "ba19:134" ["ln_eas", "dimin"]]

/-- bayless_abrahamson_2019.py lines 48-71, 168-182: the constructor, then `eas`, `ln_eas` and
`ln_std`, which return the stored arrays -/
def ba19 : Method :=
  ⟨"BaylessAbrahamson2019",
    block (ba19Ref ++ ba19Eas ++
      [new "tau" "ba19:176" [], new "phi_s2s" "ba19:177" [], new "phi_ss" "ba19:178" [],
       new "_ln_std" "ba19:180" ["tau", "phi_s2s", "phi_ss"], new "eas" "ba19:67" ["_ln_eas"],
       bind "ln_eas" (.var "_ln_eas"), bind "ln_std" (.var "_ln_std")]), ["eas", "ln_eas", "ln_std"]⟩

/-- bayless_abrahamson_2019.py lines 57-59: `freqs` returns the class attribute, a column of the
table -/
def ba19Freqs : Method :=
  ⟨"BaylessAbrahamson2019.freqs", bind "freqs" (.column "BaylessAbrahamson2019.freq_hz"), ["freqs"]⟩

/-- boore_stewart_seyhan_atkinson_2014.py lines 214-272: `calc_site_term` -/
def bssa14Site (vars : List String) : List Cmd :=
  [new "f_lin" "bssa14:247" [], new "f_2" "bssa14:250" [], new "f_nl" "bssa14:253" ("f_2" :: vars), new "F_dz1" "bssa14:256" [],
   new "mask" "bssa14:267" [], write "F_dz1" "bssa14:268" ["F_dz1", "mask"], new "site" "bssa14:270" ["f_lin", "f_nl", "F_dz1"]]

/-- boore_stewart_seyhan_atkinson_2014.py lines 153-212: `_calc_ln_resp` -/
def bssa14Resp (k r : String) (vars : List String) : List Cmd :=
  [ite "bssa14:173" (new "event" "bssa14:174" []) (ite "bssa14:175" (new "event" "bssa14:176" [])
     (ite "bssa14:177" (new "event" "bssa14:178" []) (new "event" "bssa14:181" []))),
   new "mask" "bssa14:183" [], write "event" "bssa14:184" ["event", "mask"], write "event" "bssa14:185" ["event", "mask"],
   ite "bssa14:189" (bind "dc_3" (.column "BooreStewartSeyhanAtkinson2014.dc_3ct"))
     (ite "bssa14:191" (bind "dc_3" (.column "BooreStewartSeyhanAtkinson2014.dc_3ij"))
       (bind "dc_3" (.column "BooreStewartSeyhanAtkinson2014.dc_3global"))),
   new "dist" "bssa14:197" [], new "path" "bssa14:198" ["dist", "dc_3"],
   ite ("bssa14:202" ++ k) (new "site" "bssa14:204" []) (block (bssa14Site vars)), new r "bssa14:211" ["event", "path", "site"]]

/-- boore_stewart_seyhan_atkinson_2014.py lines 116-125, 274-302: the constructor -/
def bssa14 : Method :=
  gmm "BooreStewartSeyhanAtkinson2014"
    (bssa14Resp "" "ln_resp_ref" [] ++ bssa14Resp " 2" "_ln_resp" ["ln_resp_ref"] ++
      [new "_tau" "bssa14:287" [], new "_phi" "bssa14:288" [], write "_phi" "bssa14:291" ["_phi"], write "_phi" "bssa14:294" ["_phi"],
       new "_ln_std" "bssa14:301" ["_tau", "_phi"]])

/-- boore_stewart_seyhan_atkinson_2014.py lines 214-272: `calc_site_term` called by a user -/
def bssa14SiteTerm : Method := ⟨"BooreStewartSeyhanAtkinson2014.calc_site_term", block (bssa14Site []), ["site"]⟩

/-- campbell_2003.py lines 39-97: the constructor; for large magnitudes `_ln_std` is the column `c_13`
itself -/
def c03 : Method :=
  gmm "Campbell2003"
    [new "f_1" "c03:57" [], new "f_2" "c03:59" [],
     ite "c03:67" (new "f_3" "c03:68" [])
       (block [new "f_3" "c03:70" [], ite "c03:72" (write "f_3" "c03:73" ["f_3"]) skip]),
     new "_ln_resp" "c03:76" ["f_1", "f_2", "f_3"],
     ite "c03:92" (new "_ln_std" "c03:93" []) (bind "_ln_std" (.column "Campbell2003.c_13"))]

/-- campbell_bozorgnia_2014.py lines 201-275: `calc_site_term`, leaving the result in `site_term` -/
def cb14Site (k : String) (vars : List String) : List Cmd :=
  [new "f_site" "cb14:235" [], new "vs_ratio" ("cb14:236" ++ k) [], new "mask" ("cb14:237" ++ k) [],
   write "f_site" ("cb14:238" ++ k) ("f_site" :: "vs_ratio" :: "mask" :: vars), write "f_site" "cb14:246" ["f_site", "vs_ratio", "mask"],
   ite "cb14:248" (ite ("cb14:250" ++ k) (write "f_site" "cb14:251" ["f_site", "vs_ratio"]) (write "f_site" "cb14:255" ["f_site", "vs_ratio"])) skip,
   ite ("cb14:264" ++ k) (block [new "f_sed" ("cb14:265" ++ k) [], ite "cb14:266" (write "f_sed" ("cb14:267" ++ k) ["f_sed"]) skip])
     (ite ("cb14:268" ++ k) (new "f_sed" "cb14:269" []) (new "f_sed" ("cb14:271" ++ k) [])),
   new "site_term" "cb14:275" ["f_site", "f_sed"]]

/-- campbell_bozorgnia_2014.py lines 131-137; the loop has three rounds, each binding `slope` to a
column -/
def cb14Mag : List Cmd :=
  [new "f_mag" "cb14:132" [],
   bind "slope" (.column "CampbellBozorgnia2014.c_2"),
   ite "cb14:134-1" (block [write "f_mag" "cb14:135-1" ["f_mag", "slope"], bind "slope" (.column "CampbellBozorgnia2014.c_3"),
     ite "cb14:134-2" (block [write "f_mag" "cb14:135-2" ["f_mag", "slope"], bind "slope" (.column "CampbellBozorgnia2014.c_4"),
       ite "cb14:134-3" (write "f_mag" "cb14:135-3" ["f_mag", "slope"]) skip]) skip]) skip]

/-- campbell_bozorgnia_2014.py lines 139-149 -/
def cb14Flt : List Cmd :=
  [new "f_dis" "cb14:140" [],
   ite "cb14:144" (new "f_flt" "cb14:145" []) (ite "cb14:146" (new "f_flt" "cb14:147" []) (new "f_flt" "cb14:149" []))]

/-- campbell_bozorgnia_2014.py lines 151-176 -/
def cb14Hng : List Cmd :=
  [ite "cb14:154" (new "f_hngRx" "cb14:155" []) (ite "cb14:156" (new "f_hngRx" "cb14:158" []) (new "f_hngRx" "cb14:161" [])),
   new "f_hng" "cb14:176" ["f_hngRx"]]

/-- campbell_bozorgnia_2014.py lines 110-199: `_calc_ln_resp` -/
def cb14Resp (k r : String) (vars : List String) : List Cmd :=
  cb14Mag ++ cb14Flt ++ cb14Hng ++
  cb14Site k vars ++
  [new "f_hyp" "cb14:183" [], new "f_dip" "cb14:186" [],
   ite "cb14:189" (bind "dc_20" (.column "CampbellBozorgnia2014.dc_20jp"))
     (ite "cb14:191" (bind "dc_20" (.column "CampbellBozorgnia2014.dc_20ch")) (bind "dc_20" (.column "CampbellBozorgnia2014.dc_20ca"))),
   new "f_atn" "cb14:196" ["dc_20"],
   new r "cb14:198" ["f_mag", "f_dis", "f_flt", "f_hng", "site_term", "f_hyp", "f_dip", "f_atn"]]

/-- campbell_bozorgnia_2014.py lines 295-308 -/
def cb14Alpha : List Cmd :=
  [new "tau_lnY" "cb14:295" [], new "phi_lnY" "cb14:296" [], new "vs_ratio" "cb14:298" [], new "alpha" "cb14:299" [],
   new "mask" "cb14:300" [], write "alpha" "cb14:301" ["alpha", "mask", "vs_ratio", "ln_resp_ref"]]

/-- campbell_bozorgnia_2014.py lines 310-329 -/
def cb14Std : List Cmd :=
  [new "_tau" "cb14:311" ["tau_lnY", "alpha"], new "phi_lnY_B" "cb14:320" ["phi_lnY"],
   new "_phi" "cb14:322" ["phi_lnY_B", "alpha", "phi_lnY"], new "_ln_std" "cb14:329" ["_phi", "_tau"]]

/-- campbell_bozorgnia_2014.py lines 98-108, 277-331: the constructor -/
def cb14 : Method :=
  gmm "CampbellBozorgnia2014"
    (cb14Resp "" "ln_resp_ref" [] ++ cb14Resp " 2" "_ln_resp" ["ln_resp_ref"] ++ cb14Alpha ++ cb14Std)

/-- campbell_bozorgnia_2014.py lines 201-275: `calc_site_term` called by a user -/
def cb14SiteTerm : Method := ⟨"CampbellBozorgnia2014.calc_site_term", block (cb14Site " 2" []), ["site_term"]⟩

/-- chiou_youngs_2014.py lines 69-139: `_calc_ln_resp_ref` -/
def cy14Ref : List Cmd :=
  [new "ln_resp" "cy14:82" [],
   ite "cy14:84" (write "ln_resp" "cy14:86" ["ln_resp"]) (ite "cy14:87" (write "ln_resp" "cy14:89" ["ln_resp"]) skip),
   write "ln_resp" "cy14:92" ["ln_resp"], write "ln_resp" "cy14:93" ["ln_resp"], write "ln_resp" "cy14:97" ["ln_resp"],
   write "ln_resp" "cy14:100" ["ln_resp"], write "ln_resp" "cy14:103" ["ln_resp"], write "ln_resp" "cy14:106" ["ln_resp"],
   ite "cy14:109" (bind "scale" (.column "ChiouYoungs2014.gamma_ji"))
     (ite "cy14:111" (bind "scale" (.column "ChiouYoungs2014.gamma_c")) (new "scale" "cy14:114" [])),
   write "ln_resp" "cy14:115" ["ln_resp", "scale"], write "ln_resp" "cy14:122" ["ln_resp"],
   ite "cy14:131" (write "ln_resp" "cy14:132" ["ln_resp"]) skip]

/-- chiou_youngs_2014.py lines 163-218: `calc_site_term` of the response in `resp_ref` -/
def cy14Site : List Cmd :=
  [ite "cy14:189"
     (block [bind "phi_1" (.column "ChiouYoungs2014.phi_1jp"), bind "phi_5" (.column "ChiouYoungs2014.phi_5jp"),
       bind "phi_6" (.column "ChiouYoungs2014.phi_6jp")])
     (block [bind "phi_1" (.column "ChiouYoungs2014.phi_1"), bind "phi_5" (.column "ChiouYoungs2014.phi_5"),
       bind "phi_6" (.column "ChiouYoungs2014.phi_6")]),
   new "ln_resp_ref" "cy14:201" ["resp_ref"], new "site_term" "cy14:204" ["phi_1"],
   write "site_term" "cy14:206" ["site_term", "ln_resp_ref"], write "site_term" "cy14:216" ["site_term", "phi_5", "phi_6"]]

/-- chiou_youngs_2014.py lines 62-67, 141-161, 220-261: the constructor -/
def cy14 : Method :=
  gmm "ChiouYoungs2014"
    (cy14Ref ++ [new "resp_ref" "cy14:158" ["ln_resp"]] ++ cy14Site ++
      [new "_ln_resp" "cy14:160" ["ln_resp", "site_term"],
       ite "cy14:239" (bind "sigma_2" (.column "ChiouYoungs2014.sigma_2jp")) (bind "sigma_2" (.column "ChiouYoungs2014.sigma_2")),
       new "tau" "cy14:245" [], new "nl_0" "cy14:247" ["resp_ref"], new "_phi" "cy14:257" ["sigma_2", "nl_0"],
       new "_ln_std" "cy14:261" ["nl_0", "tau", "_phi"], new "_tau" "cy14:262" ["nl_0", "tau"]])

/-- chiou_youngs_2014.py lines 163-218: `calc_site_term` called by a user -/
def cy14SiteTerm : Method :=
  ⟨"ChiouYoungs2014.calc_site_term", block ([bind "resp_ref" (.arg "resp_ref")] ++ cy14Site), ["site_term"]⟩

/-- derras_bard_cotton_2014.py lines 48-88: the constructor; the coefficient lists are copied into
arrays -/
def dbc14 : Method :=
  gmm "DerrasBardCotton2014"
    [new "values" "dbc14:62" [], new "limits" "dbc14:63" [], new "p_n" "dbc14:64" ["values", "limits"], new "b_1" "dbc14:69" [],
     new "b_2" "dbc14:70" [], new "w_1" "dbc14:71" [], new "w_2" "dbc14:72" [],
     new "log10_resp_n" "dbc14:74" ["b_1", "b_2", "w_1", "w_2", "p_n"], new "log10_resp" "dbc14:78" ["log10_resp_n"],
     new "scale" "dbc14:85" [], new "_ln_resp" "dbc14:87" ["log10_resp", "scale"], new "_ln_std" "dbc14:88" []]

/-- gulerce_abrahamson_2011.py lines 46-189: the constructor, then `ratio` and `ln_std` -/
def ga11 : Method :=
  ⟨"GulerceAbrahamson2011",
    block
      [new "dist" "ga11:111" [], new "f1" "ga11:114" ["dist"], new "v_1" "ga11:123" [], new "v_s30_lim" "ga11:141" ["v_1"],
       new "vs_ratio" "ga11:142" ["v_s30_lim"], new "f5" "ga11:143" ["vs_ratio", "v_s30_lim"], new "ln_ratio" "ga11:152" ["f1", "f5"],
       ite "ga11:153" (write "ln_ratio" "ga11:154" ["ln_ratio"]) (ite "ga11:155" (write "ln_ratio" "ga11:156" ["ln_ratio"]) skip),
       bind "_ln_ratio" (.var "ln_ratio"), new "between" "ga11:170" [], new "within" "ga11:162" [],
       new "_ln_std" "ga11:179" ["between", "within"], new "ratio" "ga11:61" ["_ln_ratio"], bind "ln_std" (.var "_ln_std")],
    ["ratio", "ln_std"]⟩

/-- idriss_2014.py lines 46-97: the constructor -/
def i14 : Method :=
  gmm "Idriss2014"
    [new "f_mag" "i14:69" [], new "f_dst" "i14:70" [], new "f_ste" "i14:74" [], new "f_mec" "i14:75" [],
     new "_ln_resp" "i14:77" ["f_mag", "f_dst", "f_ste", "f_mec"], new "_ln_std" "i14:91" []]

/-- pezeshk_zandieh_tavakoli_2011.py lines 41-94: the constructor -/
def pea11 : Method :=
  gmm "PezeshkZandiehTavakoli2011"
    [new "dist" "pea11:59" [], new "log10_resp" "pea11:61" ["dist"], new "_ln_resp" "pea11:72" ["log10_resp"],
     ite "pea11:87" (new "ln_std_mean" "pea11:88" []) (new "ln_std_mean" "pea11:90" []), new "_ln_std" "pea11:92" ["ln_std_mean"]]

/-- tavakoli_pezeshk_2005.py lines 41-101: the constructor; for large magnitudes `_ln_std` is the column
`c_16` itself -/
def tp05 : Method :=
  gmm "TavakoliPezeshk05"
    [new "f1" "tp05:60" [], new "f2" "tp05:63" [], ite "tp05:65" (write "f2" "tp05:66" ["f2"]) skip,
     ite "tp05:68" (write "f2" "tp05:69" ["f2"]) skip, new "dist" "tp05:73" [], new "f3" "tp05:77" ["dist"],
     new "_ln_resp" "tp05:80" ["f1", "f2", "f3"],
     ite "tp05:96" (new "_ln_std" "tp05:97" []) (bind "_ln_std" (.column "TavakoliPezeshk05.c_16"))]

/-- bayless_abrahamson_2018.py lines 28-58: `corr` -/
def ba18CorrBody : List Cmd :=
  [bind "freqs" (.arg "freqs"), new "freqs_row" "ba18:44" ["freqs"], new "f_r" "ba18:52" ["freqs_row"], new "f_m" "ba18:53" ["freqs_row"],
   new "abcd" "ba18:54" ["f_m"], new "corr" "ba18:55" ["abcd", "f_r"], write "corr" "ba18:56" ["corr"], new "corr" "ba18:57" ["corr"]]

/-- bayless_abrahamson_2018.py lines 28-58 -/
def ba18Corr : Method := ⟨"BaylessAbrahamson2018.corr", block ba18CorrBody, ["corr"]⟩

/-- bayless_abrahamson_2018.py lines 60-93: `cov` -/
def ba18Cov : Method :=
  ⟨"BaylessAbrahamson2018.cov",
    block (ba18CorrBody ++
      [ite "ba18:85" (new "std" "ba18:87" ["freqs"]) (ite "ba18:88" (new "std" "ba18:89 raises" []) (bind "std" (.arg "std"))),
       new "std" "ba18:92" ["std"], new "cov" "ba18:93" ["corr", "std"]]), ["cov"]⟩

/-- stafford_2017.py lines 266-323: `cov`; the loops write entry by entry -/
def staffordCov : Method :=
  ⟨"Stafford2017.cov",
    block
      [bind "freqs" (.arg "freqs"), bind "sigma_E" (.arg "sigma_E"), bind "sigma_S" (.arg "sigma_S"), bind "sigma_A" (.arg "sigma_A"),
       ite "stafford:294" (block [new "sigma_E" "stafford:295 E" ["freqs"], new "sigma_S" "stafford:295 S" ["freqs"],
         new "sigma_A" "stafford:295 A" ["freqs"]]) skip,
       new "cov_matrix" "stafford:306" ["freqs"], write "cov_matrix" "stafford:321" ["cov_matrix", "freqs", "sigma_E", "sigma_S", "sigma_A"]],
    ["cov_matrix"]⟩

/-- abrahamson_silva_1996.py lines 67-75: `interp` called with an array or a list -/
def as96Interp : Method :=
  ⟨"AbrahamsonSilva1996.interp",
    block
      [ite "as96:68 is array" (bind "nias" (.arg "nias")) (new "nias" "as96:68" []), write "nias" "as96:71" ["nias"],
       write "nias" "as96:58" ["nias"], new "ln_dur" "as96:73" ["nias"]], ["ln_dur"]⟩

/-- the operations of the package that work on arrays, except the two that are treated separately
(`BaylessAbrahamson2019.freqs` and `AbrahamsonSilva1996.interp`) -/
def shipped : List Method :=
  [aga16, coppersmith, ask14, ask14SiteTerm, akb14, ab06, ba19, bssa14, bssa14SiteTerm, c03, cb14, cb14SiteTerm,
   cy14, cy14SiteTerm, dbc14, ga11, i14, pea11, tp05, ba18Corr, ba18Cov, staffordCov]

end Arrays
