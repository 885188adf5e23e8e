import Verif.Props.Limits
import Verif.Props.Decls
import Verif.Models.HKR14

/-!
# C119: the warnings of a construction

What a successful construction reports, for every class: for each declared parameter, in the order
of the declaration, what the specification below says about the caller's value; then the notice of
the class about its magnitude range, which three classes have.  Nothing else is ever reported.
-/

set_option linter.unusedSimpArgs false

/-! ### Specification -/

namespace Spec

/-- the number a value counts as in a comparison -/
noncomputable def asNumber : Val → Option ℝ
  | .num x => some x
  | .bool b => some (if b then 1 else 0)
  | _ => none

open Classical in
/-- what is reported about the value given for a declared parameter: one warning for a number outside
the limits, two for a value that is none of the options, nothing for a missing value -/
noncomputable def reports (p : Param) (v : Val) : List Event :=
  match p.kind with
  | .numeric mn mx =>
    match asNumber v with
    | some x => if Below mn x then [.belowLimit p.name v] else if Above mx x then [.aboveLimit p.name v] else []
    | none => []
  | .categorical opts =>
    if v = .none ∨ ∃ o ∈ opts, v.pyEq o.toVal then [] else [.notOption p.name v, .usingDefault p.name]

/-- what all parameters report, in the order of the declaration -/
noncomputable def allReports (ps : List Param) (s : Scenario) : List Event :=
  ps.flatMap fun p => reports p (s.get p.name)

end Spec

open Spec

/-! ### One parameter -/

namespace Warnings

open Classical in
theorem check_bool (p : Param) (mn mx : Option ℚ) (hk : p.kind = .numeric mn mx) (b : Bool) :
    (p.check (.bool b)).log = reports p (.bool b) := by
  obtain ⟨x, hx⟩ : ∃ x : ℝ, (if b then (1 : ℝ) else 0) = x := ⟨_, rfl⟩
  unfold Param.check
  rw [Param.baseCheck_of_ne (by simp), Py.pure_bind', hk]
  have hb : Param.below mn (.bool b) = pure (decide (Below mn x)) := by
    cases mn with
    | none => simp [Param.below, Below]
    | some m => simp only [Param.below, Below, Val.lt, Val.boolNum, hx]; congr 1; simp
  have ha : Param.above mx (.bool b) = pure (decide (Above mx x)) := by
    cases mx with
    | none => simp [Param.above, Above]
    | some m => simp only [Param.above, Above, Val.gt, Val.boolNum, hx]; congr 1; simp
  simp only [hb, ha, Py.pure_bind', reports, hk, asNumber, hx, decide_eq_true_eq]
  by_cases h1 : Below mn x
  · rw [if_pos h1, if_pos h1]; rfl
  · rw [if_neg h1, if_neg h1]
    by_cases h2 : Above mx x
    · rw [if_pos h2, if_pos h2]; rfl
    · rw [if_neg h2, if_neg h2]; rfl

theorem check_log {name : String} {ps : List Param} (hd : (name, ps) ∈ Decls.all) {p : Param} (hp : p ∈ ps)
    {v w : Val} (h : (p.check v).res = .ok w) : (p.check v).log = reports p v := by
  by_cases hn : v = .none
  · subst hn
    have hr : p.required = false := by
      by_contra hr
      rw [Param.check_none_required (by simpa using hr)] at h
      cases h
    rw [C14_defaults_silent name ps hd p hp hr]
    unfold reports
    cases p.kind <;> simp [asNumber]
  cases hk : p.kind with
  | numeric mn mx =>
    cases v with
    | none => exact absurd rfl hn
    | num x => rw [C06_number_kept p mn mx hk]; simp [reports, hk, asNumber]
    | nan => rw [C06_nan_silent p mn mx hk]; simp [reports, hk, asNumber]
    | bool b => exact check_bool p mn mx hk b
    | str t =>
      unfold Param.check at h ⊢
      rw [Param.baseCheck_of_ne (by simp), Py.pure_bind', hk] at h ⊢
      cases mn <;> cases mx <;> simp [Param.below, Param.above, Val.lt, Val.gt, reports, hk, asNumber] at h ⊢
  | categorical opts =>
    by_cases hin : v.isIn opts
    · rw [C07_option_kept p opts hk v hn hin]
      have : ∃ o ∈ opts, v.pyEq o.toVal := hin
      simp only [reports, hk]
      rw [if_pos (.inr this)]
    · rw [C07_other_becomes_default p opts hk v hn hin]
      simp only [reports, hk]
      rw [if_neg]
      rintro (h | h)
      · exact hn h
      · exact hin h

theorem checkVals_log {ps : List Param} {get : String → Val} {d : Dict}
    (h : (Model.checkVals ps get).res = .ok d) :
    (Model.checkVals ps get).log = ps.flatMap fun p => (p.check (get p.name)).log := by
  induction ps generalizing d with
  | nil => rfl
  | cons p ps ih =>
    simp only [Model.checkVals, Py.bind_ok_iff] at h
    obtain ⟨v, hv, d', hd', -⟩ := h
    simp only [Model.checkVals]
    rw [Py.bind_log_ok hv, Py.bind_log_ok hd', ih hd']
    simp

theorem checkVals_each {ps : List Param} {get : String → Val} {d : Dict}
    (h : (Model.checkVals ps get).res = .ok d) : ∀ p ∈ ps, ∃ w, (p.check (get p.name)).res = .ok w := by
  induction ps generalizing d with
  | nil => simp
  | cons p ps ih =>
    simp only [Model.checkVals, Py.bind_ok_iff] at h
    obtain ⟨v, hv, d', hd', -⟩ := h
    intro q hq
    rcases List.mem_cons.1 hq with rfl | hq
    · exact ⟨v, hv⟩
    · exact ih hd' q hq

/-- the reports of a construction -/
theorem new_log {Out : Type} {C : ModelClass Out} {name : String} (hd : (name, C.params) ∈ Decls.all) {s : Scenario}
    {inst : Instance Out} (h : (C.new s).res = .ok inst) :
    ∃ d s', Checked C.params s.get d ∧ (C.fill ⟨d, []⟩).res = .ok s' ∧
      (C.new s).log = allReports C.params s ++ (C.fill ⟨d, []⟩).log ++ (C.compute s').log := by
  have hC : ParamsOk C.params := Spec.shipped_ok hd
  unfold ModelClass.new at h ⊢
  rw [ModelClass.newFrom_eq C hC] at h ⊢
  simp only [Py.bind_ok_iff] at h
  obtain ⟨d, h1, s', h2, o, h3, -⟩ := h
  refine ⟨d, s', h1, h2, ?_⟩
  rw [Py.bind_log_ok h1, Py.bind_log_ok h2, Py.bind_log_ok h3, checkVals_log h1]
  have e : (C.params.flatMap fun p => (p.check (s.get p.name)).log) = allReports C.params s := by
    unfold allReports
    rw [List.flatMap_def, List.flatMap_def]
    congr 1
    apply List.map_congr_left
    intro p hp
    obtain ⟨w, hw⟩ := checkVals_each h1 p hp
    exact check_log hd hp hw
  rw [e]
  simp

/-! ### Computations that report nothing -/

/-- reports nothing, whether it succeeds or not -/
def Quiet {α : Type} (x : Py α) : Prop := x.log = []

variable {α β : Type}

theorem Quiet.pure (a : α) : Quiet (Pure.pure a : Py α) := rfl
theorem Quiet.raise (e : PyErr) : Quiet (Py.raise e : Py α) := rfl
theorem Quiet.bind {x : Py α} {f : α → Py β} (h : Quiet x) (hf : ∀ a, Quiet (f a)) : Quiet (x >>= f) := by
  unfold Quiet at *
  rw [Py.bind_eq, Py.bind]
  cases x.res with
  | error e => exact h
  | ok a => simp [h, hf a]

theorem Quiet.getItem (s : Scenario) (k : String) : Quiet (s.getItem k) := by
  unfold Scenario.getItem; split <;> rfl
theorem Quiet.getAttr (s : Scenario) (k : String) : Quiet (s.getAttr k) := by
  unfold Scenario.getAttr; split
  · rfl
  · exact .getItem _ _
theorem Quiet.toF (v : Val) : Quiet v.toF := by unfold Val.toF; split <;> rfl
theorem Quiet.num (s : Scenario) (k : String) : Quiet (s.num k) := .bind (.getAttr _ _) fun _ => .toF _
theorem Quiet.optNum (s : Scenario) (k : String) : Quiet (s.optNum k) := by
  refine .bind (.getAttr _ _) fun v => ?_
  split
  · rfl
  · exact .bind (.toF _) fun _ => rfl
theorem Quiet.fillAttr {k : String} {f : Scenario → Py F} {s : Scenario} (h : Quiet (f s)) :
    Quiet (_root_.fillAttr k f s) := by
  refine .bind (.getAttr _ _) fun v => ?_
  split
  · exact .bind h fun _ => rfl
  · rfl
theorem Quiet.fillItem {k : String} {f : Scenario → Py F} {s : Scenario} (h : Quiet (f s)) :
    Quiet (_root_.fillItem k f s) := by
  refine .bind (.getItem _ _) fun v => ?_
  split
  · exact .bind h fun _ => rfl
  · rfl
theorem Quiet.fillGet {k : String} {f : Scenario → Py F} {s : Scenario} (h : Quiet (f s)) :
    Quiet (_root_.fillGet k f s) := by
  unfold _root_.fillGet
  split
  · exact .bind h fun _ => rfl
  · rfl
theorem Quiet.adjust (l : List ℚ) (ev : AGA16.Ev) (a : AGA16.Adjust) : Quiet (AGA16.adjust l ev a) := by
  cases a with
  | default => rfl
  | scalar x => rfl
  | array l' =>
    by_cases h : l'.length = l.length
    · simp only [AGA16.adjust, if_pos h]; rfl
    · simp only [AGA16.adjust, if_neg h]; rfl
theorem Quiet.backarcOf (ev : AGA16.Ev) (v : Val) : Quiet (AGA16.backarcOf ev v) := by
  unfold AGA16.backarcOf; split
  · split <;> rfl
  · rfl
theorem Quiet.depthOf (s : Scenario) (ev : AGA16.Ev) : Quiet (AGA16.depthOf s ev) := by
  unfold AGA16.depthOf; split
  · exact .num _ _
  · rfl
theorem Quiet.lt (v : Val) (m : ℝ) : Quiet (v.lt m) := by unfold Val.lt; cases v <;> rfl
theorem Quiet.gt (v : Val) (m : ℝ) : Quiet (v.gt m) := by unfold Val.gt; cases v <;> rfl

end Warnings

/-- shows that a computation built from reads, branches and failures reports nothing -/
macro "quiet" : tactic => `(tactic| repeat' with_reducible first
  | refine Warnings.Quiet.bind ?_ fun _ => ?_
  | refine Warnings.Quiet.fillAttr ?_ | refine Warnings.Quiet.fillItem ?_ | refine Warnings.Quiet.fillGet ?_
  | exact Warnings.Quiet.num _ _ | exact Warnings.Quiet.optNum _ _ | exact Warnings.Quiet.getAttr _ _
  | exact Warnings.Quiet.getItem _ _ | exact Warnings.Quiet.pure _ | exact Warnings.Quiet.raise _
  | exact Warnings.Quiet.toF _ | exact Warnings.Quiet.lt _ _ | exact Warnings.Quiet.gt _ _
  | exact Warnings.Quiet.adjust _ _ _ | exact Warnings.Quiet.backarcOf _ _ | exact Warnings.Quiet.depthOf _ _
  | assumption
  | split)

open Warnings

/-- finds a class in the list of classes -/
macro "all_tac" : tactic => `(tactic| (unfold Decls.all; repeat first | exact List.mem_cons_self | apply List.mem_cons_of_mem))

/-- a class without completion whose formulas report nothing -/
theorem Warnings.plain {Out : Type} (C : ModelClass Out) {name : String} (hd : (name, C.params) ∈ Decls.all)
    (hf : ∀ s, Quiet (C.fill s)) (hc : ∀ s, Quiet (C.compute s)) (s : Scenario) (inst : Instance Out)
    (h : (C.new s).res = .ok inst) : (C.new s).log = allReports C.params s := by
  obtain ⟨d, s', -, -, e⟩ := new_log hd h
  rw [e, hf _, hc _, List.append_nil, List.append_nil]

/-- Campbell (2003) -/
theorem C119_c03 (s : Scenario) (inst : Instance GmmOut) (h : (C03.cls.new s).res = .ok inst) :
    (C03.cls.new s).log = allReports Decls.c03 s :=
  plain C03.cls (name := "Campbell2003") (show ("Campbell2003", Decls.c03) ∈ Decls.all by all_tac) (fun _ => rfl)
    (fun s => by dsimp only [C03.cls]; quiet) s inst h

/-- Tavakoli & Pezeshk (2005) -/
theorem C119_tp05 (s : Scenario) (inst : Instance GmmOut) (h : (TP05.cls.new s).res = .ok inst) :
    (TP05.cls.new s).log = allReports Decls.tp05 s :=
  plain TP05.cls (name := "TavakoliPezeshk05") (show ("TavakoliPezeshk05", Decls.tp05) ∈ Decls.all by all_tac) (fun _ => rfl)
    (fun s => by dsimp only [TP05.cls]; quiet) s inst h

/-- Pezeshk, Zandieh & Tavakoli (2011) -/
theorem C119_pea11 (s : Scenario) (inst : Instance GmmOut) (h : (Pea11.cls.new s).res = .ok inst) :
    (Pea11.cls.new s).log = allReports Decls.pea11 s :=
  plain Pea11.cls (name := "PezeshkZandiehTavakoli2011") (show ("PezeshkZandiehTavakoli2011", Decls.pea11) ∈ Decls.all by all_tac) (fun _ => rfl)
    (fun s => by dsimp only [Pea11.cls]; quiet) s inst h

/-- Idriss (2014) -/
theorem C119_i14 (s : Scenario) (inst : Instance GmmOut) (h : (I14.cls.new s).res = .ok inst) :
    (I14.cls.new s).log = allReports Decls.i14 s :=
  plain I14.cls (name := "Idriss2014") (show ("Idriss2014", Decls.i14) ∈ Decls.all by all_tac) (fun _ => rfl)
    (fun s => by dsimp only [I14.cls]; quiet) s inst h

/-- Akkar, Sandıkkaya & Bommer (2014) -/
theorem C119_akb14 (s : Scenario) (inst : Instance GmmOut) (h : (AKB14.cls.new s).res = .ok inst) :
    (AKB14.cls.new s).log = allReports Decls.akb14 s :=
  plain AKB14.cls (name := "AkkarSandikkayaBommer2014") (show ("AkkarSandikkayaBommer2014", Decls.akb14) ∈ Decls.all by all_tac) (fun _ => rfl)
    (fun s => by dsimp only [AKB14.cls]; unfold AKB14.choose; quiet) s inst h

/-- Atkinson & Boore (2006) -/
theorem C119_ab06 (s : Scenario) (inst : Instance GmmOut) (h : (AB06.cls.new s).res = .ok inst) :
    (AB06.cls.new s).log = allReports Decls.ab06 s :=
  plain AB06.cls (name := "AtkinsonBoore2006") (show ("AtkinsonBoore2006", Decls.ab06) ∈ Decls.all by all_tac) (fun _ => rfl)
    (fun s => by dsimp only [AB06.cls]; unfold AB06.siteOf; quiet) s inst h

/-- Derras, Bard & Cotton (2014) -/
theorem C119_dbc14 (s : Scenario) (inst : Instance GmmOut) (h : (DBC14.cls.new s).res = .ok inst) :
    (DBC14.cls.new s).log = allReports Decls.dbc14 s :=
  plain DBC14.cls (name := "DerrasBardCotton2014") (show ("DerrasBardCotton2014", Decls.dbc14) ∈ Decls.all by all_tac) (fun _ => rfl)
    (fun s => by dsimp only [DBC14.cls]; unfold DBC14.mechNumber; quiet) s inst h

/-- Abrahamson & Silva (1996) -/
theorem C119_as96 (s : Scenario) (inst : Instance DurOut) (h : (AS96.cls.new s).res = .ok inst) :
    (AS96.cls.new s).log = allReports Decls.as96 s :=
  plain AS96.cls (name := "AbrahamsonSilva1996") (show ("AbrahamsonSilva1996", Decls.as96) ∈ Decls.all by all_tac) (fun _ => rfl)
    (fun s => by dsimp only [AS96.cls]; quiet) s inst h

/-- Kempton & Stewart (2006) -/
theorem C119_ks06 (s : Scenario) (inst : Instance DurOut) (h : (KS06.cls.new s).res = .ok inst) :
    (KS06.cls.new s).log = allReports Decls.ks06 s :=
  plain KS06.cls (name := "KemptonStewart2006") (show ("KemptonStewart2006", Decls.ks06) ∈ Decls.all by all_tac) (fun _ => rfl)
    (fun s => by dsimp only [KS06.cls]; quiet) s inst h

/-- Afshari & Stewart (2016) -/
theorem C119_as16 (s : Scenario) (inst : Instance DurOut) (h : (AS16.cls.new s).res = .ok inst) :
    (AS16.cls.new s).log = allReports Decls.as16 s :=
  plain AS16.cls (name := "AfshariStewart2016") (show ("AfshariStewart2016", Decls.as16) ∈ Decls.all by all_tac) (fun _ => rfl)
    (fun s => by dsimp only [AS16.cls]; unfold AS16.mechOf; quiet) s inst h

/-- Pinilla-Ramos et al. (2023) -/
theorem C119_pr23 (s : Scenario) (inst : Instance DurBand) (h : (PR23.cls.new s).res = .ok inst) :
    (PR23.cls.new s).log = allReports Decls.pr23 s :=
  plain PR23.cls (name := "PinillaRamosEtAl2023") (show ("PinillaRamosEtAl2023", Decls.pr23) ∈ Decls.all by all_tac) (fun _ => rfl)
    (fun s => by dsimp only [PR23.cls]; unfold PR23.calcDuration PR23.read; quiet) s inst h

/-- Pinilla-Ramos et al. (2024) -/
theorem C119_pr24 (s : Scenario) (inst : Instance DurBand) (h : (PR24.cls.new s).res = .ok inst) :
    (PR24.cls.new s).log = allReports Decls.pr24 s :=
  plain PR24.cls (name := "PinillaRamosEtAl2024") (show ("PinillaRamosEtAl2024", Decls.pr24) ∈ Decls.all by all_tac) (fun _ => rfl)
    (fun s => by dsimp only [PR24.cls]; unfold PR24.calcDuration PR24.read PR24.validate; quiet) s inst h

/-- Gülerce & Abrahamson (2011) -/
theorem C119_ga11 (s : Scenario) (inst : Instance GA11.Out) (h : (GA11.cls.new s).res = .ok inst) :
    (GA11.cls.new s).log = allReports Decls.ga11 s :=
  plain GA11.cls (name := "GulerceAbrahamson2011") (show ("GulerceAbrahamson2011", Decls.ga11) ∈ Decls.all by all_tac) (fun _ => rfl)
    (fun s => by dsimp only [GA11.cls, GA11.clsWith]; unfold GA11.ensurePgaRef; quiet) s inst h

/-- Hermkes, Kuehn & Riggelsen (2014): the event vector -/
theorem C119_hkr14 (s : Scenario) (inst : Instance (List Val)) (h : (HKR14.eventCls.new s).res = .ok inst) :
    (HKR14.eventCls.new s).log = allReports Decls.hkr14 s :=
  plain HKR14.eventCls (name := "HermkesKuehnRiggelsen2014") (show ("HermkesKuehnRiggelsen2014", Decls.hkr14) ∈ Decls.all by all_tac) (fun _ => rfl)
    (fun s => by dsimp only [HKR14.eventCls]; quiet) s inst h

/-- Abrahamson, Gregor & Addo (2016), for every adjustment -/
theorem C119_aga16 (a : AGA16.Adjust) (c4 sc : ℝ) (s : Scenario) (inst : Instance AGA16.Out)
    (h : ((AGA16.cls a c4 sc).new s).res = .ok inst) : ((AGA16.cls a c4 sc).new s).log = allReports Decls.aga16 s :=
  plain (AGA16.cls a c4 sc) (name := "AbrahamsonGregorAddo2016") (show ("AbrahamsonGregorAddo2016", Decls.aga16) ∈ Decls.all by all_tac) (fun _ => rfl)
    (fun s => by dsimp only [AGA16.cls]; quiet) s inst h

/-- Coppersmith & Bommer (2014), for every scaling of the attenuation -/
theorem C119_coppersmith (sc : ℝ) (s : Scenario) (inst : Instance GmmOut)
    (h : ((CoppersmithBommer.cls sc).new s).res = .ok inst) :
    ((CoppersmithBommer.cls sc).new s).log = allReports Decls.coppersmith s :=
  plain (CoppersmithBommer.cls sc) (name := "CoppersmithBommer2014") (show ("CoppersmithBommer2014", Decls.coppersmith) ∈ Decls.all by all_tac) (fun _ => rfl)
    (fun s => by dsimp only [CoppersmithBommer.cls]; quiet) s inst h

/-- Abrahamson, Silva & Kamai (2014): the estimates of missing values are made silently -/
theorem C119_ask14 (s : Scenario) (inst : Instance ASK14.Out) (h : (ASK14.cls.new s).res = .ok inst) :
    (ASK14.cls.new s).log = allReports Decls.ask14 s :=
  plain ASK14.cls (name := "AbrahamsonSilvaKamai2014") (show ("AbrahamsonSilvaKamai2014", Decls.ask14) ∈ Decls.all by all_tac)
    (fun s => by dsimp only [ASK14.cls]; unfold ASK14.fill ASK14.estWidth ASK14.estDepthTor; quiet)
    (fun s => by dsimp only [ASK14.cls]; unfold ASK14.readX; quiet) s inst h

/-- Bayless & Abrahamson (2019) -/
theorem C119_ba19 (s : Scenario) (inst : Instance BA19.Out) (h : (BA19.cls.new s).res = .ok inst) :
    (BA19.cls.new s).log = allReports Decls.ba19 s :=
  plain BA19.cls (name := "BaylessAbrahamson2019") (show ("BaylessAbrahamson2019", Decls.ba19) ∈ Decls.all by all_tac)
    (fun s => by dsimp only [BA19.cls]; unfold BA19.estDepth10; quiet)
    (fun s => by dsimp only [BA19.cls]; quiet) s inst h

/-! ### The classes with a notice -/

/-- the mechanism the formulas see is one of the three named ones exactly if the caller's is -/
theorem Warnings.mech_of {ps : List Param} {get : String → Val} {d : Dict} (h : Checked ps get d)
    (hn : (ps.map Param.name).Nodup) {r : Bool} {opts : List String} {df : Lit}
    (hp : catP "mechanism" r opts df ∈ ps) (hs : "SS" ∈ opts ∧ "NS" ∈ opts ∧ "RS" ∈ opts)
    (hdf : df.toVal ≠ .str "SS" ∧ df.toVal ≠ .str "NS" ∧ df.toVal ≠ .str "RS") :
    ∃ w, (⟨d, []⟩ : Scenario).getAttr "mechanism" = pure w ∧ (w.isStr "SS" = (get "mechanism").isStr "SS") ∧
      (w.isStr "NS" = (get "mechanism").isStr "NS") ∧ (w.isStr "RS" = (get "mechanism").isStr "RS") := by
  obtain ⟨w, hw, e⟩ := Checked.cat_any h hn hp (fun v => (v.isStr "SS", v.isStr "NS", v.isStr "RS")) (by
    intro v hv
    have h1 := hv _ hs.1
    have h2 := hv _ hs.2.1
    have h3 := hv _ hs.2.2
    simp [Val.isStr, h1, h2, h3, hdf.1, hdf.2.1, hdf.2.2])
  simp only [Prod.mk.injEq] at e
  exact ⟨w, Scenario.getAttr_of hw, e.1, e.2.1, e.2.2⟩

theorem Warnings.cy14_quiet (s : Scenario) : Quiet (CY14.cls.compute s) := by dsimp only [CY14.cls]; quiet
theorem Warnings.cb14_quiet (s : Scenario) : Quiet (CB14.cls.compute s) := by dsimp only [CB14.cls]; quiet

theorem Warnings.bind_quiet {α β : Type} {x : Py α} {f : α → Py β} {a : α} (hx : x.res = .ok a)
    (hf : ∀ a, Quiet (f a)) : (x >>= f).log = x.log := by
  rw [Py.bind_log_ok hx, hf a, List.append_nil]

open Classical in
/-- Boore, Stewart, Seyhan & Atkinson (2014): a notice about the magnitude for strike-slip events outside
[3, 8.5] and normal events outside [3, 7], and for no others -/
theorem C119_bssa14 (s : Scenario) (m : ℝ) (hm : s.get "mag" = .num m) (inst : Instance BSSA14.Out)
    (h : (BSSA14.cls.new s).res = .ok inst) :
    (BSSA14.cls.new s).log = allReports Decls.bssa14 s ++
      (if s.get "mechanism" = .str "SS" ∧ (m < 3 ∨ 8.5 < m) ∨ s.get "mechanism" = .str "NS" ∧ (m < 3 ∨ 7 < m)
        then [.notice "mag"] else []) := by
  obtain ⟨d, s', hd, hf, e⟩ := new_log (C := BSSA14.cls) (name := "BooreStewartSeyhanAtkinson2014")
    (show ("BooreStewartSeyhanAtkinson2014", Decls.bssa14) ∈ Decls.all by all_tac) h
  rw [e]
  have hc : Quiet (BSSA14.cls.compute s') := by dsimp only [BSSA14.cls]; quiet
  have hn := BSSA14.nodup
  obtain ⟨w, hw, e1, e2, -⟩ := mech_of hd hn (r := false) (opts := ["U", "SS", "NS", "RS"]) (df := .str "U")
    (by mem_tac) (by simp) (by simp [Lit.toVal])
  have a1 := Scenario.getAttr_of (Checked.num hd hn (name := "mag") (by mem_tac) hm)
  rw [show (_ : Py _).log = [] from hc, List.append_nil]
  refine congrArg (allReports Decls.bssa14 s ++ ·) ?_
  dsimp only [BSSA14.cls]
  simp only [Val.isStr, decide_eq_decide] at e1 e2
  simp only [BSSA14.magNotice, hw, a1, Py.pure_bind', Val.isStr, decide_eq_true_eq, BSSA14.notice, Val.lt,
    Val.gt, e1, e2]
  have hr : ∀ e : Event, (Py.warn e >>= fun _ => (pure ⟨d, []⟩ : Py Scenario)).log = [e] := fun _ => rfl
  by_cases hss : s.get "mechanism" = .str "SS"
  · by_cases hb : m < 3 ∨ 8.5 < m <;> simp [hss, hb, hr]
  · by_cases hns : s.get "mechanism" = .str "NS"
    · by_cases hb : m < 3 ∨ 7 < m <;> simp [hns, hb, hr]
    · simp [hss, hns]

open Classical in
/-- Chiou & Youngs (2014): a notice about the magnitude unless it is in [3.5, 8.5], or [3.5, 8] for reverse and
normal events -/
theorem C119_cy14 (s : Scenario) (m : ℝ) (hm : s.get "mag" = .num m) (inst : Instance CY14.Out)
    (h : (CY14.cls.new s).res = .ok inst) :
    (CY14.cls.new s).log = allReports Decls.cy14 s ++
      (if m < 3.5 ∨ 8.5 < m ∨ (s.get "mechanism" = .str "RS" ∨ s.get "mechanism" = .str "NS") ∧ 8 < m
        then [.notice "mag"] else []) := by
  obtain ⟨d, s', hd, hf, e⟩ := new_log (C := CY14.cls) (name := "ChiouYoungs2014")
    (show ("ChiouYoungs2014", Decls.cy14) ∈ Decls.all by all_tac) h
  rw [e]
  have hc := cy14_quiet s'
  have hn := CY14.nodup
  obtain ⟨w, hw, -, e2, e3⟩ := mech_of hd hn (r := false) (opts := ["U", "SS", "NS", "RS"]) (df := .str "U")
    (by mem_tac) (by simp) (by simp [Lit.toVal])
  have a1 := Scenario.getAttr_of (Checked.num hd hn (name := "mag") (by mem_tac) hm)
  rw [show (_ : Py _).log = [] from hc, List.append_nil]
  refine congrArg (allReports Decls.cy14 s ++ ·) ?_
  dsimp only [CY14.cls, CY14.fill] at hf ⊢
  obtain ⟨u, hu, -⟩ := Py.bind_ok_iff.1 hf
  rw [bind_quiet hu (fun _ => by unfold CY14.estDepthTor CY14.estDepth10; quiet)]
  simp only [Val.isStr, decide_eq_decide] at e2 e3
  simp only [CY14.magNotice, hw, a1, Py.pure_bind', Val.isStr, decide_eq_true_eq, Val.lt, Val.gt,
    Bool.or_eq_true, e2, e3]
  have hr : ∀ e : Event, (Py.warn e).log = [e] := fun _ => rfl
  have hp : (pure () : Py Unit).log = [] := rfl
  by_cases hrs : s.get "mechanism" = .str "RS" ∨ s.get "mechanism" = .str "NS"
  · simp only [hrs, if_true, true_and]
    by_cases h1 : m < 3.5
    · simp [h1, hr]
    · by_cases h2 : 8 < m
      · simp [h1, h2, hr]
      · have h3 : ¬ 8.5 < m := by intro h; apply h2; norm_num at h ⊢; linarith
        simp [h1, h2, h3, hp]
  · simp only [hrs, if_false, false_and, or_false]
    by_cases h1 : m < 3.5
    · simp [h1, hr]
    · by_cases h2 : 8.5 < m <;> simp [h1, h2, hr, hp]

open Classical in
/-- one notice of Campbell & Bozorgnia (2014) -/
theorem Warnings.cb14_notice {s : Scenario} {w : Val} {m : ℝ} (hw : s.getAttr "mechanism" = pure w)
    (hm : s.getAttr "mag" = pure (.num m)) (t : String) (l : ℝ) :
    CB14.magNotice t l s = if w = .str t ∧ l < m then Py.warn (.notice t) else pure () := by
  simp only [CB14.magNotice, hw, hm, Py.pure_bind', Val.isStr, decide_eq_true_eq, Val.gt]
  by_cases h1 : w = .str t <;> by_cases h2 : l < m <;> simp [h1, h2]

open Classical in
/-- Campbell & Bozorgnia (2014): a notice for strike-slip events above 8.5, reverse events above 8 and normal
events above 7.5 -/
theorem C119_cb14 (s : Scenario) (m : ℝ) (hm : s.get "mag" = .num m) (inst : Instance CB14.Out)
    (h : (CB14.cls.new s).res = .ok inst) :
    (CB14.cls.new s).log = allReports Decls.cb14 s ++
      (if s.get "mechanism" = .str "SS" ∧ 8.5 < m then [.notice "SS"]
        else if s.get "mechanism" = .str "RS" ∧ 8 < m then [.notice "RS"]
        else if s.get "mechanism" = .str "NS" ∧ 7.5 < m then [.notice "NS"] else []) := by
  obtain ⟨d, s', hd, hf, e⟩ := new_log (C := CB14.cls) (name := "CampbellBozorgnia2014")
    (show ("CampbellBozorgnia2014", Decls.cb14) ∈ Decls.all by all_tac) h
  rw [e]
  have hc := cb14_quiet s'
  have hn := CB14.nodup
  obtain ⟨w, hw, e1, e2, e3⟩ := mech_of hd hn (r := true) (opts := ["SS", "NS", "RS"]) (df := .none)
    (by mem_tac) (by simp) (by simp [Lit.toVal])
  simp only [Val.isStr, decide_eq_decide] at e1 e2 e3
  have a1 := Scenario.getAttr_of (Checked.num hd hn (name := "mag") (by mem_tac) hm)
  rw [show (_ : Py _).log = [] from hc, List.append_nil]
  refine congrArg (allReports Decls.cb14 s ++ ·) ?_
  dsimp only [CB14.cls, CB14.fill] at hf ⊢
  simp only [cb14_notice hw a1, e1, e2, e3] at hf ⊢
  have q : ∀ s, Quiet (do
      let s ← fillAttr "depth_2_5" CB14.estDepth25 s
      let s ← fillAttr "depth_tor" CB14.estDepthTor s
      let s ← fillAttr "width" CB14.estWidth s
      let s ← fillAttr "depth_bor" CB14.estDepthBor s
      fillAttr "depth_hyp" CB14.estDepthHyp s) := by
    intro s
    unfold CB14.estDepth25 CB14.estDepthTor CB14.estWidth CB14.estDepthBor CB14.estDepthHyp CB14.calcDepth25
    quiet
  have q0 := q ⟨d, []⟩
  generalize (do
      let s ← fillAttr "depth_2_5" CB14.estDepth25 (⟨d, []⟩ : Scenario)
      let s ← fillAttr "depth_tor" CB14.estDepthTor s
      let s ← fillAttr "width" CB14.estWidth s
      let s ← fillAttr "depth_bor" CB14.estDepthBor s
      fillAttr "depth_hyp" CB14.estDepthHyp s) = rest at *
  have hr : ∀ e : Event, (Py.warn e >>= fun _ => rest).log = [e] := by
    intro e
    rw [Py.bind_log_ok (a := ()) rfl, q0]; rfl
  by_cases h1 : s.get "mechanism" = .str "SS" ∧ 8.5 < m
  · obtain ⟨h11, h12⟩ := h1
    simp [h11, h12, hr]
  · by_cases h2 : s.get "mechanism" = .str "RS" ∧ 8 < m
    · obtain ⟨h21, h22⟩ := h2
      simp [h21, h22, hr]
    · by_cases h3 : s.get "mechanism" = .str "NS" ∧ 7.5 < m
      · obtain ⟨h31, h32⟩ := h3
        simp [h31, h32, hr]
      · rw [if_neg h1, if_neg h2, if_neg h3, if_neg h1, if_neg h2, if_neg h3]
        simpa [Quiet] using q0

/-! ### Silence -/

/-- the options of every shipped class are strings and truth values -/
theorem Warnings.options : ∀ c ∈ Decls.all, ∀ p ∈ c.2, ∀ opts, p.kind = .categorical opts →
    ∀ o ∈ opts, (∃ t, o = .str t) ∨ ∃ b, o = .bool b := by
  have key : ∀ c ∈ Decls.all, ∀ p ∈ c.2, (match p.kind with
      | .categorical opts => opts.all fun o => match o with | .str _ => true | .bool _ => true | _ => false
      | .numeric _ _ => true) = true := by decide +kernel
  intro c hc p hp opts hk o ho
  have := key c hc p hp
  rw [hk] at this
  have := List.all_eq_true.1 this o ho
  cases o with
  | str t => exact .inl ⟨t, rfl⟩
  | bool b => exact .inr ⟨b, rfl⟩
  | none => simp at this
  | num q => simp at this

/-- Nothing is reported exactly if every given value is what the declaration recommends: for every shipped class and
every scenario that gives the required values, numbers for the numeric parameters, and strings or truth values for
the others. -/
theorem C119_silent_iff (name : String) (ps : List Param) (hd : (name, ps) ∈ Decls.all) (s : Scenario)
    (hreq : ∀ p ∈ ps, p.required = true → s.get p.name ≠ .none)
    (hnum : ∀ p ∈ ps, ∀ lo hi, p.kind = .numeric lo hi → s.get p.name = .none ∨ ∃ x, s.get p.name = .num x)
    (hcat : ∀ p ∈ ps, ∀ opts, p.kind = .categorical opts →
      s.get p.name = .none ∨ (∃ t, s.get p.name = .str t) ∨ ∃ b, s.get p.name = .bool b) :
    allReports ps s = [] ↔ AllRecommended ps s := by
  unfold allReports AllRecommended
  rw [List.flatMap_eq_nil_iff]
  refine forall₂_congr fun p hp => ?_
  by_cases hv : s.get p.name = .none
  · have hr : p.required = false := by
      by_contra h; exact hreq p hp (by simpa using h) hv
    refine iff_of_true ?_ (.inl ⟨hv, hr⟩)
    rw [hv]; unfold reports; cases p.kind <;> simp [asNumber]
  · cases hk : p.kind with
    | numeric lo hi =>
      obtain ⟨x, hx⟩ := (hnum p hp lo hi hk).resolve_left hv
      simp only [reports, hk, hx, asNumber, Recommended, InRange]
      by_cases h1 : Below lo x
      · simp only [h1, if_true]
        refine iff_of_false (by simp) ?_
        rintro (⟨h, -⟩ | ⟨y, hy, h, -⟩)
        · cases h
        · cases hy
          obtain ⟨l, hl, hlt⟩ := h1
          exact absurd (h l hl) (not_le.2 hlt)
      · by_cases h2 : Above hi x
        · simp only [h1, h2, if_true, if_false]
          refine iff_of_false (by simp) ?_
          rintro (⟨h, -⟩ | ⟨y, hy, -, h⟩)
          · cases h
          · cases hy
            obtain ⟨l, hl, hlt⟩ := h2
            exact absurd (h l hl) (not_le.2 hlt)
        · simp only [h1, h2, if_false]
          refine iff_of_true trivial (.inr ⟨x, rfl, fun l hl => ?_, fun l hl => ?_⟩)
          · exact not_lt.1 fun h => h1 ⟨l, hl, h⟩
          · exact not_lt.1 fun h => h2 ⟨l, hl, h⟩
    | categorical opts =>
      have ho := options _ hd p hp opts hk
      have e : (∃ o ∈ opts, (s.get p.name).pyEq o.toVal) ↔ ∃ o ∈ opts, s.get p.name = o.toVal ∧ s.get p.name ≠ .none := by
        constructor
        · rintro ⟨o, h, he⟩
          refine ⟨o, h, ?_, hv⟩
          rcases (hcat p hp opts hk).resolve_left hv with ⟨t, ht⟩ | ⟨b, hb⟩ <;> rcases ho o h with ⟨u, rfl⟩ | ⟨c, rfl⟩ <;>
            simp_all [Val.pyEq, Lit.toVal]
        · rintro ⟨o, h, he, -⟩
          refine ⟨o, h, ?_⟩
          rcases ho o h with ⟨u, rfl⟩ | ⟨c, rfl⟩ <;> rw [he] <;> simp [Val.pyEq, Lit.toVal]
      simp only [reports, hk, Recommended, hv, false_or, false_and, ← e]
      by_cases h : ∃ o ∈ opts, (s.get p.name).pyEq o.toVal
      · rw [if_pos (.inr h)]; simp [h]
      · rw [if_neg (by rintro (h' | h'); exacts [hv h', h h'])]; simp [h]

/-- Inside all limits nothing is reported. -/
theorem C119_recommended_silent (name : String) (ps : List Param) (hd : (name, ps) ∈ Decls.all) (s : Scenario)
    (h : AllRecommended ps s) : allReports ps s = [] := by
  refine (C119_silent_iff name ps hd s ?_ ?_ ?_).2 h
  · intro p hp hr hv
    rcases h p hp with ⟨-, h'⟩ | h'
    · rw [hr] at h'; cases h'
    · rw [hv] at h'
      cases hk : p.kind with
      | numeric lo hi => rw [hk] at h'; obtain ⟨x, hx, -⟩ := h'; cases hx
      | categorical opts => rw [hk] at h'; obtain ⟨o, -, -, hx⟩ := h'; exact hx rfl
  · intro p hp lo hi hk
    rcases h p hp with ⟨h', -⟩ | h'
    · exact .inl h'
    · rw [hk] at h'; obtain ⟨x, hx, -⟩ := h'; exact .inr ⟨x, hx⟩
  · intro p hp opts hk
    rcases h p hp with ⟨h', -⟩ | h'
    · exact .inl h'
    · rw [hk] at h'
      obtain ⟨o, ho, hx, -⟩ := h'
      rcases options _ hd p hp opts hk o ho with ⟨u, rfl⟩ | ⟨c, rfl⟩
      · exact .inr (.inl ⟨u, hx⟩)
      · exact .inr (.inr ⟨c, hx⟩)

/-! ### Concrete cases -/

/-- inside every limit, nothing is reported -/
example : (I14.cls.new (Limits.ex "interface" "japan" "soil")).log = [] := by
  have hrec : AllRecommended Decls.i14 (Limits.ex "interface" "japan" "soil") := by recommended Decls.i14
  obtain ⟨o, ⟨inst, h, -⟩, -⟩ := C118_i14 _ hrec (Limits.ex_physical _ _ _)
  rw [C119_i14 _ inst h]
  exact C119_recommended_silent "Idriss2014" _ (by all_tac) _ hrec

/-- a magnitude above the limit of Campbell & Bozorgnia (2014), a thick basin and an unknown region: three reports
and the notice of the class, in this order -/
example (s : Scenario)
    (hs : s = ⟨[("mag", .num 9), ("dist_rup", .num 30), ("dist_jb", .num 25), ("dist_x", .num (-20)), ("dip", .num 60),
      ("v_s30", .num 500), ("depth_2_5", .num 11), ("depth_tor", .num 2), ("width", .num 12), ("depth_bor", .num 12),
      ("depth_hyp", .num 9), ("mechanism", .str "RS"), ("region", .str "mars")], []⟩) :
    (CB14.cls.new s).log = [.aboveLimit "depth_2_5" (.num 11), .aboveLimit "mag" (.num 9), .notOption "region" (.str "mars"),
      .usingDefault "region", .notice "RS"] := by
  obtain ⟨inst, h, -⟩ := CB14.gives (s := s) (g := ⟨9, 30, 25, -20, 60, 500, none, none, some 11, some 12, some 9, some 2,
    some 12⟩) (by subst hs; constructor <;> simp [Scenario.get, Dict.get?, Val.ofOpt]) (by norm_num)
  rw [C119_cb14 s 9 (by rw [hs]; simp [Scenario.get, Dict.get?]) inst h]
  subst hs
  simp [allReports, Decls.cb14, reports, numP, catP, boolP, Scenario.get, Dict.get?, asNumber, Below, Above, Val.pyEq,
    Lit.toVal]
  norm_num
