import Verif.ArrayScenario
import Verif.Decls

/-!
# C112: a model takes one scenario at a time

Arrays and lists as scenario values.
-/

namespace AVal

/-- a numeric parameter declared with a lower or an upper limit -/
def Limited (p : Param) : Bool :=
  match p.kind with
  | .numeric mn mx => mn.isSome || mx.isSome
  | .categorical _ => false

/-- a numeric parameter declared without limits -/
def Unlimited (p : Param) : Bool :=
  match p.kind with
  | .numeric none none => true
  | _ => false

/-- a categorical parameter -/
def Category (p : Param) : Bool :=
  match p.kind with
  | .categorical _ => true
  | _ => false

theorem limited_kind {p : Param} (h : Limited p = true) :
    ∃ mn mx, p.kind = .numeric mn mx ∧ (mn ≠ none ∨ mx ≠ none) := by
  unfold Limited at h
  cases hk : p.kind with
  | categorical os => simp [hk] at h
  | numeric mn mx =>
    refine ⟨mn, mx, rfl, ?_⟩
    simp only [hk, Bool.or_eq_true] at h
    rcases h with h | h
    · left; rintro rfl; simp at h
    · right; rintro rfl; simp at h

/-- A mapping that holds only scalars goes through the same checks, with the same warnings, errors
and values, as in the model of `Param.lean` on which all other properties rest. -/
theorem C112_scalar (ps : List Param) (get : String → Val) :
    checkVals ps (fun k => .scalar (get k))
      = (do pure ((← Model.checkVals ps get).map fun kv => (kv.1, .scalar kv.2))) :=
  checkVals_scalar ps get

/-- An array of two or more numbers for a parameter with a limit: no model is constructed, whatever
the other values are and whatever the class would do with them; when the other values pass their
checks the error is `ValueError`. -/
theorem C112_array_refused {Out : Type} {ps : List Param} {p : Param} (hp : p ∈ ps)
    (hl : Limited p = true) (get : String → AVal) (rest : List (String × AVal) → Py Out)
    {l : List ℝ} (hv : get p.name = .array l) (h2 : 2 ≤ l.length) :
    (∃ e, (construct ps get rest).res = .error e) ∧
      ((∀ q ∈ ps, q ≠ p → ∃ w, (check q (get q.name)).res = .ok w) →
        ∃ m, (construct ps get rest).res = .error (.valueError m)) := by
  obtain ⟨mn, mx, hk, hlim⟩ := limited_kind hl
  have he : (check p (get p.name)).res = .error (.valueError "truth value of an array") := by
    rw [hv, check_limited hk hlim (e := .valueError "truth value of an array") (by simp [refusal, h2])]
    rfl
  constructor
  · obtain ⟨e, h⟩ := checkVals_error_of hp he
    exact ⟨e, by simp only [construct]; exact Py.bind_res_error h _⟩
  · intro ho
    refine ⟨"truth value of an array", ?_⟩
    simp only [construct]
    exact Py.bind_res_error (checkVals_error_eq hp he ho) _

/-- A Python list (of any length) for a parameter with a limit: no model is constructed; when the
other values pass their checks the error is `TypeError`. -/
theorem C112_list_refused {Out : Type} {ps : List Param} {p : Param} (hp : p ∈ ps)
    (hl : Limited p = true) (get : String → AVal) (rest : List (String × AVal) → Py Out)
    {l : List ℝ} (hv : get p.name = .list l) :
    (∃ e, (construct ps get rest).res = .error e) ∧
      ((∀ q ∈ ps, q ≠ p → ∃ w, (check q (get q.name)).res = .ok w) →
        (construct ps get rest).res = .error .typeError) := by
  obtain ⟨mn, mx, hk, hlim⟩ := limited_kind hl
  have he : (check p (get p.name)).res = .error .typeError := by
    rw [hv, check_limited hk hlim (e := .typeError) (by simp [refusal])]
    rfl
  constructor
  · obtain ⟨e, h⟩ := checkVals_error_of hp he
    exact ⟨e, by simp only [construct]; exact Py.bind_res_error h _⟩
  · intro ho
    simp only [construct]
    exact Py.bind_res_error (checkVals_error_eq hp he ho) _

/-- The numeric parameters without limits, of all shipped classes: the only ones through which an
array of several numbers can pass the checks. -/
theorem C112_unlimited :
    (Decls.all.flatMap fun c => (c.2.filter Unlimited).map fun p => (c.1, p.name))
      = [("AbrahamsonGregorAddo2016", "dist_rup"), ("AbrahamsonGregorAddo2016", "dist_hyp"),
         ("AbrahamsonGregorAddo2016", "depth_hyp"), ("AbrahamsonSilvaKamai2014", "dist_jb"),
         ("AbrahamsonSilvaKamai2014", "depth_1_0"), ("AbrahamsonSilvaKamai2014", "depth_tor"),
         ("AbrahamsonSilvaKamai2014", "dip"), ("AbrahamsonSilvaKamai2014", "dist_crjb"),
         ("AbrahamsonSilvaKamai2014", "dist_x"), ("AbrahamsonSilvaKamai2014", "dist_y0"),
         ("AbrahamsonSilvaKamai2014", "width"), ("AfshariStewart2016", "depth_1_0"),
         ("AtkinsonBoore2006", "mag"), ("AtkinsonBoore2006", "dist_rup"),
         ("AtkinsonBoore2006", "v_s30"), ("BaylessAbrahamson2019", "depth_1_0"),
         ("BooreStewartSeyhanAtkinson2014", "depth_1_0"), ("CampbellBozorgnia2014", "depth_1_0"),
         ("CampbellBozorgnia2014", "depth_bor"), ("CampbellBozorgnia2014", "depth_bot"),
         ("CampbellBozorgnia2014", "dist_jb"), ("CampbellBozorgnia2014", "dist_x"),
         ("CampbellBozorgnia2014", "width"), ("ChiouYoungs2014", "dist_x"),
         ("ChiouYoungs2014", "dist_jb"), ("ChiouYoungs2014", "depth_1_0"),
         ("ChiouYoungs2014", "dpp_centered"), ("ChiouYoungs2014", "dip"),
         ("CoppersmithBommer2014", "dist_rup")] := by
  decide +kernel

/-- every declared parameter is of one of the three sorts -/
theorem sorts : ∀ c ∈ Decls.all, ∀ p ∈ c.2,
    Limited p = true ∨ Unlimited p = true ∨ Category p = true := by
  decide +kernel

/-- Through a parameter without limits every array and list passes unchanged and without a
warning. -/
theorem C112_unlimited_passes {p : Param} (h : Unlimited p = true) (v : AVal)
    (hv : ∀ w, v ≠ .scalar w) : check p v = pure v := by
  refine check_unlimited ?_ hv
  unfold Unlimited at h
  cases hk : p.kind with
  | categorical os => simp [hk] at h
  | numeric mn mx =>
    cases mn <;> cases mx <;> first | rfl | simp [hk] at h

/-- the classes all of whose numeric parameters have a limit -/
def guarded : List String :=
  ["AbrahamsonBhasin2020", "AbrahamsonSilva1996", "AkkarSandikkayaBommer2014", "Campbell2003",
   "DerrasBardCotton2014", "GulerceAbrahamson2011", "HermkesKuehnRiggelsen2014", "Idriss2014",
   "KemptonStewart2006", "PezeshkZandiehTavakoli2011", "PinillaRamosEtAl2023",
   "PinillaRamosEtAl2024", "TavakoliPezeshk05"]

theorem guarded_limited : ∀ c ∈ Decls.all, c.1 ∈ guarded → ∀ p ∈ c.2, Category p = false →
    Limited p = true := by
  decide +kernel

/-- **One scenario per model**: if a class in the list constructs a model at all, every numeric
value it was given is a scalar or an array with at most one entry.  In particular the code of
`PinillaRamosEtAl2023` and `PinillaRamosEtAl2024` that prepares for arrays of several entries never
runs. -/
theorem C112_one_scenario {Out : Type} {c : String × List Param} (hc : c ∈ Decls.all)
    (hg : c.1 ∈ guarded) (get : String → AVal) (rest : List (String × AVal) → Py Out) {o : Out}
    (ho : (construct c.2 get rest).res = .ok o) {p : Param} (hp : p ∈ c.2)
    (hcat : Category p = false) :
    (∃ v, get p.name = .scalar v) ∨ ∃ l, get p.name = .array l ∧ l.length ≤ 1 := by
  have hl := guarded_limited c hc hg p hp hcat
  cases hv : get p.name with
  | scalar v => exact Or.inl ⟨v, rfl⟩
  | array l =>
    refine Or.inr ⟨l, rfl, ?_⟩
    by_contra h
    obtain ⟨⟨e, he⟩, -⟩ := C112_array_refused hp hl get rest hv (by omega)
    rw [he] at ho; simp at ho
  | list l =>
    obtain ⟨⟨e, he⟩, -⟩ := C112_list_refused hp hl get rest hv
    rw [he] at ho; simp at ho

/-- A Python list for a categorical parameter is not refused: the default takes its place, with
the two warnings. -/
theorem C112_list_category {p : Param} {os : List Lit} (hk : p.kind = .categorical os)
    (l : List ℝ) :
    (check p (.list l)).res = .ok (.scalar p.default.toVal) ∧
      (check p (.list l)).log = [.notOption p.name (.str "list"), .usingDefault p.name] := by
  constructor
  · simp [check, baseCheck, hk, isIn, shown, Py.bind_eq, Py.bind, Py.warn]
  · simp [check, baseCheck, hk, isIn, shown, Py.bind_eq, Py.bind, Py.warn]

/-- An array of two or more numbers for a categorical parameter with options is refused with
`ValueError`. -/
theorem C112_array_category {p : Param} {os : List Lit} (hk : p.kind = .categorical os)
    (ho : os ≠ []) {l : List ℝ} (h2 : 2 ≤ l.length) :
    ∃ m, (check p (.array l)).res = .error (.valueError m) := by
  refine ⟨"truth value of an array", ?_⟩
  obtain ⟨o, os, rfl⟩ := List.exists_cons_of_ne_nil ho
  have : ∀ f : ℝ → Bool, truth (l.map f) = Py.raise (.valueError "truth value of an array") :=
    fun f => truth_many (by simpa using h2)
  simp [check, baseCheck, hk, isIn, isIn.go, this]

theorem category_options : ∀ c ∈ Decls.all, ∀ p ∈ c.2, p.kind ≠ .categorical [] := by
  decide +kernel

/-- a mapping with two magnitudes -/
noncomputable def exTwo (k : String) : AVal :=
  if k = "mag" then .array [6, 7] else .scalar (.num 100)

/-- the hypotheses are met: `PinillaRamosEtAl2023` with two magnitudes -/
example (Out : Type) (rest : List (String × AVal) → Py Out) :
    ∃ m, (construct Decls.pr23 exTwo rest).res = .error (.valueError m) := by
  refine (C112_array_refused (p := numP "mag" true (some 4) (some 8)) (by simp [Decls.pr23])
    (by decide) exTwo rest (l := [6, 7]) (by simp [exTwo, numP]) (by simp)).2 ?_
  intro q hq hne
  simp only [Decls.pr23, List.mem_cons, List.not_mem_nil, or_false] at hq
  rcases hq with rfl | rfl | rfl
  · exact absurd rfl hne
  · refine ⟨.scalar (.num 100), ?_⟩
    have : exTwo (numP "dist_rup" true (some 0) (some 300)).name = .scalar (.num 100) := by
      simp [exTwo, numP]
    rw [this]
    norm_num [check, baseCheck, Param.baseCheck, numP, below, above, lt, gt, Val.lt, Val.gt]
  · refine ⟨.scalar (.num 100), ?_⟩
    have : exTwo (numP "v_s30" true (some 150) (some 2000)).name = .scalar (.num 100) := by
      simp [exTwo, numP]
    rw [this]
    norm_num [check, baseCheck, Param.baseCheck, numP, below, above, lt, gt, Val.lt, Val.gt]
    rfl

/-- a list as the mechanism of `Idriss2014` -/
example (l : List ℝ) : (check (catP "mechanism" true ["SS", "RS"]) (.list l)).res
    = .ok (.scalar .none) :=
  (C112_list_category (p := catP "mechanism" true ["SS", "RS"]) rfl l).1

/-- two numbers as the mechanism -/
example : ∃ m, (check (catP "mechanism" true ["SS", "RS"]) (.array [1, 2])).res
    = .error (.valueError m) :=
  C112_array_category (p := catP "mechanism" true ["SS", "RS"]) rfl (by simp) (by simp)

/-- one-entry arrays of a guarded class do construct: the conclusion of `C112_one_scenario` has both
cases -/
example : (construct Decls.ks06 (fun k => if k = "mag" then .array [6] else .scalar (.num 200))
    (fun d => pure d)).res = .ok [("mag", .array [6]), ("dist_rup", .scalar (.num 200)),
      ("v_s30", .scalar (.num 200))] := by
  have h1 : check (numP "mag" true (some 5) (some 7.6)) (.array [6]) = pure (.array [6]) := by
    norm_num [check, baseCheck, numP, below, above, lt, gt, truth]
  have h2 : check (numP "dist_rup" true (some 0) (some 200)) (.scalar (.num 200))
      = pure (.scalar (.num 200)) := by
    norm_num [check, baseCheck, Param.baseCheck, numP, below, above, lt, gt, Val.lt, Val.gt]
  have h3 : check (numP "v_s30" true (some 200) (some 1000)) (.scalar (.num 200))
      = pure (.scalar (.num 200)) := by
    norm_num [check, baseCheck, Param.baseCheck, numP, below, above, lt, gt, Val.lt, Val.gt]
  simp only [numP] at h1 h2 h3
  simp [construct, checkVals, Decls.ks06, numP, h1, h2, h3]

end AVal
