import Verif.ModelLemmas

/-!
# Properties of scenarios, parameters and model construction

C01 - C07 and C10.  The vocabulary of the statements is the public API:
`Scenario.init` is `Scenario(**kwds)`, `getItem` is `s[k]`, `getAttr` is `s.k`,
`get` is `s.get(k, None)`, `copyWith` is `s.copy_with(**kwds)`, `Param.check` is
`parameter.check(value)`, `ModelClass.new` is `ModelClass(scenario)`.
-/

/-! ## C01: unknown keys are rejected -/

/-- Specification: the keys documented in the class docstring of `Scenario`
(model.py lines 17-88).  `depth_hyp` is accepted but not documented. -/
def Spec.documentedKeys : List String :=
  ["depth_1_0", "depth_2_5", "depth_tor", "depth_bor", "depth_bot", "dip", "dist_jb",
   "dist_crjb", "dist_epi", "dist_hyp", "dist_rup", "dist_x", "dist_y0", "dpp_centered",
   "event_type", "is_aftershock", "mag", "mechanism", "on_hanging_wall", "pga_ref",
   "region", "site_cond", "tectonic_region", "v_s30", "vs_source", "width"]

/-- The keys a scenario accepts: the documented ones and `depth_hyp`. -/
def Spec.Recognised (k : String) : Prop := k ∈ Spec.documentedKeys ∨ k = "depth_hyp"

theorem Spec.recognised_iff (k : String) : Spec.Recognised k ↔ k ∈ Scenario.knownKeys := by
  have h1 : ∀ x ∈ Spec.documentedKeys, x ∈ Scenario.knownKeys := by decide
  have h2 : ∀ x ∈ Scenario.knownKeys, x ∈ Spec.documentedKeys ∨ x = "depth_hyp" := by decide
  constructor
  · rintro (h | rfl)
    · exact h1 k h
    · decide
  · exact h2 k

/-- All keys recognised: construction succeeds silently with exactly the given items. -/
theorem C01_recognised_keys_accepted (kwds : Dict) (hwf : kwds.WF)
    (h : ∀ k ∈ kwds.keys, Spec.Recognised k) :
    Scenario.init kwds = ⟨[], .ok ⟨kwds, []⟩⟩ := by
  have h' : ∀ k ∈ kwds.keys, k ∈ Scenario.knownKeys :=
    fun k hk => (Spec.recognised_iff k).1 (h k hk)
  simp only [Scenario.init]
  rw [Dict.update_nil_eq hwf, Scenario.checkKeys_of_all h', Py.pure_bind']
  rfl

/-- Some key not recognised: `Warning` naming the first such key. -/
theorem C01_unknown_key_rejected (kwds : Dict) (hwf : kwds.WF)
    (h : ∃ k ∈ kwds.keys, ¬ Spec.Recognised k) :
    ∃ pre k post, kwds.keys = pre ++ k :: post ∧ (∀ x ∈ pre, Spec.Recognised x) ∧
      ¬ Spec.Recognised k ∧ (Scenario.init kwds).res = .error (.warning k) := by
  have hne : (Scenario.checkKeys kwds.keys).res ≠ .ok () := by
    rw [ne_eq, Scenario.checkKeys_ok_iff]
    obtain ⟨k, hk, hk'⟩ := h
    intro hall
    exact hk' ((Spec.recognised_iff k).2 (hall k hk))
  cases hr : (Scenario.checkKeys kwds.keys).res with
  | ok u => exact absurd hr hne
  | error e =>
    obtain ⟨pre, k, post, h1, h2, h3, rfl⟩ := Scenario.checkKeys_error _ _ hr
    refine ⟨pre, k, post, h1, fun x hx => (Spec.recognised_iff x).2 (h2 x hx),
      fun hk => h3 ((Spec.recognised_iff k).1 hk), ?_⟩
    simp only [Scenario.init]
    rw [Dict.update_nil_eq hwf]
    exact Py.bind_res_error hr _

/-- `copy_with` accepts exactly the keywords the constructor accepts. -/
theorem C01_copy_with_accepts_iff (s : Scenario) (kwds : Dict) :
    (∃ t, (s.copyWith kwds).res = .ok t) ↔ ∀ k ∈ kwds.keys, Spec.Recognised k := by
  simp only [Scenario.copyWith, Py.bind_ok_iff]
  constructor
  · rintro ⟨t, ⟨⟩, hu, -⟩
    intro k hk
    exact (Spec.recognised_iff k).2 ((Scenario.checkKeys_ok_iff _).1 hu k hk)
  · intro h
    exact ⟨_, (), (Scenario.checkKeys_ok_iff _).2
      (fun k hk => (Spec.recognised_iff k).1 (h k hk)), rfl⟩

example : Dict.WF [("mag", Val.num 6), ("depth_hyp", .num 10)] ∧
    ∀ k ∈ Dict.keys [("mag", Val.num 6), ("depth_hyp", .num 10)], Spec.Recognised k := by
  simp [Dict.WF, Dict.keys, Spec.Recognised, Spec.documentedKeys]

example : ∃ k ∈ Dict.keys [("mag", Val.num 6), ("vs30", .num 500)], ¬ Spec.Recognised k :=
  ⟨"vs30", by simp [Dict.keys], by simp [Spec.Recognised, Spec.documentedKeys]⟩

/-! ## C02: `copy_with` is an override -/

theorem C02_copy_with_overrides (s : Scenario) (hs : s.data.WF) (kwds : Dict) (hkw : kwds.WF)
    (t : Scenario) (h : (s.copyWith kwds).res = .ok t) (k : String) :
    t.data.get? k = match kwds.get? k with
      | some v => some v
      | none => s.data.get? k := by
  simp only [Scenario.copyWith, Py.bind_ok_iff] at h
  obtain ⟨-, -, h⟩ := h
  simp only [Py.pure_res, Except.ok.injEq] at h
  subst h
  simp only [Scenario.copy, Dict.update_nil_eq hs, Dict.get?_update hkw]
  cases kwds.get? k <;> rfl

example : ((⟨[("mag", .num 6), ("dip", .num 90)], []⟩ : Scenario).copyWith
    [("mag", .num 7)]).res = .ok ⟨[("mag", .num 7), ("dip", .num 90)], []⟩ := by
  simp [Scenario.copyWith, Scenario.checkKeys, Scenario.knownKeys, Dict.keys, Scenario.copy,
    Dict.update, Dict.set]

/-! ## C03: attribute access and item access agree -/

/-- Scenarios a user obtains by construction, `copy_with` and item assignment. -/
inductive Spec.Built : Scenario → Prop
  | init {kwds : Dict} {s : Scenario} : (Scenario.init kwds).res = .ok s → Spec.Built s
  | copyWith {s t : Scenario} {kwds : Dict} :
      Spec.Built s → (s.copyWith kwds).res = .ok t → Spec.Built t
  | setItem {s : Scenario} (k : String) (v : Val) : Spec.Built s → Spec.Built (s.setItem k v)

theorem Spec.Built.attrs_nil {s : Scenario} (h : Spec.Built s) : s.attrs = [] := by
  induction h with
  | init h =>
    simp only [Scenario.init, Py.bind_ok_iff, Py.pure_res, Except.ok.injEq] at h
    obtain ⟨-, -, rfl⟩ := h; rfl
  | copyWith _ h ih =>
    simp only [Scenario.copyWith, Py.bind_ok_iff, Py.pure_res, Except.ok.injEq] at h
    obtain ⟨-, -, rfl⟩ := h; exact ih
  | setItem k v _ ih => exact ih

theorem C03_attr_eq_item {s : Scenario} (h : Spec.Built s) (k : String) :
    s.getAttr k = s.getItem k := by
  simp [Scenario.getAttr, h.attrs_nil, Dict.get?]

theorem C03_present {s : Scenario} (h : Spec.Built s) {k : String} {v : Val}
    (hk : s.data.get? k = some v) : s.getAttr k = pure v ∧ s.getItem k = pure v := by
  rw [C03_attr_eq_item h]; simp [Scenario.getItem, hk]

theorem C03_missing {s : Scenario} (h : Spec.Built s) {k : String} (hk : k ∉ s.data.keys) :
    (s.getAttr k).res = .error (.keyError k) ∧ (s.getItem k).res = .error (.keyError k) := by
  rw [C03_attr_eq_item h]; simp [Scenario.getItem, (Dict.get?_eq_none_iff _ _).2 hk]

example : Spec.Built ⟨[("mag", .num 6), ("dip", .num 45)], []⟩ := by
  have h0 : Spec.Built ⟨[("mag", .num 6)], []⟩ := by
    refine Spec.Built.init (kwds := [("mag", .num 6)]) ?_
    simp [Scenario.init, Dict.update, Dict.set, Scenario.checkKeys, Dict.keys, Scenario.knownKeys]
  simpa [Scenario.setItem, Dict.set] using Spec.Built.setItem "dip" (.num 45) h0

/-! ## C04: a model sees only its declared parameters -/

theorem C04_only_declared_parameters_matter {Out : Type} (C : ModelClass Out) (s t : Scenario)
    (h : ∀ p ∈ C.params, s.get p.name = t.get p.name) : C.new s = C.new t := by
  simp only [ModelClass.new, ModelClass.newFrom, Model.select_congr h]

/-- keys added to the scenario that are not parameters change nothing at all -/
theorem C04_extra_keys_ignored {Out : Type} (C : ModelClass Out) (s : Scenario) (k : String)
    (v : Val) (hk : ∀ p ∈ C.params, p.name ≠ k) : C.new (s.setItem k v) = C.new s := by
  apply C04_only_declared_parameters_matter
  intro p hp
  simp [Scenario.get, Scenario.setItem, Dict.get?_set, (hk p hp).symm]

/-- the scenario of the model before class-specific completion has exactly the
parameter names, in order; completion that keeps the keys keeps that -/
theorem C04_scenario_keys {Out : Type} (C : ModelClass Out) (hC : ParamsOk C.params)
    (hfill : ∀ s s', (C.fill s).res = .ok s' → s'.data.keys = s.data.keys)
    (s : Scenario) (m : Instance Out) (h : (C.new s).res = .ok m) :
    m.scenario.data.keys = C.params.map Param.name := by
  rw [ModelClass.new, ModelClass.newFrom_eq C hC] at h
  simp only [Py.bind_ok_iff, Py.pure_res, Except.ok.injEq] at h
  obtain ⟨d, hd, s', hs', out, -, rfl⟩ := h
  rw [hfill _ _ hs']
  exact Model.checkVals_keys hd

/-! ## C05: missing required parameters -/

/-- A value that Python cannot order against the declared limits: the effective
value (given, or default when absent) is a string and there is a limit. -/
def Spec.CannotCompare (p : Param) (v : Val) : Prop :=
  ∃ mn mx, p.kind = .numeric mn mx ∧ (mn.isSome ∨ mx.isSome) ∧
    ((∃ t, v = .str t) ∨ (v = .none ∧ p.required = false ∧ ∃ t, p.default = .str t))

theorem Spec.check_str_error {p : Param} {mn mx : Option ℚ} (hk : p.kind = .numeric mn mx)
    (t : String) :
    (mn.isSome ∨ mx.isSome) ∧ p.check (.str t) = Py.raise .typeError ∨
    (mn = none ∧ mx = none) ∧ p.check (.str t) = pure (.str t) := by
  unfold Param.check
  rw [Param.baseCheck_of_ne (by simp), Py.pure_bind', hk]
  cases mn with
  | some m => left; exact ⟨Or.inl rfl, rfl⟩
  | none =>
    cases mx with
    | some m => left; exact ⟨Or.inr rfl, rfl⟩
    | none => right; exact ⟨⟨rfl, rfl⟩, rfl⟩

/-- `parameter.check` raises in exactly two situations. -/
theorem C05_check_error_iff (p : Param) (v : Val) (e : PyErr) :
    (p.check v).res = .error e ↔
      (v = .none ∧ p.required = true ∧ e = .valueError p.name) ∨
      (Spec.CannotCompare p v ∧ e = .typeError) := by
  by_cases hn : v = .none
  · subst hn
    by_cases hr : p.required = true
    · rw [Param.check_none_required hr]
      simp [Spec.CannotCompare, hr, eq_comm (a := e)]
    · have hr' : p.required = false := by simpa using hr
      cases hk : p.kind with
      | categorical opts =>
        have : ∃ l w, p.check .none = ⟨l, .ok w⟩ := by
          unfold Param.check
          rw [Param.baseCheck_none, if_neg hr, Py.pure_bind', hk]
          by_cases hi : p.default.toVal.isIn opts
          · simp only [hi, if_true]; exact ⟨_, _, rfl⟩
          · simp only [hi, if_false]; exact ⟨_, _, rfl⟩
        obtain ⟨l, w, hw⟩ := this
        rw [hw]; simp [Spec.CannotCompare, hk, hr]
      | numeric mn mx =>
        cases hd : p.default with
        | none =>
          have : p.check .none = pure .none := by
            unfold Param.check
            rw [Param.baseCheck_none, if_neg hr, Py.pure_bind', hk, hd]; rfl
          rw [this]; simp [Spec.CannotCompare, hr, hd]
        | str t =>
          have heq : p.check .none = p.check (.str t) := by
            unfold Param.check
            rw [Param.baseCheck_none, if_neg hr, hd, Param.baseCheck_of_ne (v := .str t) (by simp)]
            rfl
          rw [heq]
          rcases Spec.check_str_error hk t with ⟨h1, h2⟩ | ⟨⟨rfl, rfl⟩, h2⟩
          · rw [h2]; simp [Spec.CannotCompare, hk, hr, hd, h1, eq_comm (a := e)]
          · rw [h2]; simp [Spec.CannotCompare, hk, hr]
        | num q =>
          have heq : p.check .none = p.check (.num q) := by
            unfold Param.check
            rw [Param.baseCheck_none, if_neg hr, hd, Param.baseCheck_of_ne (v := .num _) (by simp)]
            rfl
          obtain ⟨l, hl⟩ := Param.check_numeric_comparable hk (v := .num q) trivial
          rw [heq, hl]; simp [Spec.CannotCompare, hr, hd]
        | bool b =>
          have heq : p.check .none = p.check (.bool b) := by
            unfold Param.check
            rw [Param.baseCheck_none, if_neg hr, hd, Param.baseCheck_of_ne (v := .bool _) (by simp)]
            rfl
          obtain ⟨l, hl⟩ := Param.check_numeric_comparable hk (v := .bool b) trivial
          rw [heq, hl]; simp [Spec.CannotCompare, hr, hd]
  · cases hk : p.kind with
    | categorical opts =>
      have : ∃ l w, p.check v = ⟨l, .ok w⟩ := by
        unfold Param.check
        rw [Param.baseCheck_of_ne hn, Py.pure_bind', hk]
        by_cases hi : v.isIn opts
        · simp only [hi, if_true]; exact ⟨_, _, rfl⟩
        · simp only [hi, if_false]; exact ⟨_, _, rfl⟩
      obtain ⟨l, w, hw⟩ := this
      rw [hw]; simp [Spec.CannotCompare, hk, hn]
    | numeric mn mx =>
      by_cases hs : ∃ t, v = .str t
      · obtain ⟨t, rfl⟩ := hs
        rcases Spec.check_str_error hk t with ⟨h1, h2⟩ | ⟨⟨rfl, rfl⟩, h2⟩
        · rw [h2]; simp [Spec.CannotCompare, hk, h1, eq_comm (a := e)]
        · rw [h2]; simp [Spec.CannotCompare, hk]
      · have hc : v.comparable := by
          cases v <;> simp_all [Val.comparable]
        obtain ⟨l, hl⟩ := Param.check_numeric_comparable hk hc
        rw [hl]; simp [Spec.CannotCompare, hn, hs]

/-- A missing required parameter always makes construction fail; the exception
is decided by the first parameter at fault, and it is `ValueError` naming a
missing required parameter unless a string was given where a limited number is
expected (`TypeError`). -/
theorem C05_missing_required_fails {Out : Type} (C : ModelClass Out) (hC : ParamsOk C.params)
    (s : Scenario) (p : Param) (hp : p ∈ C.params) (hreq : p.required = true)
    (hmiss : s.get p.name = .none) :
    ∃ pre q post, C.params = pre ++ q :: post ∧
      (∀ r ∈ pre, ¬ (s.get r.name = .none ∧ r.required = true) ∧
        ¬ Spec.CannotCompare r (s.get r.name)) ∧
      ((s.get q.name = .none ∧ q.required = true ∧
          (C.new s).res = .error (.valueError q.name)) ∨
       (Spec.CannotCompare q (s.get q.name) ∧ (C.new s).res = .error .typeError)) := by
  have h0 : (p.check (s.get p.name)).res = .error (.valueError p.name) := by
    rw [C05_check_error_iff]; exact Or.inl ⟨hmiss, hreq, rfl⟩
  obtain ⟨e, he⟩ := Model.checkVals_error_of hp h0
  obtain ⟨pre, q, post, h1, h2, h3⟩ := Model.checkVals_error he
  have hnew : (C.new s).res = .error e := by
    rw [ModelClass.new, ModelClass.newFrom_eq C hC]; exact Py.bind_res_error he _
  refine ⟨pre, q, post, h1, ?_, ?_⟩
  · intro r hr
    obtain ⟨v, hv⟩ := h2 r hr
    constructor
    · rintro ⟨ha, hb⟩
      have : (r.check (s.get r.name)).res = .error (.valueError r.name) := by
        rw [C05_check_error_iff]; exact Or.inl ⟨ha, hb, rfl⟩
      rw [this] at hv; cases hv
    · intro hc
      have : (r.check (s.get r.name)).res = .error .typeError := by
        rw [C05_check_error_iff]; exact Or.inr ⟨hc, rfl⟩
      rw [this] at hv; cases hv
  · rw [C05_check_error_iff] at h3
    rcases h3 with ⟨ha, hb, rfl⟩ | ⟨ha, rfl⟩
    · exact Or.inl ⟨ha, hb, hnew⟩
    · exact Or.inr ⟨ha, hnew⟩

/-- Conversely the checks pass as soon as every required parameter is present and
no string sits where a limited number is expected. -/
theorem C05_checks_pass {ps : List Param} (s : Scenario)
    (h : ∀ p ∈ ps, (p.required = true → s.get p.name ≠ .none) ∧
      ¬ Spec.CannotCompare p (s.get p.name)) :
    ∃ d, (Model.checkVals ps s.get).res = .ok d := by
  apply Model.checkVals_ok
  intro p hp
  obtain ⟨h1, h2⟩ := h p hp
  cases hr : (p.check (s.get p.name)).res with
  | ok v => exact ⟨v, rfl⟩
  | error e =>
    rw [C05_check_error_iff] at hr
    rcases hr with ⟨ha, hb, -⟩ | ⟨ha, -⟩
    · exact absurd ha (h1 hb)
    · exact absurd ha h2

example : ∃ (C : ModelClass Unit) (s : Scenario), ParamsOk C.params ∧
    (∃ p ∈ C.params, p.required = true ∧ s.get p.name = .none) ∧
    (C.new s).res = .error (.valueError "dist_rup") := by
  refine ⟨⟨[numP "mag" true (some 4) (some 8), numP "dist_rup" true], fun s => pure s,
    fun _ => pure ()⟩, ⟨[("mag", .num 6)], []⟩, by decide, ⟨numP "dist_rup" true, by simp, rfl,
      by simp [Scenario.get, Dict.get?, numP]⟩, ?_⟩
  rw [ModelClass.new, ModelClass.newFrom_eq _ (by decide)]
  apply Py.bind_res_error
  simp only [Model.checkVals]
  obtain ⟨l, hl⟩ := Param.check_numeric_comparable (p := numP "mag" true (some 4) (some 8))
    (mn := some 4) (mx := some 8) rfl (v := .num 6) trivial
  have hg : (⟨[("mag", .num 6)], []⟩ : Scenario).get (numP "mag" true (some 4) (some 8)).name =
    .num 6 := by simp [Scenario.get, Dict.get?, numP]
  have hg2 : (⟨[("mag", .num 6)], []⟩ : Scenario).get (numP "dist_rup" true).name =
    .none := by simp [Scenario.get, Dict.get?, numP]
  rw [hg, hl, hg2, Param.check_none_required rfl]
  rfl

/-! ## C06: numeric limits are advisory -/

/-- `x` lies strictly below the lower limit, if there is one -/
def Spec.Below (mn : Option ℚ) (x : ℝ) : Prop := ∃ m, mn = some m ∧ x < m
/-- `x` lies strictly above the upper limit, if there is one -/
def Spec.Above (mx : Option ℚ) (x : ℝ) : Prop := ∃ m, mx = some m ∧ (m : ℝ) < x

open Classical in
/-- A number is always kept; one warning exactly when it is outside the limits. -/
theorem C06_number_kept (p : Param) (mn mx : Option ℚ) (hk : p.kind = .numeric mn mx) (x : ℝ) :
    p.check (.num x) =
      ⟨if Spec.Below mn x then [.belowLimit p.name (.num x)]
        else if Spec.Above mx x then [.aboveLimit p.name (.num x)] else [], .ok (.num x)⟩ := by
  unfold Param.check
  rw [Param.baseCheck_of_ne (by simp), Py.pure_bind', hk]
  have hb : Param.below mn (.num x) = pure (decide (Spec.Below mn x)) := by
    cases mn with
    | none => simp [Param.below, Spec.Below]
    | some m => simp [Param.below, Spec.Below]
  have ha : Param.above mx (.num x) = pure (decide (Spec.Above mx x)) := by
    cases mx with
    | none => simp [Param.above, Spec.Above]
    | some m => simp [Param.above, Spec.Above]
  simp only [hb, ha, Py.pure_bind', decide_eq_true_eq]
  by_cases h1 : Spec.Below mn x
  · simp only [h1, if_true]; rfl
  · by_cases h2 : Spec.Above mx x
    · simp only [h1, h2, if_true, if_false]; rfl
    · simp only [h1, h2, if_false]; rfl

/-- inside the limits (both ends included) nothing is reported -/
theorem C06_inside_silent (p : Param) (mn mx : ℚ) (hk : p.kind = .numeric (some mn) (some mx))
    (x : ℝ) (h1 : (mn : ℝ) ≤ x) (h2 : x ≤ mx) : p.check (.num x) = ⟨[], .ok (.num x)⟩ := by
  rw [C06_number_kept p _ _ hk]
  have hb : ¬ Spec.Below (some mn) x := by
    rintro ⟨m, hm, hx⟩; cases hm; exact absurd hx (not_lt.2 h1)
  have ha : ¬ Spec.Above (some mx) x := by
    rintro ⟨m, hm, hx⟩; cases hm; exact absurd hx (not_lt.2 h2)
  simp [hb, ha]

/-- `nan` passes silently whatever the limits -/
theorem C06_nan_silent (p : Param) (mn mx : Option ℚ) (hk : p.kind = .numeric mn mx) :
    p.check .nan = ⟨[], .ok .nan⟩ := by
  unfold Param.check
  rw [Param.baseCheck_of_ne (by simp), Py.pure_bind', hk]
  cases mn <;> cases mx <;> simp [Param.below, Param.above] <;> rfl

/-- a missing optional number becomes the default, itself checked -/
theorem C06_default (p : Param) (mn mx : Option ℚ) (hk : p.kind = .numeric mn mx)
    (hreq : p.required = false) :
    (p.default = .none → p.check .none = ⟨[], .ok .none⟩) ∧
    (∀ q : ℚ, p.default = .num q → p.check .none = p.check (.num q)) := by
  constructor
  · intro hd
    unfold Param.check
    rw [Param.baseCheck_none, hreq, if_neg (by simp), Py.pure_bind', hk, hd]; rfl
  · intro q hd
    unfold Param.check
    rw [Param.baseCheck_none, hreq, if_neg (by simp), hd,
      Param.baseCheck_of_ne (v := .num _) (by simp)]
    rfl

/-- At the level of a whole model: numbers for all numeric parameters never make
the checks fail, however far outside the limits. -/
theorem C06_limits_never_reject {ps : List Param} (s : Scenario)
    (h : ∀ p ∈ ps, (∃ x : ℝ, s.get p.name = .num x) ∨
      ∃ o, p.kind = .categorical o ∧ s.get p.name ≠ .none) :
    ∃ d, (Model.checkVals ps s.get).res = .ok d := by
  apply C05_checks_pass
  intro p hp
  rcases h p hp with ⟨x, hx⟩ | ⟨o, ho, hne⟩
  · rw [hx]; simp [Spec.CannotCompare]
  · exact ⟨fun _ => hne, by simp [Spec.CannotCompare, ho]⟩

example : (numP "mag" true (some 4) (some 8)).check (.num 9) =
    ⟨[.aboveLimit "mag" (.num 9)], .ok (.num 9)⟩ := by
  rw [C06_number_kept _ (some 4) (some 8) rfl]
  have h1 : ¬ Spec.Below (some 4) 9 := by
    rintro ⟨m, hm, hx⟩; cases hm; norm_num at hx
  have h2 : Spec.Above (some 8) 9 := ⟨8, rfl, by norm_num⟩
  simp [h1, h2, numP]

/-! ## C07: categorical parameters -/

/-- Given a value (not `None`) that is one of the options: kept, silently. -/
theorem C07_option_kept (p : Param) (opts : List Lit) (hk : p.kind = .categorical opts)
    (v : Val) (hne : v ≠ .none) (hin : v.isIn opts) : p.check v = ⟨[], .ok v⟩ := by
  unfold Param.check
  rw [Param.baseCheck_of_ne hne, Py.pure_bind', hk]
  simp only [hin, if_true]; rfl

/-- Given any other value: the default, after exactly two warnings; required or not. -/
theorem C07_other_becomes_default (p : Param) (opts : List Lit) (hk : p.kind = .categorical opts)
    (v : Val) (hne : v ≠ .none) (hin : ¬ v.isIn opts) :
    p.check v = ⟨[.notOption p.name v, .usingDefault p.name], .ok p.default.toVal⟩ := by
  unfold Param.check
  rw [Param.baseCheck_of_ne hne, Py.pure_bind', hk]
  simp only [hin, if_false]; rfl

/-- An unknown value for a required parameter without default is *not* rejected:
the model continues with `None`. -/
theorem C07_required_unknown_is_none (p : Param) (opts : List Lit)
    (hk : p.kind = .categorical opts) (_hreq : p.required = true) (hd : p.default = .none)
    (v : Val) (hne : v ≠ .none) (hin : ¬ v.isIn opts) :
    (p.check v).res = .ok .none := by
  rw [C07_other_becomes_default p opts hk v hne hin, hd]; rfl

/-- A missing optional categorical value becomes the default; silently when the
default is an option. -/
theorem C07_missing (p : Param) (opts : List Lit) (hk : p.kind = .categorical opts)
    (hreq : p.required = false) :
    (p.check .none).res = .ok p.default.toVal ∧
    (p.default.toVal.isIn opts → (p.check .none).log = []) := by
  unfold Param.check
  rw [Param.baseCheck_none, hreq, if_neg (by simp), Py.pure_bind', hk]
  by_cases hi : p.default.toVal.isIn opts
  · simp only [hi, if_true]; exact ⟨rfl, fun _ => rfl⟩
  · simp only [hi, if_false]; exact ⟨rfl, fun h => absurd h (by simp)⟩

/-- Summary: the checked value is an option, the default, or nothing else. -/
theorem C07_result (p : Param) (opts : List Lit) (hk : p.kind = .categorical opts)
    (v w : Val) (h : (p.check v).res = .ok w) :
    (w = v ∧ v.isIn opts) ∨ w = p.default.toVal := by
  by_cases hn : v = .none
  · subst hn
    by_cases hr : p.required = true
    · rw [Param.check_none_required hr] at h; cases h
    · have := (C07_missing p opts hk (by simpa using hr)).1
      rw [this] at h; right; exact (Except.ok.inj h).symm
  · by_cases hi : v.isIn opts
    · rw [C07_option_kept p opts hk v hn hi] at h; left; exact ⟨(Except.ok.inj h).symm, hi⟩
    · rw [C07_other_becomes_default p opts hk v hn hi] at h; right
      exact (Except.ok.inj h).symm

/-- `True == 1` in Python: the number 1 is accepted for a boolean option and kept as 1. -/
theorem C07_one_is_true (name : String) (r : Bool) (d : Lit) :
    (boolP name r d).check (.num 1) = ⟨[], .ok (.num 1)⟩ :=
  C07_option_kept _ [.bool true, .bool false] rfl _ (by simp)
    ⟨.bool true, by simp, by simp [Val.pyEq, Lit.toVal, Val.boolNum]⟩

example : ((catP "mechanism" true ["SS", "NS", "RS"]).check (.str "strike-slip")).res = .ok .none :=
  C07_required_unknown_is_none _ [.str "SS", .str "NS", .str "RS"] rfl rfl rfl _ (by simp)
    (by simp [Val.isIn, Val.pyEq, Lit.toVal])

/-! ## C10: building a model again from its own scenario -/

/-- Checking a checked value again gives the same value, unless the value is the
`None` of a required categorical parameter. -/
theorem C10_check_idempotent (p : Param) (v w : Val) (h : (p.check v).res = .ok w)
    (hreq : p.required = true → w ≠ .none) : (p.check w).res = .ok w := by
  cases hk : p.kind with
  | categorical opts =>
    rcases C07_result p opts hk v w h with ⟨rfl, -⟩ | hw
    · exact h
    · by_cases hwn : w = .none
      · have hr : p.required = false := by
          by_contra hc; exact hreq (by simpa using hc) hwn
        rw [hwn] at hw ⊢
        rw [(C07_missing p opts hk hr).1, ← hw]
      · by_cases hi : w.isIn opts
        · rw [C07_option_kept p opts hk w hwn hi]
        · rw [C07_other_becomes_default p opts hk w hwn hi, ← hw]
  | numeric mn mx =>
    by_cases hn : v = .none
    · subst hn
      by_cases hr : p.required = true
      · rw [Param.check_none_required hr] at h; cases h
      · -- the default
        have heq : ∀ d : Lit, p.default = d → d ≠ .none → p.check .none = p.check d.toVal := by
          intro d hd hdn
          unfold Param.check
          rw [Param.baseCheck_none, if_neg hr, hd,
            Param.baseCheck_of_ne (v := d.toVal) (by cases d <;> simp_all [Lit.toVal])]
        cases hd : p.default with
        | none =>
          have hc := (C06_default p mn mx hk (by simpa using hr)).1 hd
          rw [hc] at h; cases h; rw [hc]
        | num q =>
          rw [heq _ hd (by simp)] at h
          obtain ⟨l, hl⟩ := Param.check_numeric_comparable hk (v := .num q) trivial
          rw [show (Lit.num q).toVal = .num (q : ℝ) from rfl, hl] at h
          cases h; rw [hl]
        | bool b =>
          rw [heq _ hd (by simp)] at h
          obtain ⟨l, hl⟩ := Param.check_numeric_comparable hk (v := .bool b) trivial
          rw [show (Lit.bool b).toVal = .bool b from rfl, hl] at h
          cases h; rw [hl]
        | str t =>
          rw [heq _ hd (by simp), show (Lit.str t).toVal = .str t from rfl] at h
          rcases Spec.check_str_error hk t with ⟨-, h2⟩ | ⟨-, h2⟩
          · rw [h2] at h; cases h
          · rw [h2] at h; cases h; rw [h2]; rfl
    · by_cases hs : ∃ t, v = .str t
      · obtain ⟨t, rfl⟩ := hs
        rcases Spec.check_str_error hk t with ⟨-, h2⟩ | ⟨-, h2⟩
        · rw [h2] at h; cases h
        · rw [h2] at h; cases h; rw [h2]; rfl
      · have hc : v.comparable := by
          cases v <;> simp_all [Val.comparable]
        obtain ⟨l, hl⟩ := Param.check_numeric_comparable hk hc
        rw [hl] at h; cases h; rw [hl]

theorem Spec.checkVals_fixed {ps : List Param} {get get2 : String → Val} {d : Dict}
    (hn : (ps.map Param.name).Nodup)
    (h : (Model.checkVals ps get).res = .ok d)
    (h2 : ∀ p ∈ ps, ∀ w, d.get? p.name = some w → get2 p.name = w)
    (hreq : ∀ p ∈ ps, p.required = true → d.get? p.name ≠ some .none) :
    (Model.checkVals ps get2).res = .ok d := by
  induction ps generalizing d with
  | nil => simpa [Model.checkVals] using h
  | cons p ps ih =>
    simp only [Model.checkVals, Py.bind_ok_iff, Py.pure_res, Except.ok.injEq] at h
    obtain ⟨v, hv, d', hd', rfl⟩ := h
    simp only [List.map_cons, List.nodup_cons] at hn
    have hget : get2 p.name = v := h2 p (by simp) v (by simp [Dict.get?])
    have htail : (Model.checkVals ps get2).res = .ok d' := by
      apply ih hn.2 hd'
      · intro q hq w hw
        have : p.name ≠ q.name := fun e => hn.1 (e ▸ List.mem_map_of_mem hq)
        exact h2 q (by simp [hq]) w (by simp [Dict.get?, this, hw])
      · intro q hq hr
        have : p.name ≠ q.name := fun e => hn.1 (e ▸ List.mem_map_of_mem hq)
        have := hreq q (by simp [hq]) hr
        simpa [Dict.get?, ‹p.name ≠ q.name›] using this
    have hhead : (p.check v).res = .ok v := by
      apply C10_check_idempotent p _ v hv
      intro hr hvn
      exact hreq p (by simp) hr (by simp [Dict.get?, hvn])
    simp only [Model.checkVals, Py.bind_ok_iff, hget]
    exact ⟨v, hhead, d', htail, rfl⟩

/-- Rebuilding, for every class whose `_check_inputs` is the inherited one: the
second model has the same scenario and the same predictions. -/
theorem C10_rebuild {Out : Type} (C : ModelClass Out) (hC : ParamsOk C.params)
    (hfill : ∀ s, C.fill s = pure s) (s : Scenario) (m : Instance Out)
    (h : (C.new s).res = .ok m)
    (hreq : ∀ p ∈ C.params, p.required = true → m.scenario.get p.name ≠ .none) :
    (C.new m.scenario).res = .ok m := by
  rw [ModelClass.new, ModelClass.newFrom_eq C hC] at h
  simp only [Py.bind_ok_iff, Py.pure_res, Except.ok.injEq, hfill] at h
  obtain ⟨d, hd, s', rfl, out, hout, rfl⟩ := h
  have h2 : (Model.checkVals C.params (Scenario.get ⟨d, []⟩)).res = .ok d := by
    apply Spec.checkVals_fixed hC.1 hd
    · intro p _ w hw; simp [Scenario.get, hw]
    · intro p hp hr hc
      exact hreq p hp hr (by simp [Scenario.get, hc])
  rw [ModelClass.new, ModelClass.newFrom_eq C hC, Py.bind_res_ok h2, hfill, Py.pure_bind',
    Py.bind_res_ok hout]
  rfl

/-- The exception: a required parameter whose kept value is `None` (an unknown value
was given, see C07) makes the rebuild fail. -/
theorem C10_rebuild_fails_after_unknown {Out : Type} (C : ModelClass Out)
    (hC : ParamsOk C.params) (m : Instance Out) (p : Param) (hp : p ∈ C.params)
    (hreq : p.required = true) (hnone : m.scenario.get p.name = .none) :
    ∃ e, (C.new m.scenario).res = .error e := by
  obtain ⟨pre, q, post, -, -, h | h⟩ :=
    C05_missing_required_fails C hC m.scenario p hp hreq hnone
  · exact ⟨_, h.2.2⟩
  · exact ⟨_, h.2⟩

/-- A class with one required categorical parameter: built from an unknown value,
then from its own scenario. -/
example : ∃ (C : ModelClass Unit) (s : Scenario) (m : Instance Unit), ParamsOk C.params ∧
    (C.new s).res = .ok m ∧ (C.new m.scenario).res = .error (.valueError "mechanism") := by
  let p := catP "mechanism" true ["SS", "NS", "RS"]
  let C : ModelClass Unit := ⟨[p], fun s => pure s, fun _ => pure ()⟩
  have hC : ParamsOk C.params := by decide
  have h1 : p.check (.str "x") = ⟨[.notOption p.name (.str "x"), .usingDefault p.name], .ok .none⟩ :=
    C07_other_becomes_default p [.str "SS", .str "NS", .str "RS"] rfl _ (by simp)
      (by simp [Val.isIn, Val.pyEq, Lit.toVal])
  refine ⟨C, ⟨[("mechanism", .str "x")], []⟩, ⟨⟨[("mechanism", .none)], []⟩, ()⟩, hC, ?_, ?_⟩
  · rw [ModelClass.new, ModelClass.newFrom_eq C hC]
    have hg : (⟨[("mechanism", .str "x")], []⟩ : Scenario).get p.name = .str "x" := by
      simp [p, catP, Scenario.get, Dict.get?]
    simp only [C, Model.checkVals, hg, h1]
    rfl
  · rw [ModelClass.new, ModelClass.newFrom_eq C hC]
    have hg : (⟨[("mechanism", .none)], []⟩ : Scenario).get p.name = .none := by
      simp [p, catP, Scenario.get, Dict.get?]
    simp only [C, Model.checkVals, hg]
    rw [Param.check_none_required rfl]
    rfl
