import Verif.Model

/-! # Lemmas about `Parameter.check` and `Model.__init__` -/

namespace Py
variable {α β γ : Type}

theorem bind_assoc' (x : Py α) (f : α → Py β) (g : β → Py γ) :
    ((x >>= f) >>= g) = x >>= fun a => f a >>= g := by
  obtain ⟨l, r⟩ := x
  cases r with
  | error e => rfl
  | ok a =>
    have h1 : ((⟨l, .ok a⟩ : Py α) >>= f) = ⟨l ++ (f a).log, (f a).res⟩ := rfl
    have h2 : ((⟨l, .ok a⟩ : Py α) >>= fun a => f a >>= g) =
      ⟨l ++ (f a >>= g).log, (f a >>= g).res⟩ := rfl
    rw [h1, h2]
    generalize f a = y
    obtain ⟨l2, r2⟩ := y
    cases r2 with
    | error e => rfl
    | ok b =>
      apply Py.ext
      · show (l ++ l2) ++ (g b).log = l ++ (l2 ++ (g b).log); simp
      · rfl

@[simp] theorem bind_pure' (x : Py α) : (x >>= fun a => (Pure.pure a : Py α)) = x := by
  obtain ⟨l, r⟩ := x
  cases r with
  | error e => rfl
  | ok a => apply Py.ext <;> simp [bind_eq, bind]

end Py

namespace Val

@[simp] theorem lt_num (x m : ℝ) : (Val.num x).lt m = pure (decide (x < m)) := by
  simp only [Val.lt]
@[simp] theorem gt_num (x m : ℝ) : (Val.num x).gt m = pure (decide (m < x)) := by
  simp only [Val.gt]
@[simp] theorem lt_nan (m : ℝ) : Val.nan.lt m = pure false := rfl
@[simp] theorem gt_nan (m : ℝ) : Val.nan.gt m = pure false := rfl
@[simp] theorem lt_str (s : String) (m : ℝ) : (Val.str s).lt m = Py.raise .typeError := rfl
@[simp] theorem gt_str (s : String) (m : ℝ) : (Val.str s).gt m = Py.raise .typeError := rfl

/-- `v` can be ordered against a number -/
def comparable : Val → Prop
  | .str _ => False
  | .none => False
  | _ => True

theorem lt_ok {v : Val} (h : v.comparable) (m : ℝ) : ∃ b, v.lt m = pure b := by
  cases v <;> simp_all [comparable, Val.lt]
theorem gt_ok {v : Val} (h : v.comparable) (m : ℝ) : ∃ b, v.gt m = pure b := by
  cases v <;> simp_all [comparable, Val.gt]

end Val

namespace Param

theorem baseCheck_of_ne {p : Param} {v : Val} (h : v ≠ .none) : p.baseCheck v = pure v := by
  cases v <;> simp_all [baseCheck]

theorem baseCheck_none (p : Param) :
    p.baseCheck .none = if p.required then Py.raise (.valueError p.name) else pure p.default.toVal :=
  rfl

/-- the numeric part of `check` applied to a value that is not `None` -/
theorem check_numeric_comparable {p : Param} {mn mx : Option ℚ} (hk : p.kind = .numeric mn mx)
    {v : Val} (hv : v.comparable) : ∃ l, p.check v = ⟨l, .ok v⟩ := by
  have hne : v ≠ .none := by rintro rfl; exact hv
  have hb : ∃ b, below mn v = pure b := by
    cases mn with
    | none => exact ⟨false, rfl⟩
    | some m => exact Val.lt_ok hv m
  have ha : ∃ b, above mx v = pure b := by
    cases mx with
    | none => exact ⟨false, rfl⟩
    | some m => exact Val.gt_ok hv m
  obtain ⟨b, hb⟩ := hb
  obtain ⟨a, ha⟩ := ha
  unfold check
  rw [baseCheck_of_ne hne, Py.pure_bind', hk]
  cases v with
  | none => exact absurd rfl hne
  | str s => exact hv.elim
  | num x =>
    simp only [hb, Py.pure_bind']
    cases b
    · simp only [Bool.false_eq_true, if_false, ha, Py.pure_bind']
      cases a
      · exact ⟨_, rfl⟩
      · exact ⟨_, rfl⟩
    · exact ⟨_, rfl⟩
  | nan =>
    simp only [hb, Py.pure_bind']
    cases b
    · simp only [Bool.false_eq_true, if_false, ha, Py.pure_bind']
      cases a
      · exact ⟨_, rfl⟩
      · exact ⟨_, rfl⟩
    · exact ⟨_, rfl⟩
  | bool x =>
    simp only [hb, Py.pure_bind']
    cases b
    · simp only [Bool.false_eq_true, if_false, ha, Py.pure_bind']
      cases a
      · exact ⟨_, rfl⟩
      · exact ⟨_, rfl⟩
    · exact ⟨_, rfl⟩

theorem check_none_required {p : Param} (h : p.required = true) :
    p.check .none = Py.raise (.valueError p.name) := by
  unfold check; rw [baseCheck_none, if_pos h]; rfl

end Param

namespace Model

/-- The checks of `_check_inputs`, parameter by parameter, on the values supplied
by the caller: the dictionary of checked values. -/
noncomputable def checkVals : List Param → (String → Val) → Py Dict
  | [], _ => pure []
  | p :: ps, get => do
    let v ← p.check (get p.name)
    let d ← checkVals ps get
    pure ((p.name, v) :: d)

theorem getItem_middle {pre post : Dict} {k : String} {v : Val} (at' : Dict) (h : k ∉ pre.keys) :
    (⟨pre ++ (k, v) :: post, at'⟩ : Scenario).getItem k = pure v := by
  have : Dict.get? (pre ++ (k, v) :: post) k = some v := by
    induction pre with
    | nil => simp [Dict.get?]
    | cons x pre ih =>
      obtain ⟨a, b⟩ := x
      simp only [Dict.keys, List.map_cons, List.mem_cons, not_or] at h
      have h1 : a ≠ k := fun e => h.1 e.symm
      simp only [List.cons_append, Dict.get?, h1, if_false]
      exact ih h.2
  simp [Scenario.getItem, this]

theorem set_middle {pre post : Dict} {k : String} {v w : Val} (h : k ∉ pre.keys) :
    Dict.set (pre ++ (k, v) :: post) k w = pre ++ (k, w) :: post := by
  induction pre with
  | nil => simp [Dict.set]
  | cons x pre ih =>
    obtain ⟨a, b⟩ := x
    simp only [Dict.keys, List.map_cons, List.mem_cons, not_or] at h
    have h1 : a ≠ k := fun e => h.1 e.symm
    simp only [List.cons_append, Dict.set, h1, if_false]
    rw [ih h.2]

theorem checkInputs_eq (ps : List Param) (get : String → Val) (pre at' : Dict)
    (h : (pre.keys ++ ps.map Param.name).Nodup) :
    checkInputs ps ⟨pre ++ select ps get, at'⟩ =
      checkVals ps get >>= fun d => pure ⟨pre ++ d, at'⟩ := by
  induction ps generalizing pre with
  | nil => simp [checkInputs, checkVals, select]
  | cons p ps ih =>
    have hp : p.name ∉ pre.keys := by
      intro hm
      exact (List.nodup_append.1 h).2.2 _ hm _ (by simp) rfl
    simp only [checkInputs, select, List.map_cons, checkVals]
    rw [getItem_middle at' hp, Py.pure_bind', Py.bind_assoc']
    congr 1
    funext v
    have := ih (pre ++ [(p.name, v)]) (by
      simp only [Dict.keys, List.map_append, List.map_cons, List.map_nil] at h ⊢
      simpa using h)
    simp only [Scenario.setItem, set_middle hp]
    simp only [List.append_assoc, List.cons_append, List.nil_append, select] at this
    rw [this, Py.bind_assoc']
    simp only [Py.pure_bind']

end Model

/-- The declaration requirements that make `Model.__init__` well behaved: the
names of `PARAMS` are distinct and recognised by `Scenario`.  Proved of every
shipped class in C14. -/
def ParamsOk (ps : List Param) : Prop :=
  (ps.map Param.name).Nodup ∧ ∀ p ∈ ps, p.name ∈ Scenario.knownKeys

instance (ps : List Param) : Decidable (ParamsOk ps) := by unfold ParamsOk; infer_instance

namespace ModelClass
variable {Out : Type}

theorem keys_select (ps : List Param) (get : String → Val) :
    Dict.keys (Model.select ps get) = ps.map Param.name := by
  simp [Dict.keys, Model.select, Function.comp_def]

theorem init_select {ps : List Param} (h : ParamsOk ps) (get : String → Val) :
    Scenario.init (Model.select ps get) = pure ⟨Model.select ps get, []⟩ := by
  have hwf : Dict.WF (Model.select ps get) := by
    simp only [Dict.WF]; rw [keys_select]; exact h.1
  have hk : ∀ k ∈ Dict.keys (Model.select ps get), k ∈ Scenario.knownKeys := by
    rw [keys_select]; intro k hk
    obtain ⟨p, hp, rfl⟩ := List.mem_map.1 hk
    exact h.2 p hp
  simp only [Scenario.init]
  rw [Dict.update_nil_eq hwf, Scenario.checkKeys_of_all hk, Py.pure_bind']

/-- Construction, for a class with well-formed `PARAMS`. -/
theorem newFrom_eq (C : ModelClass Out) (h : ParamsOk C.params) (get : String → Val) :
    C.newFrom get = (do
      let d ← Model.checkVals C.params get
      let s ← C.fill ⟨d, []⟩
      let out ← C.compute s
      pure ⟨s, out⟩) := by
  unfold newFrom
  rw [init_select h, Py.pure_bind']
  have := Model.checkInputs_eq C.params get [] [] (by simpa [Dict.keys] using h.1)
  simp only [List.nil_append] at this
  rw [this, Py.bind_assoc']
  simp only [Py.pure_bind']

end ModelClass

namespace Model

theorem checkVals_keys {ps : List Param} {get : String → Val} {d : Dict}
    (h : (checkVals ps get).res = .ok d) : d.keys = ps.map Param.name := by
  induction ps generalizing d with
  | nil => simp [checkVals] at h; subst h; rfl
  | cons p ps ih =>
    simp only [checkVals, Py.bind_ok_iff] at h
    obtain ⟨v, -, d', hd', h⟩ := h
    simp only [Py.pure_res, Except.ok.injEq] at h
    subst h
    have := ih hd'
    simp only [Dict.keys] at this
    simp [Dict.keys, this]

/-- the value kept under a parameter's name is the checked value -/
theorem checkVals_get {ps : List Param} (hn : (ps.map Param.name).Nodup)
    {get : String → Val} {d : Dict}
    (h : (checkVals ps get).res = .ok d) {p : Param} (hp : p ∈ ps) :
    ∃ v, (p.check (get p.name)).res = .ok v ∧ d.get? p.name = some v := by
  induction ps generalizing d with
  | nil => simp at hp
  | cons q ps ih =>
    simp only [checkVals, Py.bind_ok_iff] at h
    obtain ⟨v, hv, d', hd', h⟩ := h
    simp only [Py.pure_res, Except.ok.injEq] at h
    subst h
    simp only [List.map_cons, List.nodup_cons] at hn
    rcases List.mem_cons.1 hp with rfl | hp
    · exact ⟨v, hv, by simp [Dict.get?]⟩
    · obtain ⟨w, hw, hd⟩ := ih hn.2 hd' hp
      have : q.name ≠ p.name := fun e => hn.1 (e ▸ List.mem_map_of_mem hp)
      exact ⟨w, hw, by simp [Dict.get?, this, hd]⟩

theorem checkVals_congr {ps : List Param} {get get' : String → Val}
    (h : ∀ p ∈ ps, get p.name = get' p.name) : checkVals ps get = checkVals ps get' := by
  induction ps with
  | nil => rfl
  | cons p ps ih =>
    simp only [checkVals]
    rw [h p (by simp), ih (fun q hq => h q (by simp [hq]))]

theorem select_congr {ps : List Param} {get get' : String → Val}
    (h : ∀ p ∈ ps, get p.name = get' p.name) : select ps get = select ps get' := by
  unfold select; apply List.map_congr_left; intro p hp; rw [h p hp]

/-- the checks succeed when each one does -/
theorem checkVals_ok {ps : List Param} {get : String → Val}
    (h : ∀ p ∈ ps, ∃ v, (p.check (get p.name)).res = .ok v) :
    ∃ d, (checkVals ps get).res = .ok d := by
  induction ps with
  | nil => exact ⟨[], rfl⟩
  | cons p ps ih =>
    obtain ⟨v, hv⟩ := h p (by simp)
    obtain ⟨d, hd⟩ := ih (fun q hq => h q (by simp [hq]))
    refine ⟨(p.name, v) :: d, ?_⟩
    simp only [checkVals, Py.bind_ok_iff]
    exact ⟨v, hv, d, hd, rfl⟩

/-- the first failing check decides the exception -/
theorem checkVals_error {ps : List Param} {get : String → Val} {e : PyErr}
    (h : (checkVals ps get).res = .error e) :
    ∃ pre p post, ps = pre ++ p :: post ∧
      (∀ q ∈ pre, ∃ v, (q.check (get q.name)).res = .ok v) ∧
      (p.check (get p.name)).res = .error e := by
  induction ps with
  | nil => simp [checkVals] at h
  | cons p ps ih =>
    simp only [checkVals, Py.bind_error_iff] at h
    rcases h with h | ⟨v, hv, h | ⟨d, -, h⟩⟩
    · exact ⟨[], p, ps, rfl, by simp, h⟩
    · obtain ⟨pre, q, post, h1, h2, h3⟩ := ih h
      refine ⟨p :: pre, q, post, by simp [h1], ?_, h3⟩
      intro r hr
      rcases List.mem_cons.1 hr with rfl | hr
      · exact ⟨v, hv⟩
      · exact h2 r hr
    · simp at h

/-- a failing check fails the construction -/
theorem checkVals_error_of {ps : List Param} {get : String → Val} {p : Param} (hp : p ∈ ps)
    {e : PyErr} (h : (p.check (get p.name)).res = .error e) :
    ∃ e', (checkVals ps get).res = .error e' := by
  cases hr : (checkVals ps get).res with
  | error e' => exact ⟨e', rfl⟩
  | ok d =>
    exfalso
    induction ps generalizing d with
    | nil => simp at hp
    | cons q ps ih =>
      simp only [checkVals, Py.bind_ok_iff] at hr
      obtain ⟨v, hv, d', hd', -⟩ := hr
      rcases List.mem_cons.1 hp with rfl | hp
      · rw [hv] at h; cases h
      · exact ih hp d' hd'

end Model
