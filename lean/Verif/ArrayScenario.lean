import Verif.ModelLemmas

/-!
# Arrays and lists as scenario values (src/pygmm/model.py lines 147-179, 391-398, 453-472, 507-523)

`Val` has the scalars a scenario can hold.  Nothing in the code stops a caller from storing a
numpy array or a Python list instead; this file models what the parameter checks do with one.
-/

/-- a scenario value: a scalar, a one-dimensional numpy array of numbers, or a Python list of
numbers -/
inductive AVal where
  | scalar (v : Val)
  | array (l : List ℝ)
  | list (l : List ℝ)

namespace AVal

/-- Truth of the boolean array that a comparison of an array with a scalar gives
(`if value < self.min`, model.py lines 457, 464; `value not in self.options`, line 510): the truth
of the only entry, and `ValueError` for more than one.  (An empty array is given the same error:
numpy 2.2 and later; before that it was false with a deprecation notice.) -/
noncomputable def truth : List Bool → Py Bool
  | [b] => pure b
  | _ => Py.raise (.valueError "truth value of an array")

open Classical in
/-- Python `v < m`, tested by an `if`; a list cannot be ordered against a number -/
noncomputable def lt (v : AVal) (m : ℝ) : Py Bool :=
  match v with
  | .scalar v => v.lt m
  | .array l => truth (l.map fun x => decide (x < m))
  | .list _ => Py.raise .typeError

open Classical in
/-- Python `m < v`, tested by an `if` -/
noncomputable def gt (v : AVal) (m : ℝ) : Py Bool :=
  match v with
  | .scalar v => v.gt m
  | .array l => truth (l.map fun x => decide (m < x))
  | .list _ => Py.raise .typeError

open Classical in
/-- Python `v in options`: a list equals no string or boolean; an array is compared entry by entry
with the options in turn until one comparison is true, and the comparison has to have a truth
value -/
noncomputable def isIn (v : AVal) (options : List Lit) : Py Bool :=
  match v with
  | .scalar v => pure (decide (v.isIn options))
  | .list _ => pure false
  | .array l => go l options
where
  /-- one option after the other -/
  go (l : List ℝ) : List Lit → Py Bool
    | [] => pure false
    | o :: os => do
      if ← truth (l.map fun x => decide ((Val.num x).pyEq o.toVal)) then pure true else go l os

/-- how a value is shown in a warning (a simplification: `Event` has no arrays, they are shown as
text without their entries) -/
def shown : AVal → Val
  | .scalar v => v
  | .array _ => .str "array"
  | .list _ => .str "list"

/-- model.py lines 391-398 -/
noncomputable def baseCheck (p : Param) (v : AVal) : Py AVal :=
  match v with
  | .scalar v => do pure (.scalar (← p.baseCheck v))
  | v => pure v

/-- model.py lines 457-463 -/
noncomputable def below (min : Option ℚ) (v : AVal) : Py Bool :=
  match min with
  | some m => v.lt m
  | none => pure false

/-- model.py lines 464-470 -/
noncomputable def above (max : Option ℚ) (v : AVal) : Py Bool :=
  match max with
  | some m => v.gt m
  | none => pure false

/-- model.py lines 453-472 and 507-523 -/
noncomputable def check (p : Param) (v : AVal) : Py AVal := do
  let v ← baseCheck p v
  match p.kind with
  | .numeric min max =>
    match v with
    | .scalar .none => pure (.scalar .none)
    | v => do
      if ← below min v then
        Py.warn (.belowLimit p.name v.shown)
        pure v
      else if ← above max v then
        Py.warn (.aboveLimit p.name v.shown)
        pure v
      else
        pure v
  | .categorical options => do
    if ← v.isIn options then pure v
    else do
      Py.warn (.notOption p.name v.shown)
      Py.warn (.usingDefault p.name)
      pure (.scalar p.default.toVal)

/-- model.py lines 166-175: the checks of every parameter in order of declaration, on the values
the caller supplied -/
noncomputable def checkVals : List Param → (String → AVal) → Py (List (String × AVal))
  | [], _ => pure []
  | p :: ps, get => do
    let v ← check p (get p.name)
    let d ← checkVals ps get
    pure ((p.name, v) :: d)

/-- Construction of a model from a mapping that may hold arrays: the checks, then whatever the
class does with the checked values (`rest`, arbitrary). -/
noncomputable def construct {Out : Type} (ps : List Param) (get : String → AVal)
    (rest : List (String × AVal) → Py Out) : Py Out := do
  rest (← checkVals ps get)

/-! ## Scalars: the model of `Param.lean` -/

theorem check_scalar (p : Param) (v : Val) :
    check p (.scalar v) = (do pure (.scalar (← p.check v))) := by
  classical
  unfold check baseCheck Param.check
  simp only [Py.bind_assoc', Py.pure_bind']
  refine Py.bind_congr_ok fun w _ => ?_
  cases hk : p.kind with
  | numeric mn mx =>
    cases w with
    | none => simp
    | _ =>
      simp only [Py.bind_assoc']
      have hb : ∀ w, below mn (.scalar w) = Param.below mn w := by intro w; cases mn <;> rfl
      have ha : ∀ w, above mx (.scalar w) = Param.above mx w := by intro w; cases mx <;> rfl
      rw [hb]
      refine Py.bind_congr_ok fun b _ => ?_
      split
      · simp only [Py.bind_assoc', Py.pure_bind', shown]
      · rw [ha]
        simp only [Py.bind_assoc']
        refine Py.bind_congr_ok fun b _ => ?_
        split <;> simp only [Py.bind_assoc', Py.pure_bind', shown]
  | categorical os =>
    simp only [isIn, Py.pure_bind', decide_eq_true_eq]
    split <;> simp only [Py.bind_assoc', Py.pure_bind', shown]

theorem checkVals_scalar (ps : List Param) (get : String → Val) :
    checkVals ps (fun k => .scalar (get k))
      = (do pure ((← Model.checkVals ps get).map fun kv => (kv.1, .scalar kv.2))) := by
  induction ps with
  | nil => simp [checkVals, Model.checkVals]
  | cons p ps ih =>
    simp only [checkVals, Model.checkVals, check_scalar, ih, Py.bind_assoc', Py.pure_bind',
      List.map_cons]

/-! ## What is rejected -/

theorem truth_many {l : List Bool} (h : 2 ≤ l.length) :
    truth l = Py.raise (.valueError "truth value of an array") := by
  match l, h with
  | _ :: _ :: _, _ => rfl

/-- the error of the check of a limited numeric parameter -/
def refusal : AVal → Option PyErr
  | .scalar _ => none
  | .array l => if 2 ≤ l.length then some (.valueError "truth value of an array") else none
  | .list _ => some .typeError

theorem check_limited {p : Param} {mn mx : Option ℚ} (hk : p.kind = .numeric mn mx)
    (hl : mn ≠ none ∨ mx ≠ none) {v : AVal} {e : PyErr} (he : refusal v = some e) :
    check p v = Py.raise e := by
  cases v with
  | scalar v => simp [refusal] at he
  | list l =>
    obtain rfl : PyErr.typeError = e := by simpa [refusal] using he
    cases mn with
    | some m => simp [check, baseCheck, hk, below, lt]
    | none =>
      cases mx with
      | some m => simp [check, baseCheck, hk, below, above, gt]
      | none => simp at hl
  | array l =>
    have h2 : 2 ≤ l.length := by
      by_contra h; simp [refusal, h] at he
    obtain rfl : PyErr.valueError "truth value of an array" = e := by simpa [refusal, h2] using he
    have ht : ∀ f : ℝ → Bool, truth (l.map f) = Py.raise (.valueError "truth value of an array") :=
      fun f => truth_many (by simpa using h2)
    cases mn with
    | some m => simp [check, baseCheck, hk, below, lt, ht]
    | none =>
      cases mx with
      | some m => simp [check, baseCheck, hk, below, above, gt, ht]
      | none => simp at hl

theorem check_unlimited {p : Param} (hk : p.kind = .numeric none none) {v : AVal}
    (h : ∀ w, v ≠ .scalar w) : check p v = pure v := by
  cases v with
  | scalar w => exact absurd rfl (h w)
  | array l => simp [check, baseCheck, hk, below, above]
  | list l => simp [check, baseCheck, hk, below, above]

theorem checkVals_error_of {ps : List Param} {get : String → AVal} {p : Param} (hp : p ∈ ps)
    {e : PyErr} (h : (check p (get p.name)).res = .error e) :
    ∃ e', (checkVals ps get).res = .error e' := by
  induction ps with
  | nil => simp at hp
  | cons q ps ih =>
    cases hq : (check q (get q.name)).res with
    | error e' => exact ⟨e', by simp only [checkVals]; exact Py.bind_res_error hq _⟩
    | ok w =>
      rcases List.mem_cons.1 hp with rfl | hp
      · rw [h] at hq; simp at hq
      · obtain ⟨e', he'⟩ := ih hp
        refine ⟨e', ?_⟩
        simp only [checkVals]
        rw [Py.bind_res_ok hq, Py.bind_res_error he']

/-- every other parameter passes: then the error is that of `p` -/
theorem checkVals_error_eq {ps : List Param} {get : String → AVal} {p : Param} (hp : p ∈ ps)
    {e : PyErr} (h : (check p (get p.name)).res = .error e)
    (ho : ∀ q ∈ ps, q ≠ p → ∃ w, (check q (get q.name)).res = .ok w) :
    (checkVals ps get).res = .error e := by
  induction ps with
  | nil => simp at hp
  | cons q ps ih =>
    by_cases hqp : q = p
    · subst hqp; simp only [checkVals]; exact Py.bind_res_error h _
    · obtain ⟨w, hw⟩ := ho q (by simp) hqp
      rcases List.mem_cons.1 hp with rfl | hp
      · exact absurd rfl hqp
      · simp only [checkVals]
        rw [Py.bind_res_ok hw]
        exact Py.bind_res_error (ih hp fun r hr => ho r (by simp [hr])) _

theorem checkVals_ok {ps : List Param} {get : String → AVal} {d : List (String × AVal)}
    (h : (checkVals ps get).res = .ok d) :
    List.Forall₂ (fun p kv => kv.1 = p.name ∧ (check p (get p.name)).res = .ok kv.2) ps d := by
  induction ps generalizing d with
  | nil => simp [checkVals] at h; subst h; exact .nil
  | cons p ps ih =>
    simp only [checkVals] at h
    obtain ⟨w, hw, h⟩ := Py.bind_ok_iff.1 h
    obtain ⟨d', hd, h⟩ := Py.bind_ok_iff.1 h
    simp at h; subst h
    exact .cons ⟨rfl, hw⟩ (ih hd)

end AVal
