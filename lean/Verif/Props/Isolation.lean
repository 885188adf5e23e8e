import Verif.Heap
import Verif.Props.Framework

/-!
# Properties of client programs: C02 (second half) and C08

A client program is any list of `Op`s: building scenarios, `copy_with`, item and
attribute assignment through any reference (also the one obtained from
`m.scenario`), constructing models of any classes from any of them.
-/

variable {Out ι : Type}

/-- Specification: what a statement does *directly* to the scenario behind `r`.
Only assignments through that very reference appear here. -/
def Spec.direct (r : Ref) (s : Scenario) : Op ι → Scenario
  | .setItem r' k v => if r' = r then s.setItem k v else s
  | .setAttr r' k v => if r' = r then s.setAttr k v else s
  | _ => s

theorem Spec.construct_keeps (C : ModelClass Out) (src : String → Val) (h : Heap) {r : Ref}
    {s : Scenario} (hr : h[r]? = some s) : (Heap.construct C src h).1[r]? = some s := by
  obtain ⟨⟨new, hnew, -⟩, -⟩ := Heap.construct_spec C src h
  rw [hnew]
  have : r < h.length := by
    rw [List.getElem?_eq_some_iff] at hr; exact hr.1
  rw [List.getElem?_append_left this, hr]

theorem Spec.append_keeps {h : Heap} {r : Ref} {s t : Scenario} (hr : h[r]? = some s) :
    (h ++ [t])[r]? = some s := by
  have : r < h.length := by
    rw [List.getElem?_eq_some_iff] at hr; exact hr.1
  rw [List.getElem?_append_left this, hr]

theorem Spec.step_object (cls : ι → ModelClass Out) (w : World Out) (op : Op ι) {r : Ref}
    {s : Scenario} (hr : w.heap[r]? = some s) :
    (w.step cls op).heap[r]? = some (Spec.direct r s op) := by
  have hlt : r < w.heap.length := by
    rw [List.getElem?_eq_some_iff] at hr; exact hr.1
  cases op with
  | newScenario kwds =>
    simp only [World.step, Spec.direct]
    cases (Scenario.init kwds).res with
    | ok t => exact Spec.append_keeps hr
    | error e => exact hr
  | copyWith r' kwds =>
    simp only [World.step, Spec.direct]
    cases w.heap[r']? with
    | none => exact hr
    | some s' =>
      simp only
      cases (s'.copyWith kwds).res with
      | ok t => exact Spec.append_keeps hr
      | error e => exact hr
  | setItem r' k v =>
    simp only [World.step, Spec.direct]
    by_cases he : r' = r
    · subst he; rw [hr]; simp [Heap.write, hlt]
    · cases w.heap[r']? with
      | none => simp [he, hr]
      | some s' => simp [he, Heap.write, hr]
  | setAttr r' k v =>
    simp only [World.step, Spec.direct]
    by_cases he : r' = r
    · subst he; rw [hr]; simp [Heap.write, hlt]
    · cases w.heap[r']? with
      | none => simp [he, hr]
      | some s' => simp [he, Heap.write, hr]
  | construct i r' =>
    simp only [World.step, Spec.direct]
    cases w.heap[r']? with
    | none => exact hr
    | some s' =>
      have := Spec.construct_keeps (cls i) s'.get w.heap hr
      simp only
      cases (Heap.construct (cls i) s'.get w.heap).2.res with
      | ok x => exact this
      | error e => exact this
  | constructKw i kwds =>
    simp only [World.step, Spec.direct]
    cases (Scenario.init kwds).res with
    | error e => exact hr
    | ok s' =>
      have := Spec.construct_keeps (cls i) s'.get (w.heap ++ [s']) (Spec.append_keeps hr)
      simp only
      cases (Heap.construct (cls i) s'.get (w.heap ++ [s'])).2.res with
      | ok x => exact this
      | error e => exact this

/-- In every program, the scenario behind a reference is changed by the assignments
made through that reference and by nothing else: no construction, no copy, no
assignment to another scenario, whether they succeed or raise. -/
theorem C08_scenarios_change_only_by_direct_assignment (cls : ι → ModelClass Out)
    (ops : List (Op ι)) (w : World Out) (r : Ref) (s : Scenario) (hr : w.heap[r]? = some s) :
    (w.run cls ops).heap[r]? = some (ops.foldl (Spec.direct r) s) := by
  induction ops generalizing w s with
  | nil => exact hr
  | cons op ops ih => exact ih _ _ (Spec.step_object cls w op hr)

theorem Spec.step_models (cls : ι → ModelClass Out) (w : World Out) (op : Op ι) :
    ∃ new, (w.step cls op).models = w.models ++ new := by
  have key : ∀ (C : ModelClass Out) src (h : Heap),
      ∃ new, (match (Heap.construct C src h).2.res with
        | .ok (r', out) => World.mk (Heap.construct C src h).1
            (w.models ++ [ModelObj.mk r' out])
        | .error _ => { w with heap := (Heap.construct C src h).1 }).models = w.models ++ new := by
    intro C src h
    cases (Heap.construct C src h).2.res with
    | ok x => exact ⟨_, rfl⟩
    | error e => exact ⟨[], by simp⟩
  cases op with
  | newScenario kwds =>
    simp only [World.step]
    cases (Scenario.init kwds).res <;> exact ⟨[], by simp⟩
  | copyWith r' kwds =>
    simp only [World.step]
    cases w.heap[r']? with
    | none => exact ⟨[], by simp⟩
    | some s' => simp only; cases (s'.copyWith kwds).res <;> exact ⟨[], by simp⟩
  | setItem r' k v => simp only [World.step]; cases w.heap[r']? <;> exact ⟨[], by simp⟩
  | setAttr r' k v => simp only [World.step]; cases w.heap[r']? <;> exact ⟨[], by simp⟩
  | construct i r' =>
    simp only [World.step]
    cases w.heap[r']? with
    | none => exact ⟨[], by simp⟩
    | some s' => exact key (cls i) s'.get w.heap
  | constructKw i kwds =>
    simp only [World.step]
    cases (Scenario.init kwds).res with
    | error e => exact ⟨[], by simp⟩
    | ok s' => exact key (cls i) s'.get (w.heap ++ [s'])

/-- Predictions, once computed, never change, whatever the program does afterwards
(including editing `m.scenario`). -/
theorem C08_predictions_never_change (cls : ι → ModelClass Out) (ops : List (Op ι))
    (w : World Out) (j : Nat) (m : ModelObj Out) (hm : w.models[j]? = some m) :
    (w.run cls ops).models[j]? = some m := by
  induction ops generalizing w with
  | nil => exact hm
  | cons op ops ih =>
    apply ih
    obtain ⟨new, hnew⟩ := Spec.step_models cls w op
    rw [hnew]
    have : j < w.models.length := by
      rw [List.getElem?_eq_some_iff] at hm; exact hm.1
    rw [List.getElem?_append_left this, hm]

/-- A successful construction yields a model with a scenario object of its own: its
reference is new, so no reference the program held refers to it; the object holds
the checked values and the predictions are those computed from them. -/
theorem C08_model_owns_its_scenario (cls : ι → ModelClass Out) (w : World Out) (i : ι) (r : Ref)
    (s : Scenario) (hr : w.heap[r]? = some s) (inst : Instance Out)
    (hnew : ((cls i).new s).res = .ok inst) :
    (w.step cls (.construct i r)).models = w.models ++ [⟨w.heap.length, inst.out⟩] ∧
    (w.step cls (.construct i r)).heap[w.heap.length]? = some inst.scenario ∧
    (∀ r' s', w.heap[r']? = some s' → r' ≠ w.heap.length) := by
  obtain ⟨-, -, -, h4, h5⟩ := Heap.construct_spec (cls i) s.get w.heap
  have h6 := h5 inst hnew
  have h7 := (h4 w.heap.length inst.out).2 ⟨rfl, inst.scenario, hnew⟩
  simp only [World.step, hr, h7]
  refine ⟨trivial, ?_, ?_⟩
  · rw [h6]; simp
  · intro r' s' h' he
    rw [List.getElem?_eq_some_iff] at h'
    exact absurd h'.1 (by omega)

/-- A failing construction adds no model. -/
theorem C08_failed_construction_adds_no_model (cls : ι → ModelClass Out) (w : World Out) (i : ι)
    (r : Ref) (s : Scenario) (hr : w.heap[r]? = some s) (e : PyErr)
    (herr : ((cls i).new s).res = .error e) :
    (w.step cls (.construct i r)).models = w.models := by
  obtain ⟨-, -, h3, -, -⟩ := Heap.construct_spec (cls i) s.get w.heap
  have h7 := (h3 e).2 herr
  simp only [World.step, hr, h7]

/-- Put together: construct a model from a scenario, then run any program that never
assigns through `m.scenario`; the model's scenario is still the checked one and the
caller's scenario has only the edits the caller made. -/
theorem C08_model_isolated_from_later_edits (cls : ι → ModelClass Out) (w : World Out) (i : ι)
    (r : Ref) (s : Scenario) (hr : w.heap[r]? = some s) (inst : Instance Out)
    (hnew : ((cls i).new s).res = .ok inst) (ops : List (Op ι))
    (hops : ∀ op ∈ ops, ∀ k v, op ≠ .setItem w.heap.length k v ∧ op ≠ .setAttr w.heap.length k v) :
    ((w.step cls (.construct i r)).run cls ops).heap[w.heap.length]? = some inst.scenario ∧
    ((w.step cls (.construct i r)).run cls ops).heap[r]? = some (ops.foldl (Spec.direct r) s) := by
  obtain ⟨-, h2, -⟩ := C08_model_owns_its_scenario cls w i r s hr inst hnew
  constructor
  · rw [C08_scenarios_change_only_by_direct_assignment cls ops _ _ _ h2]
    congr 1
    clear h2
    induction ops with
    | nil => rfl
    | cons op ops ih =>
      simp only [List.foldl_cons]
      have hd : Spec.direct w.heap.length inst.scenario op = inst.scenario := by
        have h0 := hops op (by simp)
        cases op with
        | setItem r' k v =>
          have : r' ≠ w.heap.length := fun e => (h0 k v).1 (by rw [e])
          simp [Spec.direct, this]
        | setAttr r' k v =>
          have : r' ≠ w.heap.length := fun e => (h0 k v).2 (by rw [e])
          simp [Spec.direct, this]
        | _ => rfl
      rw [hd]
      exact ih (fun o ho => hops o (by simp [ho]))
  · exact C08_scenarios_change_only_by_direct_assignment cls ops _ _ _
      (Spec.step_object cls w (.construct i r) hr)

/-- `copy_with` makes a new object: the original keeps its contents, and afterwards
edits of the copy are not visible in the original nor the other way round. -/
theorem C02_copy_is_independent (cls : ι → ModelClass Out) (w : World Out) (r : Ref)
    (s t : Scenario) (hr : w.heap[r]? = some s) (kwds : Dict)
    (hc : (s.copyWith kwds).res = .ok t) (ops : List (Op ι)) :
    let w' := (w.step cls (.copyWith r kwds)).run cls ops
    w'.heap[r]? = some (ops.foldl (Spec.direct r) s) ∧
    w'.heap[w.heap.length]? = some (ops.foldl (Spec.direct w.heap.length) t) ∧
    r ≠ w.heap.length := by
  have hlt : r < w.heap.length := by
    rw [List.getElem?_eq_some_iff] at hr; exact hr.1
  refine ⟨?_, ?_, Nat.ne_of_lt hlt⟩
  · exact C08_scenarios_change_only_by_direct_assignment cls ops _ _ _
      (Spec.step_object cls w (.copyWith r kwds) hr)
  · apply C08_scenarios_change_only_by_direct_assignment
    simp [World.step, hr, hc]

/-- Concrete program: a scenario, a model, an edit of the caller's scenario. -/
example : ∃ (C : ModelClass Val) (w : World Val),
    w = World.run (fun _ : Unit => C) ⟨[], []⟩
      [.newScenario [("mag", .num 6)], .construct () 0, .setItem 0 "mag" (.num 7)] ∧
    w.heap.map Scenario.data = [[("mag", .num 7)], [("mag", .num 6)]] ∧
    w.models.map ModelObj.out = [.num 6] := by
  let C : ModelClass Val :=
    ⟨[numP "mag" true], fun s => pure s, fun s => s.getItem "mag"⟩
  have hC : ParamsOk C.params := by decide
  have h0 : (Scenario.init [("mag", .num 6)]).res = .ok ⟨[("mag", .num 6)], []⟩ := by
    rw [C01_recognised_keys_accepted _ (by simp [Dict.WF, Dict.keys])]
    intro k hk
    simp [Dict.keys] at hk; subst hk; left; decide
  have h1 : (C.new ⟨[("mag", .num 6)], []⟩).res = .ok ⟨⟨[("mag", .num 6)], []⟩, .num 6⟩ := by
    rw [ModelClass.new, ModelClass.newFrom_eq C hC]
    have hg : (⟨[("mag", .num 6)], []⟩ : Scenario).get (numP "mag" true).name = .num 6 := by
      simp [numP, Scenario.get, Dict.get?]
    simp only [C, Model.checkVals, hg]
    rw [C06_number_kept _ none none rfl]
    simp [Spec.Below, Spec.Above, Py.bind_eq, Py.bind, Scenario.getItem, Dict.get?, numP,
      Pure.pure, Py.pure]
  refine ⟨C, _, rfl, ?_⟩
  obtain ⟨-, -, -, h4, h5⟩ := Heap.construct_spec C
    (⟨[("mag", .num 6)], []⟩ : Scenario).get [⟨[("mag", .num 6)], []⟩]
  have h6 := h5 _ h1
  have h7 := (h4 1 (.num 6)).2 ⟨rfl, _, h1⟩
  simp only [World.run, List.foldl_cons, List.foldl_nil, World.step, h0, List.nil_append,
    List.getElem?_cons_zero, h7, h6]
  simp [Heap.write, Scenario.setItem, Dict.set]
