import Verif.Model

/-!
# Constructing models while other threads edit the scenario

model.py lines 161-171: the constructor reads the caller's mapping once per declared parameter, one after the
other, in a dict comprehension; then it works on its own `Scenario` only.  Threads can be switched between
any two reads, and other threads can change the caller's scenario meanwhile.
-/

/-- lines 168-171 and the subclass, after the dict comprehension: works on objects of its own, so it is one step -/
noncomputable def ModelClass.rest {Out : Type} (C : ModelClass Out) (kwds : Dict) : Py (Instance Out) := do
  let s ← Scenario.init kwds
  let s ← Model.checkInputs C.params s
  let s ← C.fill s
  let out ← C.compute s
  pure ⟨s, out⟩

namespace Building

/-- a thread in the constructor of class `cls`, called with the scenario object number `src`: what the
dict comprehension has read, the parameters still to be read, and the outcome -/
structure Builder (Out : Type) where
  cls : ModelClass Out
  src : ℕ
  got : Dict
  todo : List Param
  result : Option (Py (Instance Out))

variable {Out : Type}

/-- lines 168-170: one read of the shared scenario, or, when all parameters are read, the rest -/
noncomputable def Builder.step (b : Builder Out) (scenarios : List Scenario) : Builder Out :=
  match b.result with
  | some _ => b
  | none =>
    match b.todo with
    | [] => { b with result := some (b.cls.rest b.got) }
    | p :: ps =>
      match scenarios[b.src]? with
      | none => b
      | some s => { b with got := b.got ++ [(p.name, s.get p.name)], todo := ps }

/-- what can happen next: a step of thread `k`, or some other thread gives scenario object `r` new
contents (item assignment, `update`, deletion, ...) -/
inductive Act
  | run (k : ℕ)
  | edit (r : ℕ) (s : Scenario)

/-- the callers' scenario objects and the constructors under way -/
structure State (Out : Type) where
  scenarios : List Scenario
  builders : List (Builder Out)

/-- one event -/
noncomputable def State.act (w : State Out) : Act → State Out
  | .run k =>
    match w.builders[k]? with
    | none => w
    | some b => { w with builders := w.builders.set k (b.step w.scenarios) }
  | .edit r s => { w with scenarios := w.scenarios.set r s }

/-- a history; `jobs` are the calls: class and scenario object.  A thread that is killed is not chosen any
more, a call that begins later is chosen later. -/
noncomputable def history (ss : List Scenario) (jobs : List (ModelClass Out × ℕ)) (sched : List Act) : State Out :=
  sched.foldl State.act ⟨ss, jobs.map fun j => ⟨j.1, j.2, [], j.1.params, none⟩⟩

/-- the scenario object `r` after the edits of a history -/
def edited (r : ℕ) (s : Scenario) (sched : List Act) : Scenario :=
  sched.foldl (fun s a =>
    match a with
    | .edit r' s' => if r' = r then s' else s
    | .run _ => s) s

end Building
