import Verif.Param

/-!
# `Model` (src/pygmm/model.py lines 147-179)
-/

/-- A model class: its `PARAMS`, what its `_check_inputs` override does after
`super()._check_inputs()`, and what its `__init__` computes from the checked
scenario. -/
structure ModelClass (Out : Type) where
  params : List Param
  fill : Scenario → Py Scenario := fun s => pure s
  compute : Scenario → Py Out

/-- A constructed model: its own scenario object and what `__init__` computed. -/
structure Instance (Out : Type) where
  scenario : Scenario
  out : Out

namespace Model

/-- model.py lines 173-175: `_check_inputs` -/
noncomputable def checkInputs : List Param → Scenario → Py Scenario
  | [], s => pure s
  | p :: ps, s => do
    let v ← s.getItem p.name
    let v' ← p.check v
    checkInputs ps (s.setItem p.name v')

/-- model.py lines 168-170: the keyword dictionary built from the caller's
mapping through `scenario.get(p.name, None)`.  (A dict comprehension; the names of
every shipped class are distinct, see C14.) -/
def select (params : List Param) (get : String → Val) : Dict :=
  params.map fun p => (p.name, get p.name)

end Model

namespace ModelClass
variable {Out : Type}

/-- model.py lines 166-171 followed by the subclass: construction from any mapping,
given by its `get(name, None)`. -/
noncomputable def newFrom (C : ModelClass Out) (get : String → Val) : Py (Instance Out) := do
  let s ← Scenario.init (Model.select C.params get)
  let s ← Model.checkInputs C.params s
  let s ← C.fill s
  let out ← C.compute s
  pure ⟨s, out⟩

/-- `C(scenario)` (lines 161-162) -/
noncomputable def new (C : ModelClass Out) (scenario : Scenario) : Py (Instance Out) :=
  C.newFrom scenario.get

/-- `C(**kwargs)` (lines 163-164); available for subclasses of `Model` that keep
its signature -/
noncomputable def newKw (C : ModelClass Out) (kwargs : Dict) : Py (Instance Out) := do
  let scenario ← Scenario.init kwargs
  C.new scenario

end ModelClass
