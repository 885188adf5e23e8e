import Verif.Scenario

/-!
# Parameters (src/pygmm/model.py lines 370-523)
-/

/-- `NumericParameter` (lines 416-472) or `CategoricalParameter` (lines 475-523) -/
inductive Kind where
  | numeric (min max : Option ℚ)
  | categorical (options : List Lit)
deriving DecidableEq

/-- model.py lines 370-413 (`Parameter`) with the data of the subclass -/
structure Param where
  name : String
  required : Bool
  default : Lit
  kind : Kind
deriving DecidableEq

/-- `model.NumericParameter(name, required, min_, max_, default)` -/
def numP (name : String) (required : Bool) (min max : Option ℚ := none)
    (default : Lit := .none) : Param := ⟨name, required, default, .numeric min max⟩

/-- `model.CategoricalParameter(name, required, options, default)` -/
def catP (name : String) (required : Bool) (options : List String)
    (default : Lit := .none) : Param :=
  ⟨name, required, default, .categorical (options.map .str)⟩

/-- a categorical parameter with boolean options `[True, False]` -/
def boolP (name : String) (required : Bool) (default : Lit := .none) : Param :=
  ⟨name, required, default, .categorical [.bool true, .bool false]⟩

namespace Param

open Classical in
/-- model.py lines 391-398: `Parameter.check` -/
noncomputable def baseCheck (p : Param) (v : Val) : Py Val :=
  match v with
  | .none => if p.required then Py.raise (.valueError p.name) else pure p.default.toVal
  | v => pure v

/-- model.py lines 457-463: the test against `self.min`, skipped when there is none -/
noncomputable def below (min : Option ℚ) (v : Val) : Py Bool :=
  match min with
  | some m => v.lt m
  | none => pure false

/-- model.py lines 464-470: the test against `self.max` -/
noncomputable def above (max : Option ℚ) (v : Val) : Py Bool :=
  match max with
  | some m => v.gt m
  | none => pure false

open Classical in
/-- model.py lines 453-472: `NumericParameter.check`, and lines 507-523:
`CategoricalParameter.check` -/
noncomputable def check (p : Param) (v : Val) : Py Val := do
  let v ← p.baseCheck v
  match p.kind with
  | .numeric min max =>
    match v with
    | .none => pure .none
    | v => do
      if ← below min v then
        Py.warn (.belowLimit p.name v)
        pure v
      else if ← above max v then
        Py.warn (.aboveLimit p.name v)
        pure v
      else
        pure v
  | .categorical options =>
    if v.isIn options then pure v
    else do
      Py.warn (.notOption p.name v)
      Py.warn (.usingDefault p.name)
      pure p.default.toVal

end Param
