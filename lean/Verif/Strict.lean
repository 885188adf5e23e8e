import Verif.Py

/-!
# Warnings turned into errors

`warnings.simplefilter("error")` (or `python -W error`): `warnings.warn` raises its warning.
No code of `/repo/src/pygmm` that runs after import catches it (the only `except` besides those around imports is for
`URLError`, hermkes_kuehn_riggelsen_2014.py line 29).
-/

/-- what a call does under that filter: returns, raises one of its own exceptions, or raises a warning -/
inductive Outcome (α : Type) where
  | value (a : α)
  | raised (e : PyErr)
  | warned (e : Event)

/-- the reports made through `warnings.warn` (model.py lines 458, 465, 511, 518).  The notices of the classes go through
`logging`, which no filter touches, except that of `duration_for_energy` (pinilla_ramos_et_al_2024.py line 749). -/
def Event.isWarning : Event → Bool
  | .notice t => decide (t = "closest energy threshold")
  | _ => true

/-- the call under the filter: the first warning ends it -/
def Py.strict {α : Type} (x : Py α) : Outcome α :=
  match x.log.find? Event.isWarning with
  | some e => .warned e
  | none => match x.res with
    | .ok a => .value a
    | .error e => .raised e
