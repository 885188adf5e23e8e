import Verif.Num

/-!
# Python values, exceptions and warnings

The part of Python that `pygmm/model.py` relies on: the scalars a scenario can
hold, `==` / `<` / `in` on them, exceptions as values, and the warnings emitted
on the way.
-/

/-- A scalar that a scenario can hold.  Values that are arrays are in ArrayScenario.lean. -/
inductive Val where
  | none
  | num (x : ℝ)
  | nan
  | bool (b : Bool)
  | str (s : String)

/-- A literal that appears in the source of a parameter declaration
(`PARAMS` of the model classes). -/
inductive Lit where
  | none
  | num (q : ℚ)
  | bool (b : Bool)
  | str (s : String)
deriving DecidableEq

/-- the value of a literal -/
def Lit.toVal : Lit → Val
  | .none => .none
  | .num q => .num q
  | .bool b => .bool b
  | .str s => .str s

/-- The exceptions raised by the modelled code.  `ValueError` carries its first
argument, `Warning` (raised, not warned: model.py line 144) the offending key. -/
inductive PyErr where
  | valueError (arg : String)
  | warning (key : String)
  | keyError (key : String)
  | typeError
  | attributeError
  | notImplemented
  | indexError
  | unboundLocal
  | ioError
  | linAlgError
  | recursionError
deriving DecidableEq

/-- What the code reports besides its result. -/
inductive Event where
  /-- `warnings.warn` of model.py lines 458-463 -/
  | belowLimit (name : String) (v : Val)
  /-- `warnings.warn` of model.py lines 465-470 -/
  | aboveLimit (name : String) (v : Val)
  /-- `warnings.warn` of model.py lines 511-517 -/
  | notOption (name : String) (v : Val)
  /-- `warnings.warn` of model.py lines 518-520 -/
  | usingDefault (name : String)
  /-- a `logging.warning` or other notice of a model class -/
  | notice (tag : String)

/-- A computation: the events reported so far and the result or exception. -/
structure Py (α : Type) where
  log : List Event
  res : Except PyErr α

namespace Py

def pure {α} (a : α) : Py α := ⟨[], .ok a⟩
def raise {α} (e : PyErr) : Py α := ⟨[], .error e⟩
def warn (e : Event) : Py Unit := ⟨[e], .ok ()⟩
def bind {α β} (x : Py α) (f : α → Py β) : Py β :=
  match x.res with
  | .error e => ⟨x.log, .error e⟩
  | .ok a => ⟨x.log ++ (f a).log, (f a).res⟩

instance : Monad Py where
  pure := Py.pure
  bind := Py.bind

variable {α β γ : Type}

@[simp] theorem pure_res (a : α) : (Pure.pure a : Py α).res = .ok a := rfl
@[simp] theorem pure_log (a : α) : (Pure.pure a : Py α).log = [] := rfl
@[simp] theorem raise_res (e : PyErr) : (raise e : Py α).res = .error e := rfl
@[simp] theorem raise_log (e : PyErr) : (raise e : Py α).log = [] := rfl
@[simp] theorem warn_res (e : Event) : (warn e).res = .ok () := rfl
@[simp] theorem warn_log (e : Event) : (warn e).log = [e] := rfl

theorem bind_eq (x : Py α) (f : α → Py β) : (x >>= f) = Py.bind x f := rfl

theorem bind_res_ok {x : Py α} {a : α} (h : x.res = .ok a) (f : α → Py β) :
    (x >>= f).res = (f a).res := by
  simp only [bind_eq, bind, h]

theorem bind_log_ok {x : Py α} {a : α} (h : x.res = .ok a) (f : α → Py β) :
    (x >>= f).log = x.log ++ (f a).log := by
  simp only [bind_eq, bind, h]

theorem bind_res_error {x : Py α} {e : PyErr} (h : x.res = .error e) (f : α → Py β) :
    (x >>= f).res = .error e := by
  simp only [bind_eq, bind, h]

@[simp] theorem pure_bind' (a : α) (f : α → Py β) : ((Pure.pure a : Py α) >>= f) = f a := by
  show Py.bind (Py.pure a) f = f a
  simp [bind, pure]

@[simp] theorem raise_bind (e : PyErr) (f : α → Py β) : ((raise e : Py α) >>= f) = raise e := rfl

/-- A successful sequence has a successful first part and continuation. -/
theorem bind_ok_iff {x : Py α} {f : α → Py β} {b : β} :
    (x >>= f).res = .ok b ↔ ∃ a, x.res = .ok a ∧ (f a).res = .ok b := by
  cases h : x.res with
  | error e => simp [bind_res_error h]
  | ok a => simp [bind_res_ok h]

/-- A failing sequence fails in its first part or in its continuation. -/
theorem bind_error_iff {x : Py α} {f : α → Py β} {e : PyErr} :
    (x >>= f).res = .error e ↔
      x.res = .error e ∨ ∃ a, x.res = .ok a ∧ (f a).res = .error e := by
  cases h : x.res with
  | error e' => simp [bind_res_error h]
  | ok a => simp [bind_res_ok h]

/-- two continuations that agree on the value (if any) give the same outcome -/
theorem bind_congr_ok {x : Py α} {f g : α → Py β} (h : ∀ a, x.res = .ok a → f a = g a) :
    (x >>= f) = (x >>= g) := by
  simp only [bind_eq, bind]
  cases hx : x.res with
  | error e => rfl
  | ok a => simp only [h a hx]

theorem ext {x y : Py α} (hl : x.log = y.log) (hr : x.res = y.res) : x = y := by
  cases x; cases y; simp_all

end Py

namespace Val

/-- the number a Python bool compares as -/
def boolNum (b : Bool) : ℝ := if b then 1 else 0

/-- Python `==` on scenario values (`True == 1`, `nan` equals nothing). -/
def pyEq : Val → Val → Prop
  | .none, .none => True
  | .num x, .num y => x = y
  | .num x, .bool b => x = boolNum b
  | .bool b, .num x => boolNum b = x
  | .bool a, .bool b => a = b
  | .str s, .str t => s = t
  | _, _ => False

/-- Python `v in [..]` with a list of literals -/
def isIn (v : Val) (l : List Lit) : Prop := ∃ o ∈ l, v.pyEq o.toVal

/-- Python `v < m` for a number `m`; ordering a string or `None` raises
`TypeError`; every comparison with `nan` is false. -/
noncomputable def lt (v : Val) (m : ℝ) : Py Bool := by
  classical exact
  match v with
  | .num x => pure (decide (x < m))
  | .bool b => pure (decide (boolNum b < m))
  | .nan => pure false
  | _ => Py.raise .typeError

/-- Python `m < v` -/
noncomputable def gt (v : Val) (m : ℝ) : Py Bool := by
  classical exact
  match v with
  | .num x => pure (decide (m < x))
  | .bool b => pure (decide (m < boolNum b))
  | .nan => pure false
  | _ => Py.raise .typeError

end Val
