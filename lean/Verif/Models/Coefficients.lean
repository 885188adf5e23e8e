import Verif.Model

/-!
# `model.Coefficients`: src/pygmm/model.py lines 541-557

A mapping behind `collections.abc.Mapping` with `__getattr__` forwarding to `__getitem__`.
Coefficients are numbers (`Val`).
-/

namespace Coefficients

/-- An instance: the dictionary under the name `_data` (line 545) and the other entries of its
`__dict__`, which only attribute assignment from outside can create. -/
structure Obj where
  data : Dict
  attrs : Dict := []

/-- Names found in the class: model.py lines 541-557, `collections.abc.Mapping` and its bases,
`object` (Python 3.11). -/
def classAttrs : List String :=
  ["__init__", "__getitem__", "__getattr__", "__len__", "__iter__", "__module__", "__doc__",
   "__dict__", "__weakref__", "get", "keys", "items", "values", "__contains__", "__eq__",
   "__reversed__", "__class_getitem__", "__abstractmethods__", "_abc_impl", "__subclasshook__",
   "__hash__", "__slots__", "__abc_tpflags__", "__class__", "__delattr__", "__dir__", "__format__",
   "__ge__", "__getattribute__", "__getstate__", "__gt__", "__init_subclass__", "__le__", "__lt__",
   "__ne__", "__new__", "__reduce__", "__reduce_ex__", "__repr__", "__setattr__", "__sizeof__",
   "__str__"]

/-- the result of an attribute access -/
inductive Attr where
  | dict (d : Dict)
  | val (v : Val)
  | cls (name : String)

/-- lines 544-545: `Coefficients(**kwds)` -/
def init (kwds : Dict) : Obj := ⟨kwds, []⟩

/-- lines 547-548: `c[key]` -/
def Obj.getItem (c : Obj) (key : String) : Py Val :=
  match c.data.get? key with
  | some v => pure v
  | none => Py.raise (.keyError key)

/-- `c.key`: the instance, the class, then `__getattr__` (lines 550-551).  Simplified as in
`ScenarioObj.Obj.slot`: the instance dictionary comes before the class also for data descriptors. -/
def Obj.getAttr (c : Obj) (key : String) : Py Attr :=
  if key = "_data" then pure (.dict c.data)
  else match c.attrs.get? key with
    | some v => pure (.val v)
    | none =>
      if key ∈ classAttrs then pure (.cls key)
      else do
        let v ← c.getItem key
        pure (.val v)

/-- `hasattr(c, key)`: only `AttributeError` means no -/
def Obj.hasattr (c : Obj) (key : String) : Py Bool :=
  match (c.getAttr key).res with
  | .ok _ => pure true
  | .error .attributeError => pure false
  | .error e => Py.raise e

/-- lines 553-554: `len(c)` -/
def Obj.len (c : Obj) : ℕ := c.data.length

/-- lines 556-557: `list(c)` -/
def Obj.iter (c : Obj) : List String := c.data.keys

/-- `key in c` (`collections.abc.Mapping.__contains__`): `self[key]` with `KeyError` caught -/
def Obj.contains (c : Obj) (key : String) : Bool :=
  match (c.getItem key).res with
  | .ok _ => true
  | .error _ => false

/-- `c.get(key, default)` (`collections.abc.Mapping.get`) -/
def Obj.get (c : Obj) (key : String) (default : Val) : Val :=
  match (c.getItem key).res with
  | .ok v => v
  | .error _ => default

/-- what a program can try to do to a container -/
inductive Op where
  /-- `c[key] = v` -/
  | setItem (key : String) (v : Val)
  /-- `del c[key]` -/
  | delItem (key : String)
  /-- `c.key = v` -/
  | setAttr (key : String) (v : Val)

/-- One operation.  The class has neither `__setitem__` nor `__delitem__`, so both raise
`TypeError`; assignment to an attribute is `object.__setattr__`.  (Assignment to `_data` itself is
not modelled.) -/
def Obj.run (c : Obj) : Op → Py Obj
  | .setItem _ _ => Py.raise .typeError
  | .delItem _ => Py.raise .typeError
  | .setAttr key v => pure { c with attrs := c.attrs.set key v }

/-- a history of operations, each exception caught -/
def Obj.after (c : Obj) : List Op → Obj
  | [] => c
  | op :: h => match (c.run op).res with
    | .ok c' => c'.after h
    | .error _ => c.after h

end Coefficients
