import Verif.Model

/-!
# A `Scenario` as a Python object

What the standard library does with a `Scenario` through Python's attribute protocol:
`getattr` with a default, `hasattr`, `copy.deepcopy`, `pickle`, `repr`, the operators of
`collections.UserDict`.  The source that matters is `Scenario.__getattr__`
(src/pygmm/model.py lines 127-129), which answers a missing attribute with the `KeyError` of
`self.data[item]`, and reads `self.data` through the same protocol.
-/

namespace ScenarioObj

/-- An instance of `Scenario`: the entries of its `__dict__`.  `data` is `none` while
`Scenario.__new__` has run and nothing has been stored yet, as during unpickling. -/
structure Obj where
  data : Option Dict
  attrs : Dict := []

/-- a scenario that went through a constructor -/
def ofScenario (s : Scenario) : Obj := ⟨some s.data, s.attrs⟩

/-- the result of an attribute access -/
inductive Attr where
  /-- the dictionary behind the name `data` -/
  | dict (d : Dict)
  | val (v : Val)
  /-- something found in the class or its bases -/
  | cls (name : String)

/-- Names found in the class: model.py lines 92-144, `collections.UserDict` and its abstract bases,
`object` (Python 3.11). -/
def classAttrs : List String :=
  ["KNOWN_KEYS", "copy_with", "_check_keys", "__init__", "__getattr__", "__repr__", "__module__",
   "__doc__", "__dict__", "__weakref__", "__annotations__",
   "__len__", "__getitem__", "__setitem__", "__delitem__", "__iter__", "__contains__", "get",
   "__or__", "__ror__", "__ior__", "__copy__", "copy", "fromkeys",
   "pop", "popitem", "clear", "update", "setdefault",
   "keys", "items", "values", "__eq__", "__reversed__", "__class_getitem__", "__abstractmethods__",
   "_abc_impl", "__subclasshook__", "__hash__", "__slots__", "_MutableMapping__marker",
   "__class__", "__delattr__", "__dir__", "__format__", "__ge__", "__getattribute__",
   "__getstate__", "__gt__", "__init_subclass__", "__le__", "__lt__", "__ne__", "__new__",
   "__reduce__", "__reduce_ex__", "__setattr__", "__sizeof__", "__str__"]

/-- what `object.__getattribute__` finds.  Simplified: the instance dictionary is consulted before
the class also for the data descriptors `__class__`, `__dict__`, `__weakref__`. -/
def Obj.slot (o : Obj) (k : String) : Option Attr :=
  if k = "data" then o.data.map .dict
  else match o.attrs.get? k with
    | some v => some (.val v)
    | none => if k ∈ classAttrs then some (.cls k) else none

/-- `o.k` with room for `n` more Python frames: the instance, the class, then
`__getattr__` (model.py lines 127-129), which evaluates `self.data` in one more frame and indexes
the result. -/
def Obj.lookup : ℕ → Obj → String → Py Attr
  | n, o, k =>
    match o.slot k with
    | some a => pure a
    | none =>
      match n with
      | 0 => Py.raise .recursionError
      | n + 1 => do
        match ← lookup n o "data" with
        | .dict d =>
          match d.get? k with
          | some v => pure (.val v)
          | none => Py.raise (.keyError k)
        | _ => Py.raise .typeError

/-- `getattr(o, k, default)`: only `AttributeError` is turned into the default -/
def Obj.getattrD (n : ℕ) (o : Obj) (k : String) (default : Attr) : Py Attr :=
  match (o.lookup n k).res with
  | .error .attributeError => pure default
  | _ => o.lookup n k

/-- `hasattr(o, k)`: only `AttributeError` means no -/
def Obj.hasattr (n : ℕ) (o : Obj) (k : String) : Py Bool :=
  match (o.lookup n k).res with
  | .error .attributeError => pure false
  | .error e => Py.raise e
  | .ok _ => pure true

/-- `copy.deepcopy(o)` of the standard library: it first asks the instance for `__deepcopy__`
(`getattr(x, "__deepcopy__", None)`).  Simplified: a hook that is found is taken to be called with
success, and without one the generic copy is taken to succeed; neither happens for a scenario. -/
def Obj.deepcopy (n : ℕ) (o : Obj) : Py Obj := do
  let _ ← o.getattrD n "__deepcopy__" (.val .none)
  pure o

/-- `pickle.loads(pickle.dumps(o))`: the object is made by `__new__`, without `__init__`, and asked
for `__setstate__` (`getattr(inst, "__setstate__", None)`) before its `__dict__` is restored. -/
def Obj.unpickle (n : ℕ) (o : Obj) : Py Obj := do
  let inst : Obj := ⟨none, []⟩
  let _ ← inst.getattrD n "__setstate__" (.val .none)
  pure o

/-- `copy.deepcopy(model)`: a model has no hook of its own (`Model` defines no `__getattr__`), so its
`__dict__` is copied entry by entry, `_scenario` (model.py line 168) first. -/
def deepcopyModel {Out : Type} (n : ℕ) (i : Instance Out) : Py (Instance Out) := do
  let _ ← (ofScenario i.scenario).deepcopy n
  pure i

/-- `pickle.loads(pickle.dumps(model))`: restores the `_scenario` in the state of the model -/
def unpickleModel {Out : Type} (n : ℕ) (i : Instance Out) : Py (Instance Out) := do
  let _ ← (ofScenario i.scenario).unpickle n
  pure i

/-- model.py lines 131-133: `repr(s)`, i.e. `str.format` with the data as keyword arguments, which
looks up the fields from left to right.  `fmt` is how Python prints a value. -/
def repr (fmt : Val → String) (s : Scenario) : Py String := do
  let m ← s.getItem "mag"
  let d ← s.getItem "dist_jb"
  pure ("<Scenario(mag=" ++ fmt m ++ ", dist_jb=" ++ fmt d ++ ")>")

/-- calling the class (model.py line 122, `def __init__(self, **kwds)`): positional arguments are a
`TypeError` before anything else happens -/
def call (args : List Dict) (kwds : Dict) : Py Scenario :=
  if args = [] then Scenario.init kwds else Py.raise .typeError

/-- `s | other`, `UserDict.__or__`: `self.__class__(self.data | other)`, for a dict or another
`UserDict` -/
def or (s : Scenario) (other : Dict) : Py Scenario :=
  call [s.data.update other] []

/-- `other | s`, `UserDict.__ror__` -/
def ror (s : Scenario) (other : Dict) : Py Scenario :=
  call [other.update s.data] []

/-- `s |= other`, `UserDict.__ior__`: `self.data |= other` -/
def ior (s : Scenario) (other : Dict) : Scenario := { s with data := s.data.update other }

/-- `s.update(other)`, `MutableMapping.update`: one `__setitem__` per item -/
def update (s : Scenario) : Dict → Scenario
  | [] => s
  | kv :: other => update (s.setItem kv.1 kv.2) other

/-- `s.setdefault(k, v)`, `MutableMapping.setdefault` -/
def setdefault (s : Scenario) (k : String) (v : Val) : Scenario :=
  match s.data.get? k with
  | some _ => s
  | none => s.setItem k v

/-- `Scenario.fromkeys(ks, v)`, `UserDict.fromkeys`: `d = cls()`, then `d[k] = v` for each -/
def fromkeys (ks : List String) (v : Val) : Py Scenario := do
  let d ← call [] []
  pure (ks.foldl (fun s k => s.setItem k v) d)

end ScenarioObj
