import Verif.Py

/-!
# `GroundMotionModel` (src/pygmm/model.py lines 182-367)

The class attributes (`PERIODS`, `INDICES_PSA`, `INDEX_PGA`, ...), the arrays
`_ln_resp` and `_ln_std` a constructor leaves behind, the accessors, and linear
interpolation as `scipy.interpolate.interp1d(kind="linear", bounds_error=False,
fill_value=nan)` performs it (for float arrays it delegates to `np.interp` and then
overwrites everything outside the node range by `fill_value`).
-/

/-- model.py lines 185-200: the class attributes; `np.arange(a, b)` is written out as
the list of indices -/
structure GmmClass where
  periods : List ℚ
  indicesPsa : List ℕ
  indexPga : Option ℤ := none
  indexPgv : Option ℤ := none
  indexPgd : Option ℤ := none
  pgvScale : ℚ := 1
  pgdScale : ℚ := 1

/-- what a constructor stores in `_ln_resp` and `_ln_std` -/
structure GmmOut where
  lnResp : List F
  lnStd : Option (List F)

/-- numpy indexing `a[i]` with a Python integer: negative indices count from the end -/
def pyIndex {α : Type} (l : List α) (i : ℤ) : Py α :=
  let j := if 0 ≤ i then i else l.length + i
  if 0 ≤ j then
    match l[j.toNat]? with
    | some a => pure a
    | none => Py.raise .indexError
  else Py.raise .indexError

/-- numpy indexing with an integer array -/
def pyTake {α : Type} (l : List α) : List ℕ → Py (List α)
  | [] => pure []
  | i :: is => do
    let a ← pyIndex l i
    let as ← pyTake l is
    pure (a :: as)

open Classical in
/-- `interp1d(xs, ys, kind="linear", bounds_error=False, fill_value=nan)(x)`, nodes in
increasing order: undefined outside the node range, the node value at a node, the
straight line through the two neighbours in between. -/
noncomputable def interpLinear : List (ℝ × F) → ℝ → F
  | [], _ => F.nan
  | [(x0, y0)], x => if x = x0 then y0 else F.nan
  | (x0, y0) :: (x1, y1) :: t, x =>
    if x < x0 then F.nan
    else if x = x0 then y0
    else if x < x1 then
      (y1 - y0) / (F.ofReal x1 - F.ofReal x0) * (F.ofReal x - F.ofReal x0) + y0
    else interpLinear ((x1, y1) :: t) x

namespace Gmm
variable (C : GmmClass) (o : GmmOut)

/-- model.py lines 291-294: `periods` -/
def periods : Py (List ℚ) := pyTake C.periods C.indicesPsa

/-- model.py lines 365-367: `_resp` of one index -/
noncomputable def resp1 (i : ℤ) : Py F := do
  let y ← pyIndex o.lnResp i
  pure y.exp

/-- model.py lines 296-299: `spec_accels` -/
noncomputable def specAccels : Py (List F) := do
  let ys ← pyTake o.lnResp C.indicesPsa
  pure (ys.map F.exp)

/-- model.py lines 301-307: `ln_stds` -/
def lnStds : Py (List F) :=
  match o.lnStd with
  | none => Py.raise .notImplemented
  | some ss => pyTake ss C.indicesPsa

/-- model.py lines 309-315: `pga` -/
noncomputable def pga : Py F :=
  match C.indexPga with
  | none => Py.raise .notImplemented
  | some i => resp1 o i

/-- model.py lines 325-331: `pgv` -/
noncomputable def pgv : Py F :=
  match C.indexPgv with
  | none => Py.raise .notImplemented
  | some i => do
    let y ← resp1 o i
    pure (y * F.ofRat C.pgvScale)

/-- model.py lines 341-347: `pgd` -/
noncomputable def pgd : Py F :=
  match C.indexPgd with
  | none => Py.raise .notImplemented
  | some i => do
    let y ← resp1 o i
    pure (y * F.ofRat C.pgdScale)

/-- `None[i]` is a `TypeError` -/
def stdAt : Option (List F) → ℤ → Py F
  | none, _ => Py.raise .typeError
  | some ss, i => pyIndex ss i

/-- model.py lines 317-323: `ln_std_pga` -/
def lnStdPga : Py F :=
  match C.indexPga with
  | none => Py.raise .notImplemented
  | some i => stdAt o.lnStd i

/-- model.py lines 333-339: `ln_std_pgv` -/
def lnStdPgv : Py F :=
  match C.indexPgv with
  | none => Py.raise .notImplemented
  | some i => stdAt o.lnStd i

/-- model.py lines 349-355: `ln_std_pgd` -/
def lnStdPgd : Py F :=
  match C.indexPgd with
  | none => Py.raise .notImplemented
  | some i => stdAt o.lnStd i

open Classical in
/-- `interp1d(np.log(periods), ys)(np.log(T))` for one requested period; the logarithm of
a non-positive period is `-inf` or `nan` and gives `nan` -/
noncomputable def interpAt (ps : List ℚ) (ys : List F) (T : ℝ) : F :=
  if 0 < T then interpLinear (List.zip (ps.map fun p : ℚ => Real.log (p : ℝ)) ys) (Real.log T) else F.nan

/-- model.py lines 209-239: `interp_ln_spec_accels` at one period -/
noncomputable def interpLnSpecAccels (T : ℝ) : Py F := do
  let ps ← periods C
  let ys ← pyTake o.lnResp C.indicesPsa
  pure (interpAt ps ys T)

/-- model.py lines 241-263: `interp_spec_accels` -/
noncomputable def interpSpecAccels (T : ℝ) : Py F := do
  let y ← interpLnSpecAccels C o T
  pure y.exp

/-- model.py lines 265-289: `interp_ln_stds` -/
noncomputable def interpLnStds (T : ℝ) : Py F :=
  match o.lnStd with
  | none => Py.raise .notImplemented
  | some ss => do
    let ps ← periods C
    let ys ← pyTake ss C.indicesPsa
    pure (interpAt ps ys T)

end Gmm

/-! ## The class attributes of the shipped models -/
