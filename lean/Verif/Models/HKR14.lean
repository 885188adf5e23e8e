import Verif.Compute
import Verif.Fill
import Verif.Decls

/-!
# Hermkes, Kuehn, Riggelsen (2014): src/pygmm/hermkes_kuehn_riggelsen_2014.py

The module keeps its interpolator in a global that the first construction fills from the
data file.  The constructor is therefore a function of a `World` too.  Not modelled: the
download attempt at import (lines 18-35), reading a `npz` archive beyond its two arrays,
the k-d tree (only that it finds a nearest event).
-/

namespace HKR14

/-- what `np.load(fname_data)` finds: no readable file, or an archive in which the two arrays may
be missing (rows of `events`, rows of `predictions`) -/
inductive DataFile
  | missing
  | archive (events predictions : Option (List (List ℝ)))

/-- a built `NearestNDInterpolator` -/
structure Interp where
  events : List (List ℝ)
  predictions : List (List ℝ)

/-- lines 100-103: load the arrays and build the interpolator, which rejects arrays of different
length -/
def load : DataFile → Py Interp
  | .missing => Py.raise .ioError
  | .archive none _ => Py.raise (.keyError "events")
  | .archive (some _) none => Py.raise (.keyError "predictions")
  | .archive (some e) (some p) =>
    if e.length = p.length then pure ⟨e, p⟩
    else Py.raise (.valueError "different number of values and points")

/-- the file, the global `INTERPOLATOR` (line 37), and the outcomes of the loads made so far, which
only the statements look at -/
structure World where
  file : DataFile
  cache : Option Interp
  loads : List Bool

/-- lines 98-103: the interpolator to use; the global is assigned only after the load succeeded -/
def interpolator (w : World) : Py Interp × World :=
  match w.cache with
  | some i => (pure i, w)
  | none =>
    let r := load w.file
    match r.res with
    | .ok i => (r, { w with cache := some i, loads := w.loads ++ [true] })
    | .error _ => (r, { w with loads := w.loads ++ [false] })

/-- a number of the event tuple as the interpolator reads it: `None` becomes nan -/
noncomputable def coord : Val → Option ℝ
  | .num x => some x
  | .bool b => some (Val.boolNum b)
  | _ => none

/-- lines 82-96: the base class constructor, then the event tuple -/
noncomputable def eventCls : ModelClass (List Val) where
  params := Decls.hkr14
  compute := fun s => do
    let mech ← s.getAttr "mechanism"
    let ss : ℝ := if mech.isStr "SS" then 1 else 0
    let ns : ℝ := if mech.isStr "NS" then 1 else 0
    let rs : ℝ := if mech.isStr "RS" then 1 else 0
    let mag ← s.getAttr "mag"
    let depth ← s.getAttr "depth_hyp"
    let dist ← s.getAttr "dist_jb"
    let vs30 ← s.getAttr "v_s30"
    pure [mag, depth, .num rs, .num ss, .num ns, dist, vs30]

/-- squared Euclidean distance of two events -/
def dist2 (x y : List ℝ) : ℝ := ((x.zip y).map fun p => (p.1 - p.2) ^ 2).sum

/-- the nearest-event search: any fixed rule that returns the position of a nearest event -/
structure Search where
  find : List (List ℝ) → List ℝ → ℕ
  lt : ∀ (es : List (List ℝ)) (x : List ℝ), es ≠ [] → find es x < es.length
  le : ∀ (es : List (List ℝ)) (x : List ℝ), ∀ e ∈ es, dist2 (es.getD (find es x) []) x ≤ dist2 e x

/-- `a[0::2]` -/
def evens : List ℝ → List ℝ
  | [] => []
  | [x] => [x]
  | x :: _ :: l => x :: evens l

/-- `a[1::2]` -/
def odds : List ℝ → List ℝ
  | [] => []
  | [_] => []
  | _ :: y :: l => y :: odds l

/-- lines 104-106: the query refuses coordinates that are not finite; the prediction row alternates
means and variances -/
noncomputable def predict (q : Search) (i : Interp) (event : List Val) : Py GmmOut :=
  match event.mapM coord with
  | none => Py.raise (.valueError "'x' must be finite, check for nan or inf values")
  | some x =>
    let row := i.predictions.getD (q.find i.events x) []
    pure ⟨(evens row).map F.ofReal, some ((odds row).map fun v => F.sqrt (F.ofReal v))⟩

/-- lines 82-106: one construction -/
noncomputable def construct (q : Search) (w : World) (s : Scenario) : Py (Instance GmmOut) × World :=
  let p := eventCls.new s
  match p.res with
  | .error e => (⟨p.log, .error e⟩, w)
  | .ok _ =>
    let r := interpolator w
    (do
      let inst ← p
      let i ← r.1
      let o ← predict q i inst.out
      pure ⟨inst.scenario, o⟩, r.2)

/-- what can happen: a construction, or the data file being replaced -/
inductive Step
  | build (s : Scenario)
  | replace (f : DataFile)

/-- a history: the results of its constructions in order, and the final world -/
noncomputable def run (q : Search) (w : World) : List Step → List (Py (Instance GmmOut)) × World
  | [] => ([], w)
  | .build s :: h =>
    let r := construct q w s
    let t := run q r.2 h
    (r.1 :: t.1, t.2)
  | .replace f :: h => run q { w with file := f } h

end HKR14
