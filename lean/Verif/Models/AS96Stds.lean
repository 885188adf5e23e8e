import Verif.Models.Durations
import Verif.Interp

/-! # AS96: `interp` with standard deviations (src/pygmm/abrahamson_silva_1996.py lines 67-121) -/

namespace AS96
noncomputable section

/-- lines 78-117: the nodes of the standard error -/
def stdNodes : List (ℝ × F) :=
  [(0.10, 0.843), (0.15, 0.759), (0.20, 0.713), (0.25, 0.691), (0.30, 0.674), (0.35, 0.660),
   (0.40, 0.646), (0.45, 0.636), (0.50, 0.628), (0.55, 0.616), (0.60, 0.605), (0.65, 0.594),
   (0.70, 0.582), (0.75, 0.565), (0.80, 0.545), (0.85, 0.528), (0.90, 0.510), (0.95, 0.493)]

/-- lines 76-118: `std_errs`, one entry of the masked `nias` -/
def stdErrs (nias : F) : F := npInterpF stdNodes nias

/-- what the caller may pass as `stds` -/
inductive StdsArg
  | none
  | scalar (k : ℝ)
  | list (l : List ℝ)

/-- the array `interp` returns: of one dimension without `stds`, of two with -/
inductive DurArr
  | flat (l : List F)
  | rows (l : List (List F))

/-- lines 67-121: `interp(nias, stds)` of a model whose `_ln_dur` is `ld`.  Indexing the
0-dimensional array made of a number by `[:, np.newaxis]` (line 119) raises `IndexError`; by then
`nias` has been masked. -/
def interpFull (ld : F) (mem : Arrays) (a : NiasArg) (stds : StdsArg) : Arrays × Except PyErr DurArr :=
  let (mem, ref) := asarray mem a
  let mem := maskArr mem ref
  let (mem, d) := calcIncrArr mem ref
  let lnDur := d.map fun y => ld + y
  match stds with
  | .none => (mem, .ok (.flat (lnDur.map F.exp)))
  | .scalar _ => (mem, .error .indexError)
  | .list ks =>
    let stdErrs := (mem.getD ref []).map fun c => stdErrs c.toF
    (mem, .ok (.rows (ks.map fun k =>
      (List.zipWith (fun y e => y + F.ofReal k * e) lnDur stdErrs).map F.exp)))

end
end AS96
