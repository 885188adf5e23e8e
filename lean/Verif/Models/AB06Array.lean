import Verif.Models.AB06
import Verif.ArrayScenario

/-!
# Atkinson & Boore (2006) on arrays: src/pygmm/atkinson_boore_2006.py

None of the three parameters of this class has a limit (lines 42-46), so the checks let arrays and
lists through to the arithmetic of `__init__`.  This file models that arithmetic with numpy's
broadcasting against the 27 rows of the coefficient table and the 26 rows of the stress factor
table; on scalars it is `AB06.cls` (`AB06.array_scalar`).
-/

namespace AB06
noncomputable section

/-- `if s.v_s30` (line 63): a list is true unless empty, an array has to have one entry -/
def vTruth : AVal → Py Bool
  | .scalar v => pure v.truthy
  | .array l => AVal.truth (l.map fun x => (Val.num x).truthy)
  | .list l => pure (!l.isEmpty)

/-- lines 70-72 and 75-83: the distance of every one of the 27 rows.  Line 70 divides by the
distance: a list cannot be divided by; an array of one entry is repeated, one of 27 entries meets
the rows one by one, and any other length cannot be broadcast. -/
def distRows : AVal → Py (List F)
  | .scalar v => do
    let x ← v.toF
    pure (List.replicate 27 x)
  | .array [x] => pure (List.replicate 27 (F.ofReal x))
  | .array l =>
    if l.length = 27 then pure (l.map F.ofReal)
    else Py.raise (.valueError "operands could not be broadcast")
  | .list _ => Py.raise .typeError

/-- lines 77-78 and 127-130: the magnitude.  An array of one entry acts as its entry; of any other
length than 27 it cannot be multiplied with the 27 rows, and with 27 entries it cannot be
subtracted from the 26 rows of the stress factor table.  A list is multiplied with the rows as an
array (line 77) and then cannot be squared (line 78). -/
def magOf : AVal → Py F
  | .scalar v => v.toF
  | .array [x] => pure (F.ofReal x)
  | .array _ => Py.raise (.valueError "operands could not be broadcast")
  | .list l =>
    if l.length = 1 ∨ l.length = 27 then Py.raise .typeError
    else Py.raise (.valueError "operands could not be broadcast")

/-- `s.v_s30` as a number in the site term (lines 153-167), and `none` where it is false -/
def siteOfA (v : AVal) (soil : Bool) : Py (Option F) :=
  if soil then
    match v with
    | .scalar v => do pure (some (← v.toF))
    | .array (x :: _) => pure (some (F.ofReal x))
    | .array [] => Py.raise (.valueError "truth value of an array")
    | .list _ => Py.raise .typeError
  else pure none

/-- lines 88-100: the response of the rows, each with its own distance; `pga_bc` (line 90) is
row 2 with the distance of row 2 -/
def outRows (mag : F) (dists : List F) : Option F → GmmOut
  | none =>
    ⟨List.zipWith (fun c r => toLn (log10Base c mag r)) rock dists, some (bc.map fun _ => 0.30)⟩
  | some vs30 =>
    let pga := (10 : F) ^ ((List.zipWith (fun c r => log10Base c mag r) bc dists).getD 2 F.nan)
    ⟨List.zipWith (fun c r => toLn (log10Base c mag r + log10Site c.period vs30 pga)) bc dists,
     some (bc.map fun _ => 0.30)⟩

/-- lines 48-100: `__init__` after the checks.  (The order of the errors is that of the statements
except that the length of a distance array, found out in line 79, is reported before the errors of
the magnitude, found out in lines 77, 78 and 129.) -/
def computeA (mag dist v : AVal) : Py GmmOut := do
  let soil ← vTruth v
  let d ← distRows dist
  let m ← magOf mag
  let vs30 ← siteOfA v soil
  pure (outRows m d vs30)

/-- the value the caller supplied, among the checked ones -/
def lookup (d : List (String × AVal)) (k : String) : Py AVal :=
  match d.find? (fun kv => kv.1 = k) with
  | some kv => pure kv.2
  | none => Py.raise (.keyError k)

/-- lines 48-52: construction from a mapping that may hold arrays -/
def newA (get : String → AVal) : Py GmmOut :=
  AVal.construct Decls.ab06 get fun d => do
    let v ← lookup d "v_s30"
    let dist ← lookup d "dist_rup"
    let mag ← lookup d "mag"
    computeA mag dist v

end
end AB06
