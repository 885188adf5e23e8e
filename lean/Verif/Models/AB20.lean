import Verif.Compute
import Verif.Decls

/-! # Abrahamson & Bhasin (2020): src/pygmm/abrahamson_bhasin_2020.py -/

namespace AB20
noncomputable section

/-- an argument of the constructor: the class object `Optional[float]` that line 88-90 name as
the default *value*, or a value the caller passes -/
inductive Arg
  | default
  | given (v : Val)

/-- `x is not None` -/
def Arg.isNotNone : Arg → Bool
  | .given .none => false
  | _ => true

/-- `np.log(x)`; of the default object, of `None` and of a string: `TypeError` -/
def npLog : Arg → Py F
  | .default => Py.raise .typeError
  | .given v => do
    let x ← v.toF
    pure (F.log x)

/-- `COEFFS` (lines 31-77): the two entries that can be reached -/
structure Coeffs where
  a_1 : ℚ
  a_2 : ℚ
  a_3 : ℚ
  a_4 : ℚ
  a_5 : ℚ
  a_6 : ℚ
  a_7 : ℚ
  a_8 : ℚ

def pga : Coeffs := ⟨4.77, 0.738, 0.484, 0.275, -0.036, -0.332, -0.44, 0⟩
def psa1s : Coeffs := ⟨4.80, 0.82, 0.55, 0.27, 0.054, -0.382, -0.21, 0⟩

/-- `C.v_s30` (line 122): `Coefficients.__getattr__` (model.py lines 550-551) looks the name up
among the coefficients, none of which is called `v_s30` -/
def Coeffs.getVs30 (_ : Coeffs) : Py F := Py.raise (.keyError "v_s30")

/-- lines 85-144 after `super().__init__`: nothing is kept on success (and a constructor that
returns a value raises `TypeError`, line 144); `s` is the caller's scenario (line 106) -/
def init (s : Scenario) (psa pgaArg psa1sArg : Arg) : Py Unit := do
  if psa.isNotNone then Py.raise .notImplemented
  else
    let lnGm ← npLog (if pgaArg.isNotNone then pgaArg else psa1sArg)
    let C := if pgaArg.isNotNone then pga else psa1s
    let mag ← s.num "mag"
    let f1 := F.iteLt mag 5 C.a_2 (F.iteLt 7.5 mag C.a_3 (C.a_2 + (C.a_3 - C.a_2) * (mag - 5) / 2.5))
    let dist ← s.num "dist_rup"
    let vs30 ← C.getVs30
    let _lnMean := C.a_1 + f1 * lnGm + C.a_4 * (mag - 6) + C.a_5 * (8.5 - mag) ^ 2
      + C.a_6 * F.log (dist + 5 * F.exp (0.4 * (mag - 6)))
      + (C.a_7 + C.a_8 * (mag - 5)) * F.log (vs30 / 425)
    Py.raise .typeError

/-- the class: the checks of lines 79-83, then `init` on the caller's scenario `s` -/
def cls (s : Scenario) (psa pgaArg psa1sArg : Arg) : ModelClass Unit where
  params := Decls.ab20
  compute := fun _ => init s psa pgaArg psa1sArg

/-- `AbrahamsonBhasin2020(s, psa, pga, psa_1s)` -/
def new (s : Scenario) (psa pgaArg psa1sArg : Arg) : Py (Instance Unit) :=
  (cls s psa pgaArg psa1sArg).new s

/-- lines 146-160: `ln_period_pgv` -/
def lnPeriodPgv (mag : F) : F := (-4.09) + 0.66 * mag

end
end AB20
