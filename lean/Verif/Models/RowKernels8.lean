import Verif.RowPrograms
import Verif.Models.AB06

/-! # The statements of the constructors as formulas on arrays: Atkinson & Boore (2006)

The formulas of this class work on tables of different lengths and interpolate between them. -/

open Arrays Classical

noncomputable section

/-- model.py lines 299-315: the accessors of the class `C`; other labels by formulas on arrays -/
def Arrays.accessors {I : Type} (C : GmmClass) (f : String → I → List Arr → Arr) (test : String → I → Bool) : VMeaning I where
  formula := fun l i _ _ vs =>
    if l = "model.py:307" then C.indicesPsa.map fun j => F.exp ((vs.getD 0 []).getD j F.nan)
    else if l = "model.py:315" then C.indicesPsa.map fun j => (vs.getD 0 []).getD j F.nan
    else if l = "model.py:302" then C.indicesPsa.map fun j => F.ofRat (C.periods.getD j 0)
    else f l i vs
  test := fun l i _ => test l i

namespace AB06

/-- numbers the formulas use; `site` is the velocity if it is truthy -/
structure In where
  mag : F
  dist : F
  site : Option F

/-- line 63: the table of the site condition -/
def In.rows (i : In) : List Row := if i.site.isSome then bc else rock

/-- the velocity, in the lines that run only if there is one -/
def In.v (i : In) : F := i.site.getD F.nan

/-- numpy.interp at `PERIODS`, the periods of the B/C table, of the values `y` at the periods `x` -/
def atPeriods (x : List ℚ) (y : Arr) : Arr :=
  bc.map fun c => npInterp (List.zip (x.map fun q : ℚ => (q : ℝ)) y) c.period

/-- atkinson_boore_2006.py lines 54-175 -/
def formula (l : String) (i : In) (vs : List Arr) : Arr :=
  -- lines 65-83
  if l = "ab06:75" then i.rows.map fun c =>
    c.c_1 + c.c_2 * i.mag + c.c_3 * i.mag ^ 2 + (c.c_4 + c.c_5 * i.mag) * F.min (F.log10 i.dist) (F.log10 70)
      + (c.c_6 + c.c_7 * i.mag) * F.max (F.log10 (i.dist / 140)) 0 + (c.c_8 + c.c_9 * i.mag) * F.max (F.log10 (10 / i.dist)) 0
      + c.c_10 * i.dist
  -- lines 86, 114-132: the stress factor is computed on its own table, then interpolated
  else if l = "ab06:86" then
    List.zipWith (· + ·) (vs.getD 0 []) (atPeriods (sf.map (·.period)) (sf.map fun c =>
      F.min 2 ((10 : F) ^ (3.45 - 0.2 * i.mag) / 140) *
        F.min ((c.delta : F) + 0.05) (0.05 + c.delta * F.max (i.mag - c.m_1) 0 / ((c.m_h : F) - c.m_1))))
  -- lines 157-165
  else if l = "ab06:160" then site.map fun c => (c.b_1 - c.b_2) * F.log (i.v / 300) / F.log (180 / 300)
  else if l = "ab06:162" then site.map fun c => c.b_2 * F.log (i.v / 760) / F.log (300 / 760)
  else if l = "ab06:165" then site.map fun _ => 0
  -- lines 90, 167-171
  else if l = "ab06:169" then
    List.zipWith (fun c b => F.log10 (F.exp (c.b_lin * F.log (i.v / 760) +
      b * F.log (F.max ((10 : F) ^ ((vs.getD 0 []).getD 2 F.nan)) 60 / 100)))) site (vs.getD 1 [])
  else if l = "ab06:172" then atPeriods (site.map (·.period)) (vs.getD 0 [])
  else if l = "ab06:94" then List.zipWith (· + ·) (vs.getD 0 []) (vs.getD 1 [])
  else if l = "ab06:97" then (vs.getD 0 []).map fun y => y - F.log10 980.665
  else if l = "ab06:99" then (vs.getD 0 []).map fun y => F.log ((10 : F) ^ y)
  else if l = "ab06:111" then bc.map fun _ => 0.30
  else []

/-- the branches -/
def test (l : String) (i : In) : Bool :=
  if l = "ab06:88" then i.site.isSome
  else if l = "ab06:157" then decide (i.v.val ≤ 180)
  else if l = "ab06:159" then decide (180 < i.v.val ∧ i.v.val ≤ 300)
  else if l = "ab06:161" then decide (300 < i.v.val ∧ i.v.val ≤ 760)
  else false

end AB06
end
