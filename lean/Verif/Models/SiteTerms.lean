import Verif.Models.ASK14
import Verif.Models.BSSA14
import Verif.Models.CB14
import Verif.Models.CY14

/-!
# The public class methods `calc_site_term`

The four NGA-West2 classes with a nonlinear site term expose it as a class method that a user can
call with a reference motion of his own.  Arguments: numbers (as `F`), `None` for a depth that is
left out, any value as region.  `none` as reference motion is `np.nan`.
-/

noncomputable section

/-- numpy broadcasting of a one-dimensional argument against a table of `n` rows: equal lengths,
or one element repeated; anything else is a `ValueError` -/
def broadcast (n : ℕ) (resp : List F) : Py (List F) :=
  if resp.length = n then pure resp
  else match resp with
    | [x] => pure (List.replicate n x)
    | _ => Py.raise (.valueError "operands could not be broadcast")

/-- boore_stewart_seyhan_atkinson_2014.py lines 214-272: `calc_site_term`.  There is no test for
`nan`: `np.log((nan + c.f_3) / c.f_3)` is `nan` at every period. -/
def BSSA14.calcSiteTerm (pga : Option F) (v : F) (z1 : Option F) (region : Val := .str "california") :
    Py (List F) :=
  pure (BSSA14.table.map fun c => BSSA14.siteTerm c (pga.getD F.nan) v z1 (region.isStr "japan"))

/-- campbell_bozorgnia_2014.py lines 201-275: `calc_site_term`.  With `nan` as reference the depth
is not read; otherwise `None <= 1` (line 264) is a `TypeError`. -/
def CB14.calcSiteTerm (pga : Option F) (v : F) (z25 : Option F) (region : Val := .str "california") :
    Py (List F) :=
  match pga, z25 with
  | some _, none => Py.raise .typeError
  | p, z => pure (CB14.table.map fun c => CB14.siteTerm c p v (z.getD F.nan) (region.isStr "japan"))

/-- abrahamson_silva_kamai_2014.py lines 155-217: `calc_site_term` -/
def ASK14.calcSiteTermOf (resp : List F) (v : F) (z1 : Option F) (region : Val := .str "california") :
    Py (List F) := do
  let y ← broadcast ASK14.table.length resp
  pure (List.zipWith (fun c y => ASK14.siteTerm c y v z1 (region.isStr "japan")) ASK14.table y)

/-- chiou_youngs_2014.py lines 163-218: `calc_site_term`; `None - depth` (line 215) is a
`TypeError` -/
def CY14.calcSiteTermOf (resp : List F) (v : F) (z1 : Option F) (region : Val) : Py (List F) := do
  let y ← broadcast CY14.table.length resp
  match z1 with
  | none => Py.raise .typeError
  | some z => pure (CY14.calcSiteTerm y v z region)

end
