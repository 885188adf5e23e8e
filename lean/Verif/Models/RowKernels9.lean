import Verif.Models.RowKernels8
import Verif.Models.DBC14

/-! # The statements of the constructors as formulas on arrays: Derras, Bard & Cotton (2014)

A matrix is stored row by row in one array, a record array of limits pair by pair. -/

open Arrays Classical

noncomputable section

namespace DBC14

/-- numbers the formulas use -/
structure In where
  dist : F
  mag : F
  vs30 : F
  depth : F
  mech : F

/-- inner product -/
def inner : Arr → Arr → F
  | a :: as, x :: xs => a * x + inner as xs
  | _, _ => 0

/-- `w @ x` for a matrix with rows of length 5 -/
def matVec (w x : Arr) : Arr := (List.range (w.length / 5)).map fun r => inner ((w.drop (r * 5)).take 5) x

/-- derras_bard_cotton_2014.py lines 60-88 -/
def formula (l : String) (i : In) (vs : List Arr) : Arr :=
  if l = "dbc14:62" then [F.log10 i.dist, i.mag, F.log10 i.vs30, i.depth, i.mech]
  else if l = "dbc14:63" then (inputLimits.map fun p => [F.ofRat p.1, F.ofRat p.2]).flatten
  else if l = "dbc14:64" then
    (List.range 5).map fun j : ℕ =>
      let x := (vs.getD 0 []).getD j F.nan
      let lo := (vs.getD 1 []).getD (2 * j) F.nan
      let hi := (vs.getD 1 []).getD (2 * j + 1) F.nan
      2 * (x - lo) / (hi - lo) - 1
  else if l = "dbc14:69" then b1.map F.ofRat
  else if l = "dbc14:70" then table.map fun c => F.ofRat c.b2
  else if l = "dbc14:71" then (w1.map fun r => r.map F.ofRat).flatten
  else if l = "dbc14:72" then (table.map fun c => c.w2.map F.ofRat).flatten
  else if l = "dbc14:74" then
    let hidden := List.zipWith (fun b x => F.tanh (b + x)) (vs.getD 0 []) (matVec (vs.getD 2 []) (vs.getD 4 []))
    List.zipWith (· + ·) (vs.getD 1 []) (matVec (vs.getD 3 []) hidden)
  else if l = "dbc14:78" then
    List.zipWith (fun c y => 0.5 * (y + 1) * ((c.respMax : F) - c.respMin) + c.respMin) table (vs.getD 0 [])
  else if l = "dbc14:85" then (0.01 :: List.replicate (table.length - 1) (9.80665 : F)).map F.log10
  else if l = "dbc14:87" then List.zipWith (fun y s => F.log ((10 : F) ^ (y - s))) (vs.getD 0 []) (vs.getD 1 [])
  else if l = "dbc14:88" then table.map fun c => F.log ((10 : F) ^ (c.stdTotal : F))
  else []

end DBC14
end
