import Verif.RowPrograms
import Verif.Models.Stafford

/-! # The statements of the operations as formulas on arrays: Stafford (2017), `cov`

An `n × n` array is stored row by row; the two loops of lines 306-321 are executed as they stand, each
step assigning one entry. -/

open Arrays Classical

noncomputable section

namespace Stafford

/-- the arguments of `cov`; `given` tells whether all three sigmas are given -/
structure In where
  given : Bool
  mag : ℝ

/-- lines 306-321: `for i in range(n): for j in range(n): a[i, j] = f(i, j)` -/
def loop (n : ℕ) (f : ℕ → ℕ → F) (a : Arr) : Arr :=
  (List.range n).foldl (fun a i => (List.range n).foldl (fun a j => a.set (i * n + j) (f i j)) a) a

/-- stafford_2017.py lines 293-323 -/
def formula (l : String) (p : In) (vs : List Arr) : Arr :=
  if l = "stafford:295 E" then (vs.getD 0 []).map sigmaE
  else if l = "stafford:295 S" then (vs.getD 0 []).map sigmaS
  else if l = "stafford:295 A" then (vs.getD 0 []).map sigmaA
  else if l = "stafford:306" then List.replicate ((vs.getD 0 []).length * (vs.getD 0 []).length) 0
  else if l = "stafford:321" then
    let freqs := vs.getD 1 []
    loop freqs.length (fun i j =>
      let rhoE := betweenEvent (freqs.getD i F.nan) (freqs.getD j F.nan) (F.ofReal p.mag)
      let covE := rhoE * (vs.getD 2 []).getD i F.nan * (vs.getD 2 []).getD j F.nan
      let rhoS := betweenSite (freqs.getD i F.nan).val (freqs.getD j F.nan).val
      let covS := rhoS * (vs.getD 3 []).getD i F.nan * (vs.getD 3 []).getD j F.nan
      let rhoA := withinEvent (freqs.getD i F.nan).val (freqs.getD j F.nan).val
      let covA := rhoA * (vs.getD 4 []).getD i F.nan * (vs.getD 4 []).getD j F.nan
      covE + covS + covA) (vs.getD 0 [])
  else []

/-- the meaning of the labels -/
def meaning : VMeaning In := ⟨fun l p _ _ vs => formula l p vs, fun l p _ => if l = "stafford:294" then !p.given else false⟩

end Stafford
end
