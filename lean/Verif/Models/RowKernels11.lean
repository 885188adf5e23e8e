import Verif.RowPrograms
import Verif.Models.BA18

/-! # The statements of the operations as formulas on arrays: Bayless & Abrahamson (2018)

An `n × n` array is stored row by row. -/

open Arrays Classical

noncomputable section

namespace BA18

/-- the number of frequencies and the keyword arguments of `cov` (for `std`: whether it is given) -/
structure In where
  n : ℕ
  std : Bool := false
  component : Option (Row → ℚ) := none

/-- the array with these entries -/
def matrix (n : ℕ) (f : ℕ → ℕ → F) : Arr := (List.range (n * n)).map fun k => f (k / n) (k % n)

/-- entry in row `i`, column `j` -/
def entry (n : ℕ) (a : Arr) (i j : ℕ) : F := a.getD (i * n + j) F.nan

/-- bayless_abrahamson_2018.py lines 41-57, 84-93; line 54 makes four arrays, kept one after the other -/
def formula (l : String) (p : In) (vs : List Arr) : Arr :=
  let x (k i j : ℕ) : F := entry p.n (vs.getD k []) i j
  if l = "ba18:44" then matrix p.n fun _ j => (vs.getD 0 []).getD j F.nan
  else if l = "ba18:52" then matrix p.n fun i j => F.abs (F.log (x 0 i j / x 0 j i))
  else if l = "ba18:53" then matrix p.n fun i j => F.min (x 0 i j) (x 0 j i)
  else if l = "ba18:54" then
    matrix p.n (fun i j => interp Row.A (x 0 i j)) ++ matrix p.n (fun i j => interp Row.B (x 0 i j)) ++
      matrix p.n (fun i j => interp Row.C (x 0 i j)) ++ matrix p.n (fun i j => interp Row.D (x 0 i j))
  else if l = "ba18:55" then
    let part (k i j : ℕ) : F := entry p.n ((vs.getD 0 []).drop (k * (p.n * p.n))) i j
    matrix p.n fun i j => F.tanh (part 0 i j * F.exp (part 1 i j * x 1 i j) + part 2 i j * F.exp (part 3 i j * x 1 i j))
  else if l = "ba18:56" then matrix p.n fun i j => if i = j then 1 else x 0 i j
  else if l = "ba18:57" then matrix p.n fun i j => (x 0 i j + x 0 j i) / 2
  else if l = "ba18:87" then
    match p.component with
    | some col => (vs.getD 0 []).map (interp col)
    | none => []
  else if l = "ba18:92" then matrix p.n fun _ j => (vs.getD 0 []).getD j F.nan
  else if l = "ba18:93" then matrix p.n fun i j => x 0 i j * x 1 i j * x 1 j i
  else []

/-- the branches of lines 85-89 -/
def test (l : String) (p : In) : Bool :=
  if l = "ba18:85" then !p.std && p.component.isSome
  else if l = "ba18:88" then !p.std && p.component.isNone
  else false

/-- the meaning of the labels -/
def meaning : VMeaning In := ⟨fun l p _ _ vs => formula l p vs, fun l p _ => test l p⟩

end BA18
end
