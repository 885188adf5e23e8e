import Verif.Models.RowKernels8
import Verif.Models.BA19

/-! # The statements of the constructors as formulas on arrays: Bayless & Abrahamson (2019) -/

open Arrays Classical

noncomputable section

namespace BA19

/-- entry by entry over the usable rows -/
def perRow (vs : List Arr) (f : Row → (ℕ → F) → F) : Arr := pw usable f vs

/-- lines 158-160: `np.convolve(a, kernel, mode="same")` for a kernel of length 7 -/
def convolveSame (a kernel : Arr) : Arr :=
  (List.range a.length).map fun k => F.sum ((List.range 7).map fun j =>
    if k + j < 3 then 0 else a.getD (k + j - 3) 0 * kernel.getD (6 - j) F.nan)

/-- lines 157: `a[(i + 1):] = a[i]`, `i = np.argmin(a)` -/
def fillAfterMin (a : Arr) : Arr := a.mapIdx fun k x => if argmin a < k then atArgmin a else x

/-- line 162: `a[-7:] = a[i]` -/
def fillTail (i : ℕ) (a : Arr) : Arr := a.mapIdx fun k x => if a.length - 7 ≤ k then a.getD i F.nan else x

/-- bayless_abrahamson_2019.py lines 84-181; the variable `i` of line 156 is a number, so it is not one of
the array program's variables: it is computed again from the inputs -/
def formula (l : String) (s : In) (vs : List Arr) : Arr :=
  if l = "ba19:84-118" then [lnRef s]
  else if l = "ba19:97" then perRow vs fun c _ =>
    co c.c1 + co c.c2 * (s.mag - 6) + ((co c.c2 - co c.c3) / co c.cn) * F.log (1 + F.exp (co c.cn * (co c.cM - s.mag)))
  else if l = "ba19:103" then perRow vs fun c _ =>
    co c.c4 * F.log (s.rup + co c.c5 * F.cosh (co c.c6 * F.max (s.mag - co c.chm) 0))
      + (-0.5 - co c.c4) * F.log (F.sqrt (s.rup ^ 2 + 50 ^ 2)) + co c.c7 * s.rup
  else if l = "ba19:110" then perRow vs fun c _ => co c.c9 * F.min s.tor 20
  else if l = "ba19:112" then perRow vs fun _ _ => 0
  else if l = "ba19:114" then perRow vs fun c _ =>
    F.iteLe s.v 200 (co c.c11a) (F.iteLe s.v 300 (co c.c11b) (F.iteLe s.v 500 (co c.c11c) (co c.c11d)))
  else if l = "ba19:117" then perRow vs fun _ v => v 0 * F.log ((F.min s.z1 2 + 0.01) / (calcDepth10 s.v + 0.01))
  else if l = "ba19:121" then perRow vs fun _ v => v 0 + v 1 + v 2 + v 3 + v 4
  else if l = "ba19:144" then perRow vs fun c _ => co c.c8 * F.log (F.min s.v 1000 / 1000)
  else if l = "ba19:146" then perRow vs fun c _ =>
    F.ofRat c.f4 * (F.exp (F.ofRat c.f5 * (F.min s.v 760 - 360)) - F.exp (F.ofRat c.f5 * (760 - 360)))
  else if l = "ba19:151" then
    let iR := F.exp (1.238 + 0.846 * (vs.getD 1 []).getD 0 F.nan)
    perRow vs fun c v => v 0 * F.log ((iR + F.ofRat c.f3) / F.ofRat c.f3)
  else if l = "ba19:157" then fillAfterMin (vs.getD 0 [])
  else if l = "ba19:159" then List.replicate 7 (1 / 7)
  else if l = "ba19:160" then convolveSame (vs.getD 0 []) (vs.getD 1 [])
  else if l = "ba19:162" then fillTail (argmin (usable.map (nlRaw s.v (lnRef s)))) (vs.getD 0 [])
  else if l = "ba19:164" then perRow vs fun _ v => v 0 + v 1
  else if l = "ba19:125" then perRow vs fun _ v => v 0 + v 1
  else if l = "ba19:131" then (table.drop 239).map fun c =>
    F.exp (-F.pi * F.exp (-0.4 * F.log (s.v / 760) - 3.5) * (F.ofRat c.freq_hz - F.ofRat ((table.map (·.freq_hz)).getD 238 0)))
  else if l = "ba19:134" then vs.getD 0 [] ++ (vs.getD 1 []).map fun d => (vs.getD 0 []).getD 238 F.nan + F.log d
  else if l = "ba19:176" then table.map fun c => stdTerm s.mag c.s1 c.s2
  else if l = "ba19:177" then table.map fun c => stdTerm s.mag c.s3 c.s4
  else if l = "ba19:178" then table.map fun c => stdTerm s.mag c.s5 c.s6
  else if l = "ba19:180" then
    pw table (fun c v => F.sqrt (v 0 ^ 2 + v 1 ^ 2 + v 2 ^ 2 + co c.c1a ^ 2)) vs
  else if l = "ba19:67" then (vs.getD 0 []).map F.exp
  else []

/-- the meaning of the labels -/
def meaning : VMeaning In := ⟨fun l s _ _ vs => formula l s vs, fun l s _ => if l = "ba19:112" then s.ns else false⟩

end BA19
end
