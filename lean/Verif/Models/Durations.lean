import Verif.Compute
import Verif.Decls

/-!
# Duration models: AS96, KS06, AS16

src/pygmm/abrahamson_silva_1996.py, kempton_stewart_2006.py, afshari_stewart_2016.py
-/

/-- what the constructor of a duration model stores in `_ln_dur` and `_std_err`; the
property `duration` is the exponential of the former -/
structure DurOut where
  lnDur : List F
  stdErr : List F

/-- the property `duration` (abrahamson_silva_1996.py lines 45-47,
kempton_stewart_2006.py lines 63-65, afshari_stewart_2016.py lines 136-140) -/
noncomputable def DurOut.duration (o : DurOut) : List F := o.lnDur.map F.exp

noncomputable section

/-- `10 ** (1.5 * mag + 16.05)`: abrahamson_silva_1996.py line 36,
kempton_stewart_2006.py line 85, afshari_stewart_2016.py line 161 -/
def seismicMoment (mag : F) : F := (10 : F) ^ (1.5 * mag + 16.05)

namespace AS96

/-- abrahamson_silva_1996.py lines 62-63: the increment of one entry that is not masked -/
def incr (nias : F) : F :=
  let lnIRatio := F.log ((nias - 0.05) / (1 - nias))
  (-0.532) + 0.552 * lnIRatio - 0.0262 * lnIRatio ^ 2

/-- abrahamson_silva_1996.py lines 53-65: `calc_ln_dur_incr` of one entry; entries below
0.10 or above 0.95 have been overwritten by `nan` -/
def calcLnDurIncr (nias : F) : F :=
  F.iteLt nias 0.10 F.nan (F.iteLt 0.95 nias F.nan (incr nias))

/-- abrahamson_silva_1996.py lines 33-42; `soil` is `s.site_cond == "soil"` -/
def lnDur (mag dist : F) (soil : Bool) : F :=
  let stressDrop := F.exp (5.204 + 0.851 * (mag - 6))
  F.log ((stressDrop / seismicMoment mag) ^ ((-1 : F) / 3) / (4.9e6 * 3.2)
    + 0.805 * (if soil then 1 else 0) + 0.063 * F.max (dist - 10) 0) + calcLnDurIncr 0.75

/-- what the constructor leaves for numeric inputs -/
def out (mag dist : F) (soil : Bool) : DurOut := ⟨[lnDur mag dist soil], [0.55]⟩

/-- abrahamson_silva_1996.py lines 30-43: the class -/
def cls : ModelClass DurOut where
  params := Decls.as96
  compute := fun s => do
    let mag ← s.num "mag"
    let site ← s.getAttr "site_cond"
    let dist ← s.num "dist_rup"
    pure (out mag dist (site.isStr "soil"))

/-- abrahamson_silva_1996.py lines 67-121 with `stds=None`, one entry of `nias`, for a
model whose `_ln_dur` is `ld` -/
def interp (ld : F) (nias : F) : F := F.exp (ld + calcLnDurIncr nias)

/-! ### `interp` as a program on numpy arrays

`np.asarray` returns the caller's own array when it is given one, so the in-place masking
is visible to the caller. -/

/-- an entry of a float array: a number or `nan` -/
abbrev Cell := Option ℝ

/-- the entry used in arithmetic -/
def Cell.toF : Cell → F
  | none => F.nan
  | some x => F.ofReal x

/-- float arrays in memory, addressed by position; allocation appends -/
abbrev Arrays := List (List Cell)

/-- what the caller may pass as `nias`: an existing float array, a list, a number -/
inductive NiasArg
  | arr (ref : ℕ)
  | list (l : List Cell)
  | scalar (x : Cell)

/-- `np.asarray(nias)` (abrahamson_silva_1996.py lines 56 and 69): an array is itself, a list
or number is copied into a new array (a number into a 0-dimensional one, here of length 1) -/
def asarray (mem : Arrays) : NiasArg → Arrays × ℕ
  | .arr ref => (mem, ref)
  | .list l => (mem ++ [l], mem.length)
  | .scalar x => (mem ++ [[x]], mem.length)

open Classical in
/-- one entry under `nias[(nias < 0.10) | (0.95 < nias)] = np.nan`; comparisons with `nan`
are false -/
def maskCell : Cell → Cell
  | none => none
  | some x => if x < 0.10 ∨ 0.95 < x then none else some x

/-- abrahamson_silva_1996.py lines 57-58 and 70-71: masking in place -/
def maskArr (mem : Arrays) (ref : ℕ) : Arrays := mem.modify ref (List.map maskCell)

/-- abrahamson_silva_1996.py lines 53-65: `calc_ln_dur_incr` called with an array -/
def calcIncrArr (mem : Arrays) (ref : ℕ) : Arrays × List F :=
  let mem := maskArr mem ref
  (mem, (mem.getD ref []).map fun c => incr c.toF)

/-- abrahamson_silva_1996.py lines 67-74, 121: `interp(nias)` with `stds=None` of a model whose
`_ln_dur` is `ld` -/
def interpArr (ld : F) (mem : Arrays) (a : NiasArg) : Arrays × List F :=
  let (mem, ref) := asarray mem a
  let mem := maskArr mem ref
  let (mem, d) := calcIncrArr mem ref
  (mem, d.map fun y => F.exp (ld + y))

/-- a history of `interp` calls (model's `_ln_dur`, argument) -/
def interpRun (mem : Arrays) : List (F × NiasArg) → Arrays
  | [] => mem
  | (ld, a) :: h => interpRun (interpArr ld mem a).1 h

end AS96

namespace KS06

/-- kempton_stewart_2006.py lines 36-43: log stress drop of the four measures D5-75a,
D5-95a, D5-75v, D5-95v as `a + b (mag - 6)` (`b = 0` where the code has a constant), lines
49-55: path and site coefficients, line 61: standard error -/
structure Row where
  a : ℚ
  b : ℚ
  path : ℚ
  site0 : ℚ
  site1 : ℚ
  std : ℚ

/-- kempton_stewart_2006.py lines 36-61 -/
def table : List Row :=
  [⟨6.02, 0, 0.07, 0.82, -0.0013, 0.57⟩, ⟨2.79, 0.82, 0.15, 3.00, -0.0041, 0.47⟩,
   ⟨5.46, 0, 0.10, 1.40, -0.0022, 0.66⟩, ⟨1.53, 1.34, 0.15, 3.99, -0.0062, 0.52⟩]

/-- kempton_stewart_2006.py lines 83-86: `_source_dur` -/
def sourceDur (mag stressDrop : F) : F :=
  (stressDrop / seismicMoment mag) ^ ((-1 : F) / 3) / (4.9e6 * 3.2)

/-- kempton_stewart_2006.py lines 45-58, one measure -/
def lnDur (c : Row) (mag dist vs30 : F) : F :=
  let f0 := sourceDur mag (F.exp (c.a + c.b * (mag - 6)))
  let f1 := c.path * dist
  let f2 := c.site0 + c.site1 * vs30
  F.log (f0 + f1 + f2)

/-- what the constructor leaves for numeric inputs -/
def out (mag dist vs30 : F) : DurOut :=
  ⟨table.map fun c => lnDur c mag dist vs30, table.map fun c => (c.std : F)⟩

/-- kempton_stewart_2006.py lines 29-61: the class -/
def cls : ModelClass DurOut where
  params := Decls.ks06
  compute := fun s => do
    let mag ← s.num "mag"
    let dist ← s.num "dist_rup"
    let vs30 ← s.num "v_s30"
    pure (out mag dist vs30)

end KS06

namespace AS16

/-- mechanism as the code distinguishes it (afshari_stewart_2016.py lines 41-52); `None`
stands for "unspecified" -/
inductive Mech
  | none | ns | rs | ss
deriving DecidableEq

/-- afshari_stewart_2016.py lines 38-54, 69-73, 85, 97-100: the coefficients of one of the
measures D5-75, D5-95, D20-80 -/
structure Row where
  mag1 : ℚ
  mag2 : ℚ
  b0 : Mech → ℚ
  b1 : Mech → ℚ
  b2 : ℚ
  b3 : ℚ
  c1 : ℚ
  c2 : ℚ
  c3 : ℚ
  c4 : ℚ
  c5 : ℚ
  vRef : ℚ
  tau1 : ℚ
  tau2 : ℚ
  phi1 : ℚ
  phi2 : ℚ

/-- four values, one per mechanism -/
def Mech.pick (none ns rs ss : ℚ) : Mech → ℚ
  | .none => none
  | .ns => ns
  | .rs => rs
  | .ss => ss

/-- afshari_stewart_2016.py lines 38-100 -/
def table : List Row :=
  [⟨5.35, 7.15, Mech.pick 1.280 1.555 0.7806 1.279, Mech.pick 5.576 4.992 7.061 5.578, 0.9011,
    -1.684, 0.1159, 0.1065, 0.0682, -0.2246, 0.0006, 368.2, 0.28, 0.25, 0.54, 0.41⟩,
   ⟨5.2, 7.4, Mech.pick 2.182 2.541 1.612 2.302, Mech.pick 3.628 3.170 4.536 3.467, 0.9443,
    -3.911, 0.3165, 0.2539, 0.0932, -0.3183, 0.0006, 369.9, 0.25, 0.19, 0.43, 0.35⟩,
   ⟨5.2, 7.4, Mech.pick 0.8822 1.409 0.7729 0.8804, Mech.pick 6.182 4.778 6.188 6.188, 0.7414,
    -3.164, 0.0646, 0.0865, 0.0373, -0.4237, 0.0005, 369.6, 0.30, 0.19, 0.56, 0.45⟩]

/-- afshari_stewart_2016.py lines 115-134: `calc_depth_1_0`; `japan` is
`region in ["japan"]` -/
def calcDepth10 (vs30 : F) (japan : Bool) : F :=
  if japan then
    F.exp (-5.23 / 2 * F.log ((vs30 ^ 2 + (412.39 : F) ^ 2) / ((1360 : F) ^ 2 + (412.39 : F) ^ 2))) / 1000
  else
    F.exp (-7.15 / 4 * F.log ((vs30 ^ 4 + (570.94 : F) ^ 4) / ((1360 : F) ^ 4 + (570.94 : F) ^ 4))) / 1000

/-- afshari_stewart_2016.py lines 57-66, 159-162: source duration.  The two boolean masks
are multiplied in as 0/1 numbers, as in line 66. -/
def source (c : Row) (mech : Mech) (mag : F) : F :=
  let stressDrop := F.exp (c.b1 mech + c.b2 * (F.min mag c.mag2 - 6) + c.b3 * F.max (mag - c.mag2) 0)
  let f0 := (4.9e6 * 3.2) * (stressDrop / seismicMoment mag) ^ ((1 : F) / 3)
  F.iteLe mag c.mag1 1 0 * c.b0 mech + F.iteLt c.mag1 mag 1 0 * (1 / f0)

/-- afshari_stewart_2016.py lines 77-81: path duration -/
def path (c : Row) (dist : F) : F :=
  c.c1 * F.min dist 10 + c.c2 * F.max (F.min dist 50 - 10) 0 + c.c3 * F.max (dist - 50) 0

/-- afshari_stewart_2016.py lines 88-94: site term; `japan` is the outcome of
`s.mechanism in ["japan"]`, because line 89 passes the mechanism as the region -/
def site (c : Row) (vs30 : F) (depth : Option F) (japan : Bool) : F :=
  let fdz : F := match depth with
    | some z =>
      let dz := z - calcDepth10 vs30 japan
      c.c5 * F.iteLe dz 200 dz 200
    | none => 0
  c.c4 * F.log (F.min vs30 600 / c.vRef) + fdz

/-- afshari_stewart_2016.py line 110 -/
def lnDur (c : Row) (mech : Mech) (mag dist vs30 : F) (depth : Option F) (japan : Bool) : F :=
  F.log (source c mech mag + path c dist) + site c vs30 depth japan

/-- afshari_stewart_2016.py lines 102-113 -/
def stdErr (c : Row) (mag : F) : F :=
  let tau := c.tau1 + (c.tau2 - c.tau1) * (F.min (F.max mag 6.5) 7 - 6.5) / (7 - 6.5)
  let phi := c.phi1 + (c.phi2 - c.phi1) * (F.min (F.max mag 5.5) 5.75 - 5.5) / (5.75 - 5.5)
  F.sqrt (tau ^ 2 + phi ^ 2)

/-- what the constructor leaves for numeric inputs -/
def out (mech : Mech) (mag dist vs30 : F) (depth : Option F) (japan : Bool) : DurOut :=
  ⟨table.map fun c => lnDur c mech mag dist vs30 depth japan, table.map fun c => stdErr c mag⟩

/-- afshari_stewart_2016.py lines 41-52: the branch taken; any other string leaves `b_0`
unbound (`UnboundLocalError` at line 57) -/
def mechOf (v : Val) : Py Mech :=
  match v with
  | .none => pure .none
  | v =>
    if v.isStr "NS" then pure .ns
    else if v.isStr "RS" then pure .rs
    else if v.isStr "SS" then pure .ss
    else Py.raise .unboundLocal

/-- afshari_stewart_2016.py lines 29-113: the class -/
def cls : ModelClass DurOut where
  params := Decls.as16
  compute := fun s => do
    let m ← s.getAttr "mechanism"
    let mech ← mechOf m
    let mag ← s.num "mag"
    let dist ← s.num "dist_rup"
    let depth ← s.optNum "depth_1_0"
    let vs30 ← s.num "v_s30"
    pure (out mech mag dist vs30 depth (m.isStr "japan"))

end AS16
end

namespace AS96

/-- construction: any string is accepted as site condition, only `soil` counts as soil -/
theorem gives (s : Scenario) {m r : ℝ} {t : String} (hm : s.get "mag" = .num m)
    (hr : s.get "dist_rup" = .num r) (ht : s.get "site_cond" = .str t) :
    Gives cls s (out (F.ofReal m) (F.ofReal r) (t = "soil")) := by
  apply gives_of (by decide +kernel) rfl
  · simp only [cls, Decls.as96, List.forall_mem_cons]
    exact ⟨pass_num hm, pass_num hr, pass_cat ht, fun _ h => by simp at h⟩
  · intro d hd
    have hn : (Decls.as96.map Param.name).Nodup := by decide +kernel
    have h1 := Checked.num hd hn (name := "mag") (by mem_tac) hm
    have h2 := Checked.num hd hn (name := "dist_rup") (by mem_tac) hr
    by_cases hs : t ∈ ["soil", "rock"]
    · have h4 := Checked.cat hd hn (name := "site_cond") (by mem_tac) hs ht
      simp only [cls, Scenario.num_of h1, Scenario.num_of h2,
        Scenario.getAttr_of h4, Py.pure_bind', Val.isStr_str]
      rfl
    · have h4 := Checked.cat_other hd hn (name := "site_cond") (by mem_tac) hs ht
      have hne : ¬ t = "soil" := by rintro rfl; simp at hs
      simp only [cls, Scenario.num_of h1, Scenario.num_of h2,
        Scenario.getAttr_of h4, Py.pure_bind', Lit.toVal, Val.isStr_none]
      simp [hne]

end AS96

namespace KS06

/-- construction from a scenario that has the three numbers -/
theorem gives (s : Scenario) {m r v : ℝ} (hm : s.get "mag" = .num m)
    (hr : s.get "dist_rup" = .num r) (hv : s.get "v_s30" = .num v) :
    Gives cls s (out (F.ofReal m) (F.ofReal r) (F.ofReal v)) := by
  apply gives_of (by decide +kernel) rfl
  · simp only [cls, Decls.ks06, List.forall_mem_cons]
    exact ⟨pass_num hm, pass_num hr, pass_num hv, fun _ h => by simp at h⟩
  · intro d hd
    have hn : (Decls.ks06.map Param.name).Nodup := by decide +kernel
    have h1 := Checked.num hd hn (name := "mag") (by mem_tac) hm
    have h2 := Checked.num hd hn (name := "dist_rup") (by mem_tac) hr
    have h3 := Checked.num hd hn (name := "v_s30") (by mem_tac) hv
    simp only [cls, Scenario.num_of h1, Scenario.num_of h2, Scenario.num_of h3, Py.pure_bind']
    rfl

end KS06

namespace AS16

/-- the branch for a mechanism string: an unknown string was replaced by `None` -/
def mechFor (t : String) : Mech :=
  if t = "NS" then .ns else if t = "RS" then .rs else if t = "SS" then .ss else .none

/-- construction from a scenario with the numbers, an optional depth and some mechanism
string; the basin model is the global one whatever the string -/
theorem gives (s : Scenario) {m r v : ℝ} {z : Option ℝ} {t : String} (hm : s.get "mag" = .num m)
    (hr : s.get "dist_rup" = .num r) (hv : s.get "v_s30" = .num v)
    (hz : s.get "depth_1_0" = Val.ofOpt z) (ht : s.get "mechanism" = .str t) :
    Gives cls s (out (mechFor t) (F.ofReal m) (F.ofReal r) (F.ofReal v) (z.map F.ofReal) false) := by
  apply gives_of (by decide +kernel) rfl
  · simp only [cls, Decls.as16, List.forall_mem_cons]
    exact ⟨pass_num hm, pass_num hr, pass_num hv, pass_cat ht, pass_opt hz, fun _ h => by simp at h⟩
  · intro d hd
    have hn : (Decls.as16.map Param.name).Nodup := by decide +kernel
    have h1 := Checked.num hd hn (name := "mag") (by mem_tac) hm
    have h2 := Checked.num hd hn (name := "dist_rup") (by mem_tac) hr
    have h3 := Checked.num hd hn (name := "v_s30") (by mem_tac) hv
    have h4 := Checked.opt hd hn (name := "depth_1_0") (by mem_tac) hz
    by_cases hs : t ∈ ["SS", "NS", "RS"]
    · have h5 := Checked.cat hd hn (name := "mechanism") (by mem_tac) hs ht
      simp only [cls, Scenario.num_of h1, Scenario.num_of h2, Scenario.num_of h3,
        Scenario.optNum_ofOpt h4, Scenario.getAttr_of h5, Py.pure_bind']
      simp only [List.mem_cons, List.not_mem_nil, or_false] at hs
      rcases hs with rfl | rfl | rfl <;> simp [mechOf, mechFor]
    · have h5 := Checked.cat_other hd hn (name := "mechanism") (by mem_tac) hs ht
      simp only [cls, Scenario.num_of h1, Scenario.num_of h2, Scenario.num_of h3,
        Scenario.optNum_ofOpt h4, Scenario.getAttr_of h5, Py.pure_bind', Lit.toVal]
      simp only [List.mem_cons, List.not_mem_nil, or_false, not_or] at hs
      simp [mechOf, mechFor, hs]

end AS16
