import Verif.Compute
import Verif.Decls
import Verif.Interp
import Verif.Data.GA11

/-! # Gülerce & Abrahamson (2011): src/pygmm/gulerce_abrahamson_2011.py -/

namespace GA11
noncomputable section

/-- the three mechanisms the code distinguishes (lines 162-165): RS, NS, anything else -/
inductive Mech
  | rs | ns | other
deriving DecidableEq

/-- `_ln_ratio` and `_ln_std` -/
structure Out where
  lnRatio : List F
  lnStd : List F

/-- lines 133-149: `v_1`, by period -/
def v1 (T : ℚ) : F :=
  if T < 0 then 862
  else if T ≤ 0.5 then 1500
  else if T ≤ 1 then F.exp (8 - 0.795 * F.log (F.max 0.001 T / 0.21))
  else if T ≤ 2 then F.exp (6.76 - 0.297 * F.log (F.max 0.001 T))
  else if T ≤ 10 then 700
  else 0

/-- lines 121-131: magnitude and distance scaling -/
def f1 (c : Row) (mag distRup : F) : F :=
  let dist := F.sqrt (distRup ^ 2 + (c.c4 : F) ^ 2)
  c.a1 + c.a8 * (8.5 - mag) ^ 2 + (c.a2 + c.a3 * (mag - c.c1)) * F.log dist
    + F.iteLt mag c.c1 (c.a4 * (mag - c.c1)) (c.a5 * (mag - c.c1))

/-- lines 150-159: site model -/
def f5 (c : Row) (vs30 pgaRef : F) : F :=
  let lim := F.min vs30 (v1 c.period)
  let vsRatio := lim / c.v_lin
  c.a10 * F.log vsRatio - F.iteLt lim c.v_lin
    (-c.b * F.log (pgaRef + c.c) + c.b * F.log (pgaRef + c.c * vsRatio ^ (c.n : F)))
    (c.b * c.n * F.log vsRatio)

/-- lines 162-165 -/
def fMech (c : Row) : Mech → F
  | .rs => c.a6
  | .ns => c.a7
  | .other => 0

/-- lines 117-167: `_calc_ln_ratio`, one row -/
def lnRatio (c : Row) (mag dist vs30 pgaRef : F) (mech : Mech) : F :=
  f1 c mag dist + f5 c vs30 pgaRef + fMech c mech

/-- lines 169-183: `np.select([mag < 5, mag <= 7, True], [lo, lo + 0.5*(hi - lo)*(mag - 5), hi])` -/
def stdPart (lo hi : ℚ) (mag : F) : F :=
  F.iteLt mag 5 lo (F.iteLe mag 7 (lo + 0.5 * (hi - lo) * (mag - 5)) hi)

/-- lines 185-189: `_calc_ln_std`, one row -/
def lnStd (c : Row) (mag : F) : F :=
  let between := stdPart c.s3 c.s4 mag
  let within := stdPart c.s1 c.s2 mag
  F.sqrt (between ^ 2 + within ^ 2)

/-- what the constructor leaves for numeric inputs -/
def out (mag dist vs30 pgaRef : F) (mech : Mech) : Out :=
  ⟨table.map fun c => lnRatio c mag dist vs30 pgaRef mech, table.map fun c => lnStd c mag⟩

/-- lines 162-165 -/
def mechOf (v : Val) : Mech :=
  if v.isStr "RS" then .rs else if v.isStr "NS" then .ns else .other

/-- lines 50-54: `if "pga_ref" not in scenario: …` -/
def ensurePgaRef (fallback : Scenario → Py Scenario) (s : Scenario) : Py Scenario :=
  if "pga_ref" ∈ s.data.keys then pure s else fallback s

/-- lines 46-57: the class, with the code of lines 50-54 as a parameter (`fallback`) -/
def clsWith (fallback : Scenario → Py Scenario) : ModelClass Out where
  params := Decls.ga11
  compute := fun s => do
    let s ← ensurePgaRef fallback s
    let dist ← s.num "dist_rup"
    let mag ← s.num "mag"
    let vs30 ← s.num "v_s30"
    let pgaRef ← s.num "pga_ref"
    let mech ← s.getAttr "mechanism"
    pure (out mag dist vs30 pgaRef (mechOf mech))

/-- the shipped class.  Line 51 passes the scenario as a positional argument to
`Scenario.__init__`, which takes none: `TypeError` (if the line were ever reached). -/
def cls : ModelClass Out := clsWith fun _ => Py.raise .typeError

/-- the rows of `INDICES_PSA` (line 36) -/
def psaRows : List Row := table.drop 2

/-- lines 67-90: `interp_ratio` at one period -/
def interpRatio (o : Out) (T : F) : F :=
  F.exp (npInterpF (List.zip (psaRows.map fun c => Real.log c.period) (o.lnRatio.drop 2)) (F.log T))

/-- lines 92-115: `interp_ln_std` at one period -/
def interpLnStd (o : Out) (T : F) : F :=
  F.exp (npInterpF (List.zip (psaRows.map fun c => Real.log c.period) (o.lnStd.drop 2)) (F.log T))

end

/-- mechanism branch for a string; unknown strings become `None` -/
def mechFor (t : String) : Mech := if t = "RS" then .rs else if t = "NS" then .ns else .other

/-- construction from the four numbers and some mechanism string -/
theorem gives (s : Scenario) {m r v p : ℝ} {t : String} (hm : s.get "mag" = .num m)
    (hr : s.get "dist_rup" = .num r) (hv : s.get "v_s30" = .num v)
    (hp : s.get "pga_ref" = .num p) (ht : s.get "mechanism" = .str t) :
    Gives cls s (out (F.ofReal m) (F.ofReal r) (F.ofReal v) (F.ofReal p) (mechFor t)) := by
  apply gives_of (by change ParamsOk Decls.ga11; decide +kernel) rfl
  · simp only [cls, clsWith, Decls.ga11, List.forall_mem_cons]
    exact ⟨pass_num hr, pass_num hm, pass_num hv, pass_num hp, pass_cat ht, fun _ h => by simp at h⟩
  · intro d hd
    have hn : (Decls.ga11.map Param.name).Nodup := by decide +kernel
    have h1 := Checked.num hd hn (name := "mag") (by mem_tac) hm
    have h2 := Checked.num hd hn (name := "dist_rup") (by mem_tac) hr
    have h3 := Checked.num hd hn (name := "v_s30") (by mem_tac) hv
    have h4 := Checked.num hd hn (name := "pga_ref") (by mem_tac) hp
    have hk : "pga_ref" ∈ d.keys := (Dict.mem_keys_iff _ _).2 ⟨_, h4⟩
    by_cases hs : t ∈ ["SS", "NS", "RS"]
    · have h5 := Checked.cat hd hn (name := "mechanism") (by mem_tac) hs ht
      simp only [cls, clsWith, ensurePgaRef, hk, if_true, Scenario.num_of h1, Scenario.num_of h2, Scenario.num_of h3,
        Scenario.num_of h4, Scenario.getAttr_of h5, Py.pure_bind', mechOf, Val.isStr_str]
      simp [mechFor]
    · have h5 := Checked.cat_other hd hn (name := "mechanism") (by mem_tac) hs ht
      simp only [cls, clsWith, ensurePgaRef, hk, if_true, Scenario.num_of h1, Scenario.num_of h2, Scenario.num_of h3,
        Scenario.num_of h4, Scenario.getAttr_of h5, Py.pure_bind', Lit.toVal, mechOf, Val.isStr_none]
      simp only [List.mem_cons, List.not_mem_nil, or_false, not_or] at hs
      simp [mechFor, hs]

end GA11
