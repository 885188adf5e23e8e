import Verif.Compute
import Verif.Decls
import Verif.Argmin

/-! # Pinilla-Ramos et al. (2023): src/pygmm/pinilla_ramos_et_al_2023.py -/

/-- the triple that the duration methods of PR23 and PR24 return (pinilla_ramos_et_al_2023.py
lines 312, 335-339, pinilla_ramos_et_al_2024.py lines 656, 695): median, plus and minus one standard
deviation; the constructor keeps it in `_duration`, `_duration_plus_sigma`,
`_duration_minus_sigma` -/
structure DurBand where
  median : F
  plus : F
  minus : F

noncomputable section

/-- `np.isclose(a, b, atol=atol)` for finite numbers, with numpy's `rtol = 1e-5`:
`|a - b| <= atol + rtol * |b|` -/
def IsClose (a b : ℝ) (atol : ℝ := 1e-8) : Prop := |a - b| ≤ atol + 1e-5 * |b|

namespace PR23

/-- pinilla_ramos_et_al_2023.py lines 59-197: one row of `conditional_model` -/
structure Row where
  energy : ℚ
  cmed : ℚ
  a0 : ℚ
  r1x : ℚ
  v1x : ℚ
  stdC : ℚ
  r : ℚ
deriving DecidableEq

/-- pinilla_ramos_et_al_2023.py lines 69-197: `conditional_model` -/
def table : List Row :=
  [⟨0.05, 0, 0, 0, 0, 0, 0⟩,
   ⟨0.10, 0.157, -0.010798, 0.0007, 0.039, 0.156, -0.083⟩,
   ⟨0.15, 0.264, -0.016831, 0.0012, 0.0656, 0.192, 0.022⟩,
   ⟨0.20, 0.342, -0.012831, 0.0014, 0.0852, 0.205, 0.078⟩,
   ⟨0.25, 0.402, 0.002943, 0.0015, 0.1001, 0.206, 0.113⟩,
   ⟨0.30, 0.455, 0.02267, 0.0015, 0.1134, 0.202, 0.137⟩,
   ⟨0.35, 0.505, 0.047579, 0.0014, 0.1259, 0.195, 0.154⟩,
   ⟨0.40, 0.553, 0.076718, 0.0013, 0.1377, 0.187, 0.167⟩,
   ⟨0.45, 0.603, 0.107148, 0.0012, 0.1501, 0.177, 0.178⟩,
   ⟨0.50, 0.654, 0.136351, 0.001, 0.1587, 0.163, 0.188⟩,
   ⟨0.55, 0.71, 0.115442, 0.0008, 0.1365, 0.146, 0.198⟩,
   ⟨0.60, 0.769, 0.092914, 0.0007, 0.1105, 0.125, 0.206⟩,
   ⟨0.65, 0.835, 0.067803, 0.0005, 0.08, 0.097, 0.209⟩,
   ⟨0.70, 0.912, 0.034992, 0.0002, 0.0428, 0.06, 0.204⟩,
   ⟨0.75, 1, 1, 0, 0, 0, 0⟩,
   ⟨0.80, 1.114, -0.044725, -0.0003, -0.0512, 0.089, -0.301⟩,
   ⟨0.85, 1.273, -0.112447, -0.0006, -0.1197, 0.21, -0.361⟩,
   ⟨0.90, 1.522, -0.209689, -0.001, -0.2111, 0.434, -0.403⟩,
   ⟨0.95, 2.014, -0.38092, -0.0015, -0.3589, 0.907, -0.452⟩]

/-- the inputs of the formulas -/
structure In where
  mag : F
  rup : F
  v : F

/-- lines 237-244: `c2`, with the boolean masks multiplied in as 0/1 numbers -/
def c2 (s : In) : F :=
  (0.41 + (0.455 - 0.41) * s.rup / 10) * F.iteLe s.rup 10 1 0
    + (0.455 + (0.54 - 0.455) * (s.rup - 10) / (42 - 10)) * F.iteLt 10 s.rup 1 0
      * F.iteLe s.rup 42 1 0
    + (0.54 + (0.575 - 0.54) * (s.rup - 42) / (200 - 42)) * F.iteLt 42 s.rup 1 0

/-- lines 247-249: `source_term` -/
def source (s : In) : F :=
  3.655 * (10 : F) ^ ((s.mag - 6.75) * 0.515) * F.iteLt s.mag 6.75 1 0
    + 3.655 * (10 : F) ^ ((s.mag - 6.75) * c2 s) * F.iteLe 6.75 s.mag 1 0

/-- lines 252-255: `path_term` -/
def path (s : In) : F :=
  0.041 * s.rup
    + F.iteLt s.rup 44 1 0 * (0.063 * s.rup)
    + F.iteLe 44 s.rup 1 0 * F.iteLt s.rup 130 1 0 * (0.063 * 44 + 0.034 * (s.rup - 44))
    + F.iteLe 130 s.rup 1 0 * (0.063 * 44 + 0.034 * (130 - 44) + 0.083 * (s.rup - 130))

/-- lines 258-277: `sigma_vs30` -/
def sigmaVs30 (s : In) : F :=
  F.iteLt s.v 2000 1 0 * F.iteLe (2000 * 0.95) s.v 1 0 * 0.565 * (F.log 2000 - F.log s.v)
      / (F.log 2000 - F.log (2000 * 0.95))
    + F.iteLt s.v (2000 * 0.95) 1 0 * F.iteLe 275 s.v 1 0 * 0.565
    + F.iteLt s.v 275 1 0 * F.iteLe 200 s.v 1 0
      * (0.565 + (1.11 - 0.565) * (F.log 275 - F.log s.v) / (F.log 275 - F.log 200))
    + F.iteLt s.v 200 1 0 * 1.11

/-- line 279: `site_term` -/
def site (s : In) : F := -0.619 * F.log (s.v / 2000) * F.exp (0.278 * sigmaVs30 s)

/-- line 282: `median` -/
def median (s : In) : F := source s + path s + site s

/-- lines 285-305: `sigma` -/
def sigma (s : In) : F :=
  0.537 + -0.093 * (s.rup / 100) + 0.0278 * (s.rup / 100) ^ 2 + -0.0372 * s.mag
    + 0.00179 * s.mag ^ 2 + F.min (0.0206 * (200 / s.v) ^ (2.401 : F)) 0.0419

/-- lines 307-312: the base model -/
def base (s : In) : DurBand where
  median := median s
  plus := (median s ^ (0.3 : F) + sigma s) ^ (1 / 0.3 : F)
  minus := (median s ^ (0.3 : F) - sigma s) ^ (1 / 0.3 : F)

/-- line 322: `c_model` -/
def cModel (c : Row) (s : In) : F := c.cmed + c.a0 + c.r1x * s.rup + c.v1x * F.log (s.v / 2000)

/-- lines 324-330: `sigma_cond` -/
def sigmaCond (c : Row) (s : In) : F :=
  let dAlpha := cModel c s ^ (0.3 : F)
  let dC := median s ^ (0.3 : F) * 0.3 * cModel c s ^ (0.3 - 1 : F)
  F.sqrt ((dAlpha * sigma s) ^ 2 + (dC * c.stdC) ^ 2 + 2 * c.r * dAlpha * dC * sigma s * c.stdC)

/-- lines 332-338: the conditional model -/
def condBand (c : Row) (s : In) : DurBand where
  median := cModel c s * median s
  plus := ((cModel c s * median s) ^ (0.3 : F) + sigmaCond c s) ^ (1 / 0.3 : F)
  minus := ((cModel c s * median s) ^ (0.3 : F) - sigmaCond c s) ^ (1 / 0.3 : F)

/-- lines 316-319: the selected row -/
def rowFor (energy : ℝ) : Option Row :=
  table[argmin (table.map fun c => F.abs (c.energy - F.ofReal energy))]?

open Classical in
/-- lines 307-338: `_calc_duration` for numeric inputs; the index is always in range -/
def band (s : In) (energy : ℝ) : DurBand :=
  if IsClose energy 0.75 then base s
  else match rowFor energy with
    | some c => condBand c s
    | none => ⟨F.nan, F.nan, F.nan⟩

/-- lines 200-203: the scenario as `_calc_duration` reads it (the reshaping of lines 206-214 does
nothing for single numbers) -/
def read (s : Scenario) : Py In := do
  let mag ← s.num "mag"
  let rup ← s.num "dist_rup"
  let v ← s.num "v_s30"
  pure ⟨mag, rup, v⟩

/-- lines 45-338: `_calc_duration` -/
def calcDuration (s : Scenario) (energy : ℝ) : Py DurBand := do
  let i ← read s
  pure (band i energy)

/-- lines 36-43: the class -/
def cls : ModelClass DurBand where
  params := Decls.pr23
  compute := fun s => calcDuration s 0.75

open Classical in
/-- lines 356-380: `duration_for_energy` of a constructed model -/
def durationForEnergy (m : Instance DurBand) (energy : ℝ) : Py DurBand :=
  if energy < 0.10 ∨ 0.95 < energy then Py.raise (.valueError "energy")
  else calcDuration m.scenario energy

end PR23
end

/-- Construction with the instance in view: every computation that only reads the checked
dictionary gives on the instance's scenario what it gives on the checked dictionary. -/
theorem inst_of {Out : Type} {C : ModelClass Out} (hC : ParamsOk C.params)
    (hfill : C.fill = fun s => pure s) (s : Scenario) (o : Out)
    (hpass : ∀ p ∈ C.params, Passes s p)
    (hcomp : ∀ d, Checked C.params s.get d → (C.compute ⟨d, []⟩).res = .ok o) :
    ∃ inst d, (C.new s).res = .ok inst ∧ inst.out = o ∧ inst.scenario = ⟨d, []⟩ ∧
      Checked C.params s.get d := by
  obtain ⟨d, hd⟩ := C05_checks_pass (ps := C.params) s hpass
  refine ⟨⟨⟨d, []⟩, o⟩, d, ?_, rfl, rfl, hd⟩
  rw [ModelClass.new, ModelClass.newFrom_eq C hC, Py.bind_res_ok hd, hfill]
  rw [Py.pure_bind', Py.bind_res_ok (hcomp d hd)]
  rfl

namespace PR23

theorem calc_of (s : Scenario) {m r v : ℝ} (hm : s.get "mag" = .num m)
    (hr : s.get "dist_rup" = .num r) (hv : s.get "v_s30" = .num v) {d : Dict}
    (hd : Checked Decls.pr23 s.get d) (e : ℝ) :
    calcDuration ⟨d, []⟩ e = pure (band ⟨F.ofReal m, F.ofReal r, F.ofReal v⟩ e) := by
  have hn : (Decls.pr23.map Param.name).Nodup := by decide +kernel
  have h1 := Checked.num hd hn (name := "mag") (by mem_tac) hm
  have h2 := Checked.num hd hn (name := "dist_rup") (by mem_tac) hr
  have h3 := Checked.num hd hn (name := "v_s30") (by mem_tac) hv
  simp only [calcDuration, read, Scenario.num_of h1, Scenario.num_of h2, Scenario.num_of h3,
    Py.pure_bind']

/-- construction from a scenario that has the three numbers, and what the instance's methods
return -/
theorem built (s : Scenario) {m r v : ℝ} (hm : s.get "mag" = .num m)
    (hr : s.get "dist_rup" = .num r) (hv : s.get "v_s30" = .num v) :
    ∃ inst, (cls.new s).res = .ok inst ∧
      inst.out = band ⟨F.ofReal m, F.ofReal r, F.ofReal v⟩ 0.75 ∧
      ∀ e, calcDuration inst.scenario e = pure (band ⟨F.ofReal m, F.ofReal r, F.ofReal v⟩ e) := by
  obtain ⟨i, d, h1, h2, h3, h4⟩ := inst_of (C := cls) (by decide +kernel) rfl s
    (band ⟨F.ofReal m, F.ofReal r, F.ofReal v⟩ 0.75)
    (by
      simp only [cls, Decls.pr23, List.forall_mem_cons]
      exact ⟨pass_num hm, pass_num hr, pass_num hv, fun _ h => by simp at h⟩)
    (by
      intro d hd
      change (calcDuration ⟨d, []⟩ 0.75).res = _
      rw [calc_of s hm hr hv hd]; rfl)
  exact ⟨i, h1, h2, fun e => by rw [h3, calc_of s hm hr hv h4]⟩

end PR23
