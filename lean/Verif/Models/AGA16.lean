import Verif.Compute
import Verif.Decls
import Verif.Interp
import Verif.GMMClasses

/-! # Abrahamson, Gregor & Addo (2016) and Coppersmith & Bommer (2014):
src/pygmm/abrahamson_gregor_addo_2016.py, src/pygmm/coppersmith_bommer_2014.py -/

namespace AGA16
noncomputable section

/-- the three cases of `s.event_type`: unknown strings have become `None` -/
inductive Ev
  | intraslab | interface | other
deriving DecidableEq

/-- `event_type` -/
def evOf (v : Val) : Ev :=
  if v.isStr "intraslab" then .intraslab else if v.isStr "interface" then .interface else .other

/-- the argument `adjust_c1` of the constructor: `None`, a float, or an array -/
inductive Adjust
  | default
  | scalar (x : ℝ)
  | array (l : List ℝ)

/-- lines 65-74 of abrahamson_gregor_addo_2016.py: `np.interp(log(max(0.01, T)), log([...]), [...])`
(the `left`/`right` values are the end values) -/
def adjustInterface (T : ℚ) : F :=
  npInterpF [(Real.log 0.3, 0.2), (Real.log 0.5, 0.1), (Real.log 1, 0), (Real.log 2, -0.1),
    (Real.log 3, -0.2)] (F.log (F.max 0.01 T))

/-- lines 63-80: `_adjust_c1`, one value per row.  An array of another length than the table
is taken to fail to broadcast (`ValueError`); length 1 would broadcast, which is not modelled. -/
def adjust (periods : List ℚ) (ev : Ev) : Adjust → Py (List F)
  | .default => pure (if ev = .intraslab then periods.map fun _ => -0.3
      else periods.map adjustInterface)
  | .scalar x => pure (periods.map fun _ => F.ofReal x)
  | .array l => if l.length = periods.length then pure (l.map F.ofReal)
      else Py.raise (.valueError "broadcast")

/-- lines 144-162: `_calc_f_mag`, one row (the code selects the slope, here the product) -/
def fMag (t4 t5 t13 : ℚ) (adj mag : F) : F :=
  F.iteLe mag (7.8 + adj) (t4 * (mag - (7.8 + adj))) (t5 * (mag - (7.8 + adj)))
    + t13 * (10 - mag) ^ 2

/-- lines 206-234: `_calc_f_site`, one row; `none` is the call with `pga_ref = nan` (a `nan`
that arises from undefined inputs gives undefined results at every row in any case). -/
def fSite (vLin b n c t12 : ℚ) (vs30 : F) : Option F → F
  | none =>
    let r := F.min 1000 1000 / vLin
    F.iteLt 1000 vLin F.nan ((t12 + b * n) * F.log r)
  | some p =>
    let r := F.min vs30 1000 / vLin
    F.iteLt vs30 vLin
      (t12 * F.log r - b * F.log (p + c) + b * F.log (p + c * r ^ (n : F)))
      ((t12 + b * n) * F.log r)

/-- lines 182-204: `_calc_f_faba`, one row -/
def fFaba (c : Row) (ev : Ev) (dist : F) : F :=
  if ev = .intraslab then c.t_7 + c.t_8 * F.log (F.max dist 85 / 40)
  else c.t_15 + c.t_16 * F.log (F.max dist 100 / 40)

/-- lines 164-180: `_calc_f_depth`, one row -/
def fDepth (c : Row) (depth : F) : F := c.t_11 * (F.min depth 120 - 60)

/-- what `_calc_ln_resp` needs besides row, `adjust_c1` and `pga_ref`; `depth` is used for
intraslab events only -/
structure In where
  ev : Ev
  backarc : Bool
  mag : F
  dist : F
  depth : F
  vs30 : F
  scale : F

/-- lines 101-142: `_calc_ln_resp`, one row -/
def lnResp (c : Row) (adj : F) (i : In) (pgaRef : Option F) : F :=
  let fEvent : F := if i.ev = .intraslab then 1 else 0
  let pathAtten := (c.t_2 + c.t_14 * fEvent + c.t_3 * (i.mag - 7.8)) *
    F.log (i.dist + c.c_4 * F.exp (c.t_9 * (i.mag - 6)))
  c.t_1 + c.t_4 * adj + pathAtten + i.scale * c.t_6 * i.dist + c.t_10 * fEvent
    + fMag c.t_4 c.t_5 c.t_13 adj i.mag
    + fSite c.v_lin c.b c.n c.c c.t_12 i.vs30 pgaRef
    + (if i.backarc then fFaba c i.ev i.dist else 0)
    + (if i.ev = .intraslab then fDepth c i.depth else 0)

/-- `np.exp(self._calc_ln_resp(np.nan)[0])` (line 85) -/
def pgaRef (adj : List F) (i : In) : F :=
  F.exp ((List.zipWith (fun c a => lnResp c a i none) table adj).getD 0 F.nan)

/-- lines 236-248: `_calc_ln_std`, one row -/
def lnStd (c : Row) : F := F.sqrt ((c.phi : F) ^ 2 + (c.tau : F) ^ 2)

/-- what the constructor leaves: predictions, and the adjustments as stored (lines 90-99) -/
structure Out where
  gmm : GmmOut
  adjustC1 : List F
  adjustC4 : ℝ
  scaleAtten : ℝ

/-- lines 85-87 -/
def out (adj : List F) (i : In) : GmmOut :=
  ⟨List.zipWith (fun c a => lnResp c a i (some (pgaRef adj i))) table adj, some (table.map lnStd)⟩

/-- lines 139-140: the depth, read for intraslab events only -/
def depthOf (s : Scenario) (ev : Ev) : Py F :=
  if ev = .intraslab then s.num "depth_hyp" else pure 0

/-- lines 136-137 with 197-202: the backarc term of an event that is neither intraslab nor
interface is not implemented -/
def backarcOf (ev : Ev) (region : Val) : Py Bool :=
  if region.isStr "backarc" then
    if ev = .other then Py.raise .notImplemented else pure true
  else pure false

/-- lines 55-87: the class, constructed with the given adjustments -/
def cls (adjustC1 : Adjust) (adjustC4 scaleAtten : ℝ) : ModelClass Out where
  params := Decls.aga16
  compute := fun s => do
    let evV ← s.getAttr "event_type"
    let ev := evOf evV
    let adj ← adjust (table.map (·.period)) ev adjustC1
    let dist ← s.num (if ev = .intraslab then "dist_hyp" else "dist_rup")
    let mag ← s.num "mag"
    let region ← s.getAttr "tectonic_region"
    let backarc ← backarcOf ev region
    let depth ← depthOf s ev
    let vs30 ← s.num "v_s30"
    pure ⟨out adj ⟨ev, backarc, mag, dist, depth, vs30, F.ofReal scaleAtten⟩, adj, adjustC4, scaleAtten⟩

end

/-- The scenario has magnitude `m`, velocity `v`, event type `e`, region `r` (`None` or a
string), and the three optional distances and depths `rup`, `hyp`, `z`. -/
structure Source (s : Scenario) (m v : ℝ) (e : String) (r : Option String) (rup hyp z : Option ℝ) :
    Prop where
  mag : s.get "mag" = .num m
  vs30 : s.get "v_s30" = .num v
  event : s.get "event_type" = .str e
  region : s.get "tectonic_region" = (match r with | none => .none | some t => .str t)
  distRup : s.get "dist_rup" = Val.ofOpt rup
  distHyp : s.get "dist_hyp" = Val.ofOpt hyp
  depth : s.get "depth_hyp" = Val.ofOpt z

/-- event case of a string -/
def evFor (e : String) : Ev :=
  if e = "intraslab" then .intraslab else if e = "interface" then .interface else .other

theorem evOf_str (e : String) : evOf (.str e) = evFor e := by simp [evOf, evFor]

/-- the checks pass for every such scenario, and the checked values -/
theorem checked {s : Scenario} {m v : ℝ} {e : String} {r : Option String} {rup hyp z : Option ℝ}
    (h : Source s m v e r rup hyp z) :
    (∀ p ∈ Decls.aga16, Passes s p) ∧ ∀ d, Checked Decls.aga16 s.get d →
      d.get? "mag" = some (.num m) ∧ d.get? "v_s30" = some (.num v) ∧
      (∃ w, d.get? "event_type" = some w ∧ evOf w = evFor e) ∧
      (∃ w, d.get? "tectonic_region" = some w ∧ w.isStr "backarc" = decide (r = some "backarc")) ∧
      d.get? "dist_rup" = some (Val.ofOpt rup) ∧ d.get? "dist_hyp" = some (Val.ofOpt hyp) ∧
      d.get? "depth_hyp" = some (Val.ofOpt z) := by
  constructor
  · simp only [Decls.aga16, List.forall_mem_cons]
    exact ⟨pass_num h.mag, pass_opt h.distRup, pass_opt h.distHyp, pass_opt h.depth,
      pass_num h.vs30, pass_cat h.event, pass_cat_opt, fun _ h => by simp at h⟩
  · intro d hd
    have hn : (Decls.aga16.map Param.name).Nodup := by decide +kernel
    refine ⟨Checked.num hd hn (name := "mag") (by mem_tac) h.mag,
      Checked.num hd hn (name := "v_s30") (by mem_tac) h.vs30, ?_, ?_,
      Checked.opt hd hn (name := "dist_rup") (by mem_tac) h.distRup,
      Checked.opt hd hn (name := "dist_hyp") (by mem_tac) h.distHyp,
      Checked.opt hd hn (name := "depth_hyp") (by mem_tac) h.depth⟩
    · by_cases hs : e ∈ ["interface", "intraslab"]
      · exact ⟨_, Checked.cat hd hn (name := "event_type") (by mem_tac) hs h.event, evOf_str e⟩
      · refine ⟨_, Checked.cat_other hd hn (name := "event_type") (by mem_tac) hs h.event, ?_⟩
        simp only [List.mem_cons, List.not_mem_nil, or_false, not_or] at hs
        simp [evOf, evFor, Lit.toVal, hs]
    · have hr := h.region
      cases r with
      | none =>
        refine ⟨_, Checked.cat_absent hd hn (name := "tectonic_region") (by mem_tac) hr, ?_⟩
        simp [Lit.toVal]
      | some t =>
        by_cases hs : t ∈ ["forearc", "backarc", "unknown"]
        · exact ⟨_, Checked.cat hd hn (name := "tectonic_region") (by mem_tac) hs hr, by simp⟩
        · refine ⟨_, Checked.cat_other hd hn (name := "tectonic_region") (by mem_tac) hs hr, ?_⟩
          simp only [List.mem_cons, List.not_mem_nil, or_false, not_or] at hs
          simp [Lit.toVal, hs]

/-- the inputs of the formulas for such a source -/
noncomputable def input (m v d : ℝ) (e : String) (r : Option String) (z sc : ℝ) : In :=
  ⟨evFor e, r = some "backarc", F.ofReal m, F.ofReal d,
    if evFor e = .intraslab then F.ofReal z else 0, F.ofReal v, F.ofReal sc⟩

/-- Construction succeeds when the distance the event type asks for is given, an intraslab
event comes with its depth, and the event type is known unless the region is not backarc. -/
theorem gives {s : Scenario} {m v d z0 : ℝ} {e : String} {r : Option String} {rup hyp z : Option ℝ}
    (h : Source s m v e r rup hyp z)
    (hd : (if evFor e = .intraslab then hyp else rup) = some d)
    (hz : evFor e = .intraslab → z = some z0)
    (hev : r = some "backarc" → evFor e ≠ .other)
    {a : Adjust} {adj : List F} (c4 sc : ℝ)
    (ha : adjust (table.map (·.period)) (evFor e) a = pure adj) :
    Gives (cls a c4 sc) s ⟨out adj (input m v d e r z0 sc), adj, c4, sc⟩ := by
  obtain ⟨hp, hc⟩ := checked h
  refine gives_of (by change ParamsOk Decls.aga16; decide +kernel) rfl _ _ hp ?_
  intro dd hdd
  obtain ⟨h1, h2, ⟨w, h3, hw⟩, ⟨w', h4, hw'⟩, h5, h6, h7⟩ := hc dd hdd
  have hdist : (⟨dd, []⟩ : Scenario).num (if evFor e = .intraslab then "dist_hyp" else "dist_rup") =
      pure (F.ofReal d) := by
    by_cases hi : evFor e = .intraslab
    · rw [if_pos hi] at hd ⊢; rw [hd] at h6; exact Scenario.num_of h6
    · rw [if_neg hi] at hd ⊢; rw [hd] at h5; exact Scenario.num_of h5
  have hb : backarcOf (evFor e) w' = pure (decide (r = some "backarc")) := by
    unfold backarcOf
    rw [hw']
    by_cases hr : r = some "backarc"
    · simp [hr, hev hr]
    · simp [hr]
  have hdep : depthOf ⟨dd, []⟩ (evFor e) = pure (if evFor e = .intraslab then F.ofReal z0 else 0) := by
    unfold depthOf
    by_cases hi : evFor e = .intraslab
    · rw [if_pos hi, if_pos hi]; rw [hz hi] at h7; exact Scenario.num_of h7
    · rw [if_neg hi, if_neg hi]
  simp only [cls, Scenario.getAttr_of h3, Scenario.getAttr_of h4, Py.pure_bind', hw, ha, hdist,
    Scenario.num_of h1, Scenario.num_of h2, hb, hdep]
  rfl

end AGA16

namespace CoppersmithBommer
noncomputable section

/-- coppersmith_bommer_2014.py lines 59-91 and 93-113: `_calc_ln_resp`, one row -/
def lnResp (c : Row) (adj mag dist vs30 scale : F) (pgaRef : Option F) : F :=
  let pathAtten := (c.t_2 + c.t_3 * (mag - 7.8)) *
    F.log (dist + c.c_4 * F.exp (c.t_9 * (mag - 6)))
  c.t_1 + c.t_4 * adj + pathAtten + scale * c.t_6 * dist
    + AGA16.fMag c.t_4 c.t_5 c.t_13 adj mag
    + AGA16.fSite c.v_lin c.b c.n c.c c.t_12 vs30 pgaRef
    + c.t_16 * F.log (F.max dist 40 / 40)

/-- abrahamson_gregor_addo_2016.py line 85 -/
def pgaRef (adj : List F) (mag dist vs30 scale : F) : F :=
  F.exp ((List.zipWith (fun c a => lnResp c a mag dist vs30 scale none) table adj).getD 0 F.nan)

/-- abrahamson_gregor_addo_2016.py lines 85-87, 236-248 -/
def out (adj : List F) (mag dist vs30 scale : F) : GmmOut :=
  ⟨List.zipWith (fun c a => lnResp c a mag dist vs30 scale (some (pgaRef adj mag dist vs30 scale)))
    table adj,
   some (table.map fun c => F.sqrt ((c.phi : F) ^ 2 + (c.tau : F) ^ 2))⟩

/-- coppersmith_bommer_2014.py lines 51-57: the class -/
def cls (scaleAtten : ℝ) : ModelClass GmmOut where
  params := Decls.coppersmith
  compute := fun s => do
    let evV ← s.getAttr "event_type"
    let adj ← AGA16.adjust (table.map (·.period)) (AGA16.evOf evV) .default
    let mag ← s.num "mag"
    let dist ← s.num "dist_rup"
    let vs30 ← s.num "v_s30"
    pure (out adj mag dist vs30 (F.ofReal scaleAtten))

/-- the default adjustment for an event type -/
def adj (ev : AGA16.Ev) : List F :=
  if ev = .intraslab then (table.map (·.period)).map fun _ => -0.3
  else (table.map (·.period)).map AGA16.adjustInterface

end

/-- construction from the numbers and an event type -/
theorem gives (s : Scenario) {m d v : ℝ} {e : String} (hm : s.get "mag" = .num m)
    (hd : s.get "dist_rup" = .num d) (hv : s.get "v_s30" = .num v)
    (he : s.get "event_type" = .str e) (sc : ℝ) :
    Gives (cls sc) s (out (adj (AGA16.evFor e)) (F.ofReal m) (F.ofReal d) (F.ofReal v) (F.ofReal sc)) := by
  apply gives_of (by change ParamsOk Decls.coppersmith; decide +kernel) rfl
  · simp only [cls, Decls.coppersmith, List.forall_mem_cons]
    exact ⟨pass_num hm, pass_num hd, pass_num hv, pass_cat he, fun _ h => by simp at h⟩
  · intro dd hdd
    have hn : (Decls.coppersmith.map Param.name).Nodup := by decide +kernel
    have h1 := Checked.num hdd hn (name := "mag") (by mem_tac) hm
    have h2 := Checked.num hdd hn (name := "dist_rup") (by mem_tac) hd
    have h3 := Checked.num hdd hn (name := "v_s30") (by mem_tac) hv
    have h4 : ∃ w, dd.get? "event_type" = some w ∧ AGA16.evOf w = AGA16.evFor e := by
      by_cases hs : e ∈ ["interface", "intraslab"]
      · exact ⟨_, Checked.cat hdd hn (name := "event_type") (by mem_tac) hs he, AGA16.evOf_str e⟩
      · refine ⟨_, Checked.cat_other hdd hn (name := "event_type") (by mem_tac) hs he, ?_⟩
        simp only [List.mem_cons, List.not_mem_nil, or_false, not_or] at hs
        simp [AGA16.evOf, AGA16.evFor, Lit.toVal, hs]
    obtain ⟨w, h4, hw⟩ := h4
    simp only [cls, Scenario.num_of h1, Scenario.num_of h2, Scenario.num_of h3,
      Scenario.getAttr_of h4, Py.pure_bind', hw, AGA16.adjust]
    rfl

end CoppersmithBommer
