import Verif.Compute
import Verif.Decls
import Verif.GMMClasses

/-! # Akkar, Sandıkkaya & Bommer (2014): src/pygmm/akkar_sandikkaya_bommer_2014.py -/

namespace AKB14
noncomputable section

/-- the three cases lines 84-87 distinguish -/
inductive Mech
  | ns | rs | other
deriving DecidableEq

/-- lines 84-87 -/
def mechOf (v : Val) : Mech :=
  if v.isStr "NS" then .ns else if v.isStr "RS" then .rs else .other

/-- lines 84-87: the mechanism term of one row -/
def fMech (c : Row) : Mech → F
  | .ns => c.a_8
  | .rs => c.a_9
  | .other => 0

/-- lines 75-87: `ln_resp_ref`, one row -/
def lnRef (c : Row) (mag dist : F) (mech : Mech) : F :=
  c.a_1 + c.a_3 * (8.5 - mag) ^ 2 +
    (c.a_4 + c.a_5 * (mag - c.c_1)) * F.log (F.sqrt (dist ^ 2 + (c.a_6 : F) ^ 2)) +
    F.iteLe mag c.c_1 (c.a_2 * (mag - c.c_1)) (c.a_7 * (mag - c.c_1)) + fMech c mech

/-- lines 92-98: the site term, one row -/
def site (c : Row) (vs30 pgaRef : F) : F :=
  let vsRatio := vs30 / 750
  F.iteLe vs30 750
    (c.b_1 * F.log vsRatio + c.b_2 * F.log
      ((pgaRef + c.c * vsRatio ^ (c.n : F)) / ((pgaRef + c.c) * vsRatio ^ (c.n : F))))
    (c.b_1 * F.log (F.min vs30 c.v_con / 750))

/-- line 89: the reference peak acceleration, from row `INDEX_PGA = 0` -/
def pgaRef (tbl : List Row) (mag dist : F) (mech : Mech) : F :=
  F.exp ((tbl.map fun c => lnRef c mag dist mech).getD 0 F.nan)

/-- lines 75-101 with the table in force: `_ln_resp` and `_ln_std` -/
def out (tbl : List Row) (mag dist vs30 : F) (mech : Mech) : GmmOut :=
  ⟨tbl.map fun c => lnRef c mag dist mech + site c vs30 (pgaRef tbl mag dist mech),
   some (tbl.map fun c => (c.sd_total : F))⟩

open Classical in
/-- lines 66-72: the first of `dist_jb`, `dist_hyp`, `dist_epi` that is not `None`, with the
coefficient table of the same name; `NotImplementedError` if there is none -/
def choose (jbV hypV epiV : Val) : Py (Val × List Row) :=
  if jbV ≠ .none then pure (jbV, jb)
  else if hypV ≠ .none then pure (hypV, hyp)
  else if epiV ≠ .none then pure (epiV, epi)
  else Py.raise .notImplemented

/-- lines 61-101: the class.  `s[k]` cannot fail for the three declared distances; the keys
are read together here, in the code one after the other. -/
def cls : ModelClass GmmOut where
  params := Decls.akb14
  compute := fun s => do
    let jbV ← s.getAttr "dist_jb"
    let hypV ← s.getAttr "dist_hyp"
    let epiV ← s.getAttr "dist_epi"
    let p ← choose jbV hypV epiV
    let mag ← s.num "mag"
    let dist ← p.1.toF
    let mech ← s.getAttr "mechanism"
    let vs30 ← s.num "v_s30"
    pure (out p.2 mag dist vs30 (mechOf mech))

end

/-- mechanism case of a string: strings outside the options become `None` -/
def mechFor (t : String) : Mech := if t = "NS" then .ns else if t = "RS" then .rs else .other

/-- specification of the precedence: metric in force and its table -/
def spec : Option ℝ → Option ℝ → Option ℝ → Option (ℝ × List Row)
  | some d, _, _ => some (d, jb)
  | none, some d, _ => some (d, hyp)
  | none, none, some d => some (d, epi)
  | none, none, none => none

theorem choose_ofOpt (a b c : Option ℝ) :
    choose (Val.ofOpt a) (Val.ofOpt b) (Val.ofOpt c) =
      match spec a b c with
      | some p => pure (.num p.1, p.2)
      | none => Py.raise .notImplemented := by
  cases a <;> cases b <;> cases c <;> simp [choose, spec, Val.ofOpt]

/-- all scenarios with numbers, a mechanism string and any combination of distances pass
the checks; what is then computed -/
theorem passes (s : Scenario) {m v : ℝ} {t : String} {a b c : Option ℝ}
    (hm : s.get "mag" = .num m) (hv : s.get "v_s30" = .num v)
    (ht : s.get "mechanism" = .str t) (ha : s.get "dist_jb" = Val.ofOpt a)
    (hb : s.get "dist_hyp" = Val.ofOpt b) (hc : s.get "dist_epi" = Val.ofOpt c) :
    (∀ p ∈ cls.params, Passes s p) ∧ ∀ d, Checked cls.params s.get d →
      cls.compute ⟨d, []⟩ = match spec a b c with
        | some p => pure (out p.2 (F.ofReal m) (F.ofReal p.1) (F.ofReal v) (mechFor t))
        | none => Py.raise .notImplemented := by
  constructor
  · simp only [cls, Decls.akb14, List.forall_mem_cons]
    exact ⟨pass_opt ha, pass_opt hc, pass_opt hb, pass_num hm, pass_num hv, pass_cat ht,
      fun _ h => by simp at h⟩
  · intro d hd
    have hn : (Decls.akb14.map Param.name).Nodup := by decide +kernel
    have h1 := Checked.num hd hn (name := "mag") (by mem_tac) hm
    have h2 := Checked.num hd hn (name := "v_s30") (by mem_tac) hv
    have h3 := Checked.opt hd hn (name := "dist_jb") (by mem_tac) ha
    have h4 := Checked.opt hd hn (name := "dist_hyp") (by mem_tac) hb
    have h5 := Checked.opt hd hn (name := "dist_epi") (by mem_tac) hc
    have h6 : ∃ w, d.get? "mechanism" = some w ∧ mechOf w = mechFor t := by
      by_cases hs : t ∈ ["SS", "NS", "RS"]
      · exact ⟨_, Checked.cat hd hn (name := "mechanism") (by mem_tac) hs ht, by
          simp [mechOf, mechFor]⟩
      · refine ⟨_, Checked.cat_other hd hn (name := "mechanism") (by mem_tac) hs ht, ?_⟩
        simp only [List.mem_cons, List.not_mem_nil, or_false, not_or] at hs
        simp [mechOf, mechFor, Lit.toVal, hs]
    obtain ⟨w, h6, hw⟩ := h6
    simp only [cls, Scenario.num_of h1, Scenario.num_of h2, Scenario.getAttr_of h3,
      Scenario.getAttr_of h4, Scenario.getAttr_of h5, Scenario.getAttr_of h6, Py.pure_bind',
      choose_ofOpt, hw]
    cases spec a b c with
    | none => rfl
    | some p => simp only [Py.pure_bind', Val.toF]

theorem gives (s : Scenario) {m v : ℝ} {t : String} {a b c : Option ℝ} {p : ℝ × List Row}
    (hm : s.get "mag" = .num m) (hv : s.get "v_s30" = .num v)
    (ht : s.get "mechanism" = .str t) (ha : s.get "dist_jb" = Val.ofOpt a)
    (hb : s.get "dist_hyp" = Val.ofOpt b) (hc : s.get "dist_epi" = Val.ofOpt c)
    (hp : spec a b c = some p) :
    Gives cls s (out p.2 (F.ofReal m) (F.ofReal p.1) (F.ofReal v) (mechFor t)) := by
  obtain ⟨h1, h2⟩ := passes s hm hv ht ha hb hc
  apply gives_of (by change ParamsOk Decls.akb14; decide +kernel) rfl _ _ h1
  intro d hd
  rw [h2 d hd, hp]; rfl

end AKB14
