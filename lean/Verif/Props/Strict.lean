import Verif.Strict
import Verif.Props.Warnings
import Verif.Props.Success

/-!
# C134: constructions when warnings are errors
-/

set_option linter.unusedSimpArgs false

open Spec

/-- what happens next after a first step -/
def Spec.andThen {α β : Type} (x : Outcome α) (f : α → Outcome β) : Outcome β :=
  match x with
  | .value a => f a
  | .raised e => .raised e
  | .warned e => .warned e

/-- C134: the reading of the filter is the right one, step by step: a warning raises, and what raises ends the computation. -/
theorem C134_semantics {α β : Type} (x : Py α) (f : α → Py β) (a : α) (e : Event) (he : e.isWarning = true) (r : PyErr) :
    (x >>= f).strict = Spec.andThen x.strict (fun a => (f a).strict) ∧ (pure a : Py α).strict = .value a ∧
      (Py.raise r : Py α).strict = .raised r ∧ (Py.warn e).strict = .warned e := by
  refine ⟨?_, rfl, rfl, ?_⟩
  · cases h : x.res with
    | error r =>
      have e1 : (x >>= f).log = x.log := by show (Py.bind x f).log = _; unfold Py.bind; rw [h]
      have e2 : (x >>= f).res = .error r := by show (Py.bind x f).res = _; unfold Py.bind; rw [h]
      unfold Py.strict
      rw [e1, e2, h]
      cases x.log.find? Event.isWarning <;> rfl
    | ok a =>
      have e1 : (x >>= f).log = x.log ++ (f a).log := Py.bind_log_ok h f
      have e2 : (x >>= f).res = (f a).res := by show (Py.bind x f).res = _; unfold Py.bind; rw [h]
      unfold Py.strict
      rw [e1, e2, h, List.find?_append]
      cases x.log.find? Event.isWarning <;> rfl
  · simp [Py.strict, he]

namespace Strict

theorem bind_strict {α β : Type} (x : Py α) (f : α → Py β) : (x >>= f).strict = Spec.andThen x.strict (fun a => (f a).strict) := by
  cases h : x.res with
  | error r =>
    have e1 : (x >>= f).log = x.log := by show (Py.bind x f).log = _; unfold Py.bind; rw [h]
    have e2 : (x >>= f).res = .error r := by show (Py.bind x f).res = _; unfold Py.bind; rw [h]
    unfold Py.strict
    rw [e1, e2, h]
    cases x.log.find? Event.isWarning <;> rfl
  | ok a => exact (C134_semantics x f a (.usingDefault "") rfl .typeError).1

theorem reports_warn (p : Param) (v : Val) : ∀ e ∈ reports p v, e.isWarning = true := by
  intro e he
  unfold reports at he
  cases hk : p.kind with
  | numeric mn mx =>
    rw [hk] at he
    cases ha : asNumber v with
    | none => simp [ha] at he
    | some x =>
      simp only [ha] at he
      split at he
      · rw [List.mem_singleton.1 he]; rfl
      · split at he
        · rw [List.mem_singleton.1 he]; rfl
        · simp at he
  | categorical opts =>
    simp only [hk] at he
    split at he
    · simp at he
    · rcases List.mem_cons.1 he with rfl | he
      · rfl
      · rw [List.mem_singleton.1 he]; rfl

theorem all_warn {ps : List Param} {s : Scenario} : ∀ e ∈ allReports ps s, e.isWarning = true := by
  intro e he
  obtain ⟨p, -, h⟩ := List.mem_flatMap.1 he
  exact reports_warn p _ e h

/-- a log of warnings followed by notices -/
theorem strict_of_log {α : Type} {x : Py α} {a b : List Event} (h : x.log = a ++ b) (ha : ∀ e ∈ a, e.isWarning = true)
    (hb : ∀ e ∈ b, e.isWarning = false) (v : α) : x.strict = .value v ↔ x.res = .ok v ∧ a = [] := by
  have nb : b.find? Event.isWarning = none := List.find?_eq_none.2 fun e he => by simp [hb e he]
  cases a with
  | nil =>
    unfold Py.strict
    rw [h, List.nil_append, nb]
    cases x.res <;> simp
  | cons e a =>
    unfold Py.strict
    rw [h, List.cons_append, List.find?_cons_of_pos (ha e (by simp))]
    simp

end Strict

open Strict

/-- Under the filter, the construction with these inputs succeeds exactly if it succeeds without the filter and every declared
parameter has a recommended value; the object is the same. -/
def Spec.StrictExactly {Out : Type} (C : ModelClass Out) (ps : List Param) : Prop :=
  ∀ s, Typed ps s → ∀ inst, (C.new s).strict = .value inst ↔ (C.new s).res = .ok inst ∧ AllRecommended ps s

namespace Strict

variable {Out : Type}

theorem silent_iff {name : String} {ps : List Param} (hd : (name, ps) ∈ Decls.all) {s : Scenario} (t : Typed ps s)
    (r : RequiredGiven ps s) : allReports ps s = [] ↔ AllRecommended ps s := by
  refine C119_silent_iff name ps hd s r ?_ ?_
  · intro p hp lo hi hk
    have := t p hp
    unfold TypedAs at this
    rw [hk] at this
    exact this
  · intro p hp opts hk
    have := t p hp
    unfold TypedAs at this
    rw [hk] at this
    rcases this with h | ⟨-, u, -, h⟩ | ⟨-, b, -, h⟩
    · exact .inl h
    · exact .inr (.inl ⟨u, h⟩)
    · exact .inr (.inr ⟨b, h⟩)

theorem exactly {C : ModelClass Out} {name : String} {ps : List Param} (hp : C.params = ps) (hd : (name, ps) ∈ Decls.all)
    (h : ∀ s, Typed ps s → RequiredGiven ps s → ∀ inst, (C.new s).res = .ok inst →
      ∃ n : List Event, (∀ e ∈ n, e.isWarning = false) ∧ (C.new s).log = allReports ps s ++ n) : Spec.StrictExactly C ps := by
  intro s t inst
  subst hp
  have back : (C.new s).strict = .value inst → (C.new s).res = .ok inst := by
    intro h
    unfold Py.strict at h
    cases hf : (C.new s).log.find? Event.isWarning with
    | some e => rw [hf] at h; cases h
    | none =>
      rw [hf] at h
      cases hr : (C.new s).res with
      | ok a => rw [hr] at h; cases h; rfl
      | error e => rw [hr] at h; cases h
  constructor
  · intro hv
    have hok := back hv
    have r := Success.required (Spec.shipped_ok hd) ⟨inst, hok⟩
    obtain ⟨n, hn, e⟩ := h s t r inst hok
    refine ⟨hok, (silent_iff hd t r).1 ?_⟩
    exact ((strict_of_log e all_warn hn inst).1 hv).2
  · rintro ⟨hok, hr⟩
    have r := Success.required (Spec.shipped_ok hd) ⟨inst, hok⟩
    obtain ⟨n, hn, e⟩ := h s t r inst hok
    exact (strict_of_log e all_warn hn inst).2 ⟨hok, (silent_iff hd t r).2 hr⟩

theorem plain {C : ModelClass Out} {name : String} {ps : List Param} (hp : C.params = ps) (hd : (name, ps) ∈ Decls.all)
    (h : ∀ s inst, (C.new s).res = .ok inst → (C.new s).log = allReports ps s) : Spec.StrictExactly C ps :=
  exactly hp hd fun s _ _ inst hi => ⟨[], by simp, by rw [h s inst hi, List.append_nil]⟩

end Strict

/-- C134: for every shipped class and every scenario with values of the declared types. -/
theorem C134_exactly :
    Spec.StrictExactly C03.cls Decls.c03 ∧ Spec.StrictExactly TP05.cls Decls.tp05 ∧ Spec.StrictExactly Pea11.cls Decls.pea11 ∧
    Spec.StrictExactly I14.cls Decls.i14 ∧ Spec.StrictExactly AKB14.cls Decls.akb14 ∧ Spec.StrictExactly AB06.cls Decls.ab06 ∧
    Spec.StrictExactly DBC14.cls Decls.dbc14 ∧ Spec.StrictExactly AS96.cls Decls.as96 ∧ Spec.StrictExactly KS06.cls Decls.ks06 ∧
    Spec.StrictExactly AS16.cls Decls.as16 ∧ Spec.StrictExactly PR23.cls Decls.pr23 ∧ Spec.StrictExactly PR24.cls Decls.pr24 ∧
    Spec.StrictExactly GA11.cls Decls.ga11 ∧ Spec.StrictExactly HKR14.eventCls Decls.hkr14 ∧
    (∀ a c4 sc, Spec.StrictExactly (AGA16.cls a c4 sc) Decls.aga16) ∧
    (∀ sc, Spec.StrictExactly (CoppersmithBommer.cls sc) Decls.coppersmith) ∧
    Spec.StrictExactly ASK14.cls Decls.ask14 ∧ Spec.StrictExactly BA19.cls Decls.ba19 ∧
    Spec.StrictExactly BSSA14.cls Decls.bssa14 ∧ Spec.StrictExactly CY14.cls Decls.cy14 ∧ Spec.StrictExactly CB14.cls Decls.cb14 := by
  refine ⟨plain rfl (name := "Campbell2003") (by all_tac) C119_c03, plain rfl (name := "TavakoliPezeshk05") (by all_tac) C119_tp05,
    plain rfl (name := "PezeshkZandiehTavakoli2011") (by all_tac) C119_pea11, plain rfl (name := "Idriss2014") (by all_tac) C119_i14,
    plain rfl (name := "AkkarSandikkayaBommer2014") (by all_tac) C119_akb14, plain rfl (name := "AtkinsonBoore2006") (by all_tac) C119_ab06,
    plain rfl (name := "DerrasBardCotton2014") (by all_tac) C119_dbc14, plain rfl (name := "AbrahamsonSilva1996") (by all_tac) C119_as96,
    plain rfl (name := "KemptonStewart2006") (by all_tac) C119_ks06, plain rfl (name := "AfshariStewart2016") (by all_tac) C119_as16,
    plain rfl (name := "PinillaRamosEtAl2023") (by all_tac) C119_pr23, plain rfl (name := "PinillaRamosEtAl2024") (by all_tac) C119_pr24,
    plain rfl (name := "GulerceAbrahamson2011") (by all_tac) C119_ga11, plain rfl (name := "HermkesKuehnRiggelsen2014") (by all_tac) C119_hkr14,
    fun a c4 sc => plain rfl (name := "AbrahamsonGregorAddo2016") (by all_tac) (C119_aga16 a c4 sc),
    fun sc => plain rfl (name := "CoppersmithBommer2014") (by all_tac) (C119_coppersmith sc),
    plain rfl (name := "AbrahamsonSilvaKamai2014") (by all_tac) C119_ask14, plain rfl (name := "BaylessAbrahamson2019") (by all_tac) C119_ba19,
    exactly rfl (name := "BooreStewartSeyhanAtkinson2014") (by all_tac) ?_, exactly rfl (name := "ChiouYoungs2014") (by all_tac) ?_,
    exactly rfl (name := "CampbellBozorgnia2014") (by all_tac) ?_⟩
  · intro s t r inst h
    obtain ⟨m, hm⟩ := Success.num t r (n := "mag") (by mem_tac)
    refine ⟨_, ?_, C119_bssa14 s m hm inst h⟩
    intro e he
    split at he
    · rw [List.mem_singleton.1 he]; decide
    · simp at he
  · intro s t r inst h
    obtain ⟨m, hm⟩ := Success.num t r (n := "mag") (by mem_tac)
    refine ⟨_, ?_, C119_cy14 s m hm inst h⟩
    intro e he
    split at he
    · rw [List.mem_singleton.1 he]; decide
    · simp at he
  · intro s t r inst h
    obtain ⟨m, hm⟩ := Success.num t r (n := "mag") (by mem_tac)
    refine ⟨_, ?_, C119_cb14 s m hm inst h⟩
    intro e he
    split at he
    · rw [List.mem_singleton.1 he]; decide
    · split at he
      · rw [List.mem_singleton.1 he]; decide
      · split at he
        · rw [List.mem_singleton.1 he]; decide
        · simp at he

namespace Strict

theorem check_strict {name : String} {ps : List Param} (hd : (name, ps) ∈ Decls.all) {p : Param} (hp : p ∈ ps)
    {v w : Val} (h : (p.check v).res = .ok w) : (p.check v).strict = match reports p v with
      | e :: _ => .warned e
      | [] => .value w := by
  unfold Py.strict
  rw [Warnings.check_log hd hp h, h]
  cases hr : reports p v with
  | nil => rfl
  | cons e r =>
    have := reports_warn p v e (by rw [hr]; simp)
    rw [List.find?_cons_of_pos this]

/-- a missing optional value passes its check -/
theorem none_ok {name : String} {ps : List Param} (hd : (name, ps) ∈ Decls.all) {p : Param} (hp : p ∈ ps) (hr : p.required = false) :
    ∃ w, (p.check .none).res = .ok w := by
  have hwf := (C14_declarations_well_formed name ps hd).2.2 p hp
  unfold Spec.WellFormed at hwf
  cases hk : p.kind with
  | numeric mn mx =>
    simp only [hk] at hwf
    rcases hwf.2 with hd | ⟨q, hd, -⟩
    · rw [(C06_default p mn mx hk hr).1 hd]; exact ⟨_, rfl⟩
    · rw [(C06_default p mn mx hk hr).2 q hd, C06_number_kept p mn mx hk]; exact ⟨_, rfl⟩
  | categorical opts => exact ⟨_, (C07_missing p opts hk hr).1⟩

/-- the check of a value of the declared type succeeds if it is given or not required -/
theorem check_ok {name : String} {ps : List Param} (hd : (name, ps) ∈ Decls.all) {p : Param} (hp : p ∈ ps) {v : Val} (t : TypedAs p v)
    (hn : v = .none → p.required = false) : ∃ w, (p.check v).res = .ok w := by
  by_cases hv : v = .none
  · subst hv
    exact none_ok hd hp (hn rfl)
  · have ht := t.resolve_left hv
    cases hk : p.kind with
    | numeric mn mx =>
      rw [hk] at ht
      obtain ⟨x, rfl⟩ := ht
      rw [C06_number_kept p mn mx hk]
      exact ⟨_, rfl⟩
    | categorical opts =>
      by_cases hin : v.isIn opts
      · rw [C07_option_kept p opts hk v hv hin]; exact ⟨_, rfl⟩
      · rw [C07_other_becomes_default p opts hk v hv hin]; exact ⟨_, rfl⟩

end Strict

/-- C134: which warning.  Let `p` be the first declared parameter whose value is not a recommended one, and let a value of its
type be given for it.  Then the construction raises the warning about `p`: below the limit, above the limit, or not one of the
options.  Nothing after `p` in the declaration matters, not even a missing required value, and no formula is evaluated. -/
theorem C134_first {Out : Type} (C : ModelClass Out) (name : String) (hd : (name, C.params) ∈ Decls.all) (s : Scenario)
    (pre post : List Param) (p : Param) (hps : C.params = pre ++ p :: post) (hpre : ∀ q ∈ pre, Recommended q (s.get q.name))
    (ht : TypedAs p (s.get p.name)) (hg : s.get p.name ≠ .none) (hbad : ¬ Recommended p (s.get p.name)) :
    ∃ e, (C.new s).strict = .warned e ∧
      ((e = .belowLimit p.name (s.get p.name) ∧ ∃ lo hi x, p.kind = .numeric (some lo) hi ∧ s.get p.name = .num x ∧ x < (lo : ℝ)) ∨
       (e = .aboveLimit p.name (s.get p.name) ∧ ∃ lo hi x, p.kind = .numeric lo (some hi) ∧ s.get p.name = .num x ∧ (hi : ℝ) < x) ∨
       (e = .notOption p.name (s.get p.name) ∧ ∃ opts, p.kind = .categorical opts ∧ ∀ o ∈ opts, s.get p.name ≠ o.toVal)) := by
  have hC : ParamsOk C.params := Spec.shipped_ok hd
  have hpm : p ∈ C.params := by rw [hps]; simp
  -- the report about `p`
  obtain ⟨e, r, hrep, hkind⟩ : ∃ e r, reports p (s.get p.name) = e :: r ∧
      ((e = .belowLimit p.name (s.get p.name) ∧ ∃ lo hi x, p.kind = .numeric (some lo) hi ∧ s.get p.name = .num x ∧ x < (lo : ℝ)) ∨
       (e = .aboveLimit p.name (s.get p.name) ∧ ∃ lo hi x, p.kind = .numeric lo (some hi) ∧ s.get p.name = .num x ∧ (hi : ℝ) < x) ∨
       (e = .notOption p.name (s.get p.name) ∧ ∃ opts, p.kind = .categorical opts ∧ ∀ o ∈ opts, s.get p.name ≠ o.toVal)) := by
    have ht' := ht.resolve_left hg
    cases hk : p.kind with
    | numeric lo hi =>
      rw [hk] at ht'
      obtain ⟨x, hx⟩ := ht'
      have hb : ¬ InRange lo hi x := fun h => hbad (.inr (by rw [hk]; exact ⟨x, hx, h⟩))
      simp only [reports, hk, hx, asNumber]
      by_cases h1 : Below lo x
      · rw [if_pos h1]
        obtain ⟨l, hl, hlt⟩ := h1
        subst hl
        exact ⟨_, _, rfl, .inl ⟨rfl, l, hi, x, rfl, rfl, hlt⟩⟩
      · by_cases h2 : Above hi x
        · rw [if_neg h1, if_pos h2]
          obtain ⟨l, hl, hlt⟩ := h2
          subst hl
          exact ⟨_, _, rfl, .inr (.inl ⟨rfl, lo, l, x, rfl, rfl, hlt⟩)⟩
        · refine absurd ⟨fun l hl => ?_, fun l hl => ?_⟩ hb
          · exact not_lt.1 fun h => h1 ⟨l, hl, h⟩
          · exact not_lt.1 fun h => h2 ⟨l, hl, h⟩
    | categorical opts =>
      have no : ∀ o ∈ opts, s.get p.name ≠ o.toVal := fun o ho he => hbad (.inr (by rw [hk]; exact ⟨o, ho, he, hg⟩))
      have ho := Warnings.options _ hd p hpm opts hk
      rw [hk] at ht'
      simp only [reports, hk]
      rw [if_neg]
      · exact ⟨_, _, rfl, .inr (.inr ⟨rfl, opts, rfl, no⟩)⟩
      · rintro (h | ⟨o, h, he⟩)
        · exact hg h
        · have := no o h
          rcases ht' with ⟨-, u, -, hu⟩ | ⟨-, b, -, hu⟩ <;> rcases ho o h with ⟨w, rfl⟩ | ⟨c, rfl⟩ <;>
            simp_all [Val.pyEq, Lit.toVal]
  refine ⟨e, ?_, hkind⟩
  -- the checks up to `p`
  have chk : ∀ (pre : List Param), (∀ q ∈ pre, q ∈ C.params ∧ Recommended q (s.get q.name)) →
      (Model.checkVals (pre ++ p :: post) s.get).strict = .warned e := by
    intro pre
    induction pre with
    | nil =>
      intro _
      obtain ⟨w, hw⟩ := check_ok hd hpm ht fun h => absurd h hg
      have := check_strict hd hpm hw
      rw [hrep] at this
      rw [List.nil_append, Model.checkVals, bind_strict, this]
      rfl
    | cons q pre ih =>
      intro hq
      obtain ⟨hqm, hqr⟩ := hq q (by simp)
      have hrec : reports q (s.get q.name) = [] ∧ ∃ w, (q.check (s.get q.name)).res = .ok w := by
        rcases hqr with ⟨hv, hr⟩ | hqr
        · rw [hv]
          refine ⟨?_, ?_⟩
          · unfold reports; cases q.kind <;> simp [asNumber]
          · exact none_ok hd hqm hr
        · cases hk : q.kind with
          | numeric lo hi =>
            rw [hk] at hqr
            obtain ⟨x, hx, h1, h2⟩ := hqr
            rw [hx]
            refine ⟨?_, by rw [C06_number_kept q lo hi hk]; exact ⟨_, rfl⟩⟩
            simp only [reports, hk, asNumber]
            rw [if_neg, if_neg]
            · rintro ⟨l, hl, hlt⟩; exact absurd (h2 l hl) (not_le.2 hlt)
            · rintro ⟨l, hl, hlt⟩; exact absurd (h1 l hl) (not_le.2 hlt)
          | categorical opts =>
            rw [hk] at hqr
            obtain ⟨o, ho, hv, hvn⟩ := hqr
            have hpe : (s.get q.name).pyEq o.toVal := by
              rcases Warnings.options _ hd q hqm opts hk o ho with ⟨u, rfl⟩ | ⟨c, rfl⟩ <;> rw [hv] <;> simp [Val.pyEq, Lit.toVal]
            refine ⟨?_, by rw [C07_option_kept q opts hk _ hvn ⟨o, ho, hpe⟩]; exact ⟨_, rfl⟩⟩
            simp only [reports, hk]
            rw [if_pos (.inr ⟨o, ho, hpe⟩)]
      obtain ⟨hrep', w, hw⟩ := hrec
      have := check_strict hd hqm hw
      rw [hrep'] at this
      rw [List.cons_append, Model.checkVals, bind_strict, this]
      simp only [Spec.andThen]
      rw [bind_strict, ih fun q' h' => hq q' (List.mem_cons_of_mem _ h')]
      rfl
  have := chk pre fun q hq => ⟨by rw [hps]; simp [hq], hpre q hq⟩
  rw [← hps] at this
  unfold ModelClass.new
  rw [ModelClass.newFrom_eq C hC, bind_strict, this]
  rfl

/-- C134: `duration_for_energy` of a constructed PinillaRamosEtAl2024 under the filter: an energy outside [0.10, 0.95] raises
`ValueError` as usual; one that `np.isclose` matches with a threshold of the table returns what it returns without the filter;
every other one raises the warning. -/
theorem C134_energy (s : Scenario) (inst : Instance DurBand) (h : (PR24.cls.new s).res = .ok inst) (e : ℝ) :
    (e < 0.10 ∨ 0.95 < e → ∃ t, (PR24.durationForEnergy inst e).strict = .raised (.valueError t)) ∧
    (0.10 ≤ e → e ≤ 0.95 →
      ((∃ t ∈ PR24.thresholds, |(t : ℝ) - e| ≤ 1e-3 + 1e-5 * |e|) →
        ∃ b, (PR24.durationForEnergy inst e).strict = .value b ∧ (PR24.durationForEnergy inst e).res = .ok b) ∧
      ((∀ t ∈ PR24.thresholds, 1e-3 + 1e-5 * |e| < |(t : ℝ) - e|) →
        (PR24.durationForEnergy inst e).strict = .warned (.notice "closest energy threshold") ∧
        ∃ b, (PR24.durationForEnergy inst e).res = .ok b)) := by
  have hC : ParamsOk PR24.cls.params :=
    Spec.shipped_ok (name := "PinillaRamosEtAl2024") (show ("PinillaRamosEtAl2024", Decls.pr24) ∈ Decls.all by all_tac)
  unfold ModelClass.new at h
  rw [ModelClass.newFrom_eq PR24.cls hC] at h
  simp only [Py.bind_ok_iff] at h
  obtain ⟨d, -, s', -, o, h3, h4⟩ := h
  have hs : inst.scenario = s' := by cases h4; rfl
  have h3' : (PR24.calcDuration s' 0.75).res = .ok o := h3
  unfold PR24.calcDuration at h3'
  rw [Py.bind_ok_iff] at h3'
  obtain ⟨i, hi, -⟩ := h3'
  have hq : ∀ y : ℝ, (PR24.calcDuration s' y).log = [] := by
    intro y
    have : Warnings.Quiet (PR24.calcDuration s' y) := by unfold PR24.calcDuration PR24.read PR24.validate; quiet
    exact this
  have hr : ∀ y : ℝ, (PR24.calcDuration s' y).res = .ok (PR24.band i y) := by
    intro y
    unfold PR24.calcDuration
    rw [Py.bind_ok_iff]
    exact ⟨i, hi, rfl⟩
  refine ⟨fun ho => ⟨"energy", ?_⟩, fun h1 h2 => ⟨fun ⟨t, ht, hc⟩ => ?_, fun hn => ?_⟩⟩
  · unfold PR24.durationForEnergy
    rw [if_pos ho]
    rfl
  · have e1 : PR24.durationForEnergy inst e = PR24.calcDuration s' e := by
      unfold PR24.durationForEnergy
      rw [if_neg (by rintro (h | h) <;> linarith), if_pos ⟨t, ht, hc⟩, hs]
    rw [e1]
    refine ⟨PR24.band i e, ?_, hr e⟩
    unfold Py.strict
    rw [hq, hr]
    rfl
  · have e1 : PR24.durationForEnergy inst e = (do
        Py.warn (.notice "closest energy threshold")
        PR24.calcDuration s' ((PR24.thresholds.getD (PR24.closest e) 0 : ℚ) : ℝ)) := by
      unfold PR24.durationForEnergy
      rw [if_neg (by rintro (h | h) <;> linarith), if_neg, hs]
      rintro ⟨t, ht, hc⟩
      exact absurd hc (not_le.2 (hn t ht))
    rw [e1]
    refine ⟨?_, PR24.band i ((PR24.thresholds.getD (PR24.closest e) 0 : ℚ) : ℝ), ?_⟩
    · rw [bind_strict]
      rfl
    · exact hr _

/-- the hypotheses are met: Campbell (2003) with a magnitude above the limit and nothing else -/
example : ∃ (s : Scenario) (pre post : List Param) (p : Param), C03.cls.params = pre ++ p :: post ∧
    (∀ q ∈ pre, Recommended q (s.get q.name)) ∧ TypedAs p (s.get p.name) ∧ s.get p.name ≠ .none ∧ ¬ Recommended p (s.get p.name) := by
  refine ⟨⟨[("mag", .num 9)], []⟩, [], [numP "dist_rup" true none (some 1000)], numP "mag" true (some 5) (some 8.2), rfl, by simp,
    .inr ⟨9, rfl⟩, by simp [Scenario.get, Dict.get?, numP], ?_⟩
  rintro (⟨h, -⟩ | ⟨x, hx, -, h⟩)
  · cases h
  · have h9 : x = 9 := by cases hx; rfl
    have := h _ rfl
    rw [h9] at this
    norm_num at this

/-- and, with a recommended scenario, a construction under the filter succeeds -/
example : ∃ inst, (I14.cls.new (Limits.ex "interface" "japan" "soil")).strict = .value inst := by
  have hrec : AllRecommended Decls.i14 (Limits.ex "interface" "japan" "soil") := by recommended Decls.i14
  obtain ⟨o, ⟨inst, h, -⟩, -⟩ := C118_i14 _ hrec (Limits.ex_physical _ _ _)
  refine ⟨inst, ((strict_of_log (b := []) (by rw [C119_i14 _ inst h, List.append_nil]) all_warn (by simp) inst).2 ⟨h, ?_⟩)⟩
  exact C119_recommended_silent "Idriss2014" _ (by all_tac) _ hrec
