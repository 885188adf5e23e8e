import Verif.Models.GA11
import Verif.Bounds
import Mathlib.Analysis.SpecialFunctions.Pow.Continuity

/-! # C17, C60: Gülerce & Abrahamson (2011) -/

set_option linter.unusedSimpArgs false

/-- The code that would estimate pga_ref from ASK14 is dead: replacing it by anything else
changes the outcome (result, exception, warnings) of no construction whatsoever. -/
theorem C17_fallback_dead (fallback fallback' : Scenario → Py Scenario) (s : Scenario) :
    (GA11.clsWith fallback).new s = (GA11.clsWith fallback').new s := by
  have key : ∀ fb : Scenario → Py Scenario, (GA11.clsWith fb).new s = (do
      let d ← Model.checkVals Decls.ga11 s.get
      let out ← (do
        let dist ← (⟨d, []⟩ : Scenario).num "dist_rup"
        let mag ← (⟨d, []⟩ : Scenario).num "mag"
        let vs30 ← (⟨d, []⟩ : Scenario).num "v_s30"
        let pgaRef ← (⟨d, []⟩ : Scenario).num "pga_ref"
        let mech ← (⟨d, []⟩ : Scenario).getAttr "mechanism"
        pure (GA11.out mag dist vs30 pgaRef (GA11.mechOf mech)))
      pure ⟨⟨d, []⟩, out⟩) := by
    intro fb
    have hok : ParamsOk (GA11.clsWith fb).params := by change ParamsOk Decls.ga11; decide +kernel
    unfold ModelClass.new
    rw [ModelClass.newFrom_eq _ hok]
    change (Model.checkVals Decls.ga11 s.get >>= _) = _
    refine Py.bind_congr_ok fun d h => ?_
    have hk : "pga_ref" ∈ d.keys := by
      rw [Model.checkVals_keys h]; decide
    have he : GA11.ensurePgaRef fb ⟨d, []⟩ = pure ⟨d, []⟩ := if_pos hk
    have hf : (GA11.clsWith fb).fill ⟨d, []⟩ = pure ⟨d, []⟩ := rfl
    simp only [hf, Py.pure_bind']
    simp only [GA11.clsWith, he, Py.pure_bind']
  rw [key, key]

/-- Without pga_ref no GulerceAbrahamson2011 can be constructed: ValueError naming pga_ref
when the parameters declared before it are numbers. -/
theorem C17_pga_ref_required (s : Scenario) (hp : s.get "pga_ref" = .none) :
    (∃ e, (GA11.cls.new s).res = .error e) ∧
    ∀ m r v : ℝ, s.get "mag" = .num m → s.get "dist_rup" = .num r → s.get "v_s30" = .num v →
      (GA11.cls.new s).res = .error (.valueError "pga_ref") := by
  have hok : ParamsOk GA11.cls.params := by change ParamsOk Decls.ga11; decide +kernel
  have hmem : numP "pga_ref" true (some 0.001) (some 10) ∈ GA11.cls.params := by
    change _ ∈ Decls.ga11; mem_tac
  obtain ⟨pre, q, post, h1, h2, h3⟩ := C05_missing_required_fails GA11.cls hok s _ hmem rfl hp
  constructor
  · rcases h3 with ⟨-, -, h⟩ | ⟨-, h⟩ <;> exact ⟨_, h⟩
  · intro m r v hm hr hv
    have hlist : GA11.cls.params = [numP "dist_rup" true none (some 200), numP "mag" true (some 5) (some 8.5),
      numP "v_s30" true (some 450) (some 1200), numP "pga_ref" true (some 0.001) (some 10),
      catP "mechanism" true ["SS", "NS", "RS"]] := rfl
    rw [hlist] at h1
    have pn : ∀ {name : String} {a b : Option ℚ} {x : ℝ}, s.get name = .num x →
        ¬ (s.get (numP name true a b).name = .none ∧ (numP name true a b).required = true) ∧
        ¬ Spec.CannotCompare (numP name true a b) (s.get (numP name true a b).name) := by
      intro name a b x hx
      have : s.get (numP name true a b).name = .num x := hx
      rw [this]; simp [Spec.CannotCompare]
    have bad : (s.get q.name = .none ∧ q.required = true) ∨ Spec.CannotCompare q (s.get q.name) := by
      rcases h3 with ⟨a, b, -⟩ | ⟨a, -⟩
      · exact Or.inl ⟨a, b⟩
      · exact Or.inr a
    have notbad : ∀ {name : String} {a b : Option ℚ} {x : ℝ}, s.get name = .num x →
        q = numP name true a b → False := by
      intro name a b x hx hq
      subst hq
      obtain ⟨n1, n2⟩ := pn (a := a) (b := b) hx
      rcases bad with h | h
      · exact n1 h
      · exact n2 h
    match pre, h1, h2 with
    | [], h1, _ => simp at h1; exact (notbad hr h1.1.symm).elim
    | [_], h1, _ => simp at h1; exact (notbad hm h1.2.1.symm).elim
    | [_, _], h1, _ => simp at h1; exact (notbad hv h1.2.2.1.symm).elim
    | [_, _, _], h1, _ =>
      simp at h1
      obtain ⟨-, -, -, rfl, -⟩ := h1
      rcases h3 with ⟨-, -, h⟩ | ⟨h, -⟩
      · exact h
      · exact absurd h (by
          have : s.get (numP "pga_ref" true (some 0.001) (some 10)).name = .none := hp
          rw [this]; simp [Spec.CannotCompare, numP])
    | _ :: _ :: _ :: x :: pre, h1, h2 =>
      simp at h1
      have hx : x = numP "pga_ref" true (some 0.001) (some 10) := h1.2.2.2.1.symm
      have := (h2 x (by simp)).1
      rw [hx] at this
      exact absurd ⟨hp, rfl⟩ this

namespace GA11

theorem row_facts : ∀ c ∈ table, 0 < c.v_lin ∧ 0 < c.c ∧ 0 < c.c4 ∧
    0 < c.s1 ∧ 0 < c.s2 ∧ 0 < c.s3 ∧ 0 < c.s4 ∧ c.period ≤ 10 := by decide +kernel

theorem v1_ok_pos {c : Row} (hc : c ∈ table) : (v1 c.period).ok ∧ 0 < (v1 c.period).val := by
  obtain ⟨-, -, -, -, -, -, -, h⟩ := row_facts c hc
  have h1 : (0 : ℝ) < max 0.001 (c.period : ℝ) := lt_max_of_lt_left (by norm_num)
  unfold v1
  split
  · simp
  · split
    · simp
    · split
      · simp only [fsimp]
        exact ⟨⟨by norm_num, div_pos h1 (by norm_num)⟩, Real.exp_pos _⟩
      · split
        · simp only [fsimp]; exact ⟨h1, Real.exp_pos _⟩
        · simp

theorem f1_ok {c : Row} (hc : c ∈ table) (m r : ℝ) : (f1 c (F.ofReal m) (F.ofReal r)).ok := by
  obtain ⟨-, -, h, -⟩ := row_facts c hc
  have h' : (0 : ℝ) < c.c4 := by exact_mod_cast h
  have hp : (0 : ℝ) < r ^ 2 + (c.c4 : ℝ) ^ 2 := by positivity
  simp only [f1, fsimp]
  exact ⟨⟨hp.le, Real.sqrt_pos.2 hp⟩, by split <;> trivial⟩

theorem f5_ok {c : Row} (hc : c ∈ table) {v p : ℝ} (hv : 0 < v) (hp : 0 ≤ p) :
    (f5 c (F.ofReal v) (F.ofReal p)).ok := by
  obtain ⟨h1, h2, -⟩ := row_facts c hc
  have h1' : (0 : ℝ) < c.v_lin := by exact_mod_cast h1
  have h2' : (0 : ℝ) < c.c := by exact_mod_cast h2
  obtain ⟨hok, hpos⟩ := v1_ok_pos hc
  have hr : 0 < min v (v1 c.period).val / c.v_lin := div_pos (lt_min hv hpos) h1'
  have hn : (0 : ℝ) < p + c.c * (min v (v1 c.period).val / c.v_lin) ^ (c.n : ℝ) := by
    have := Real.rpow_pos_of_pos hr (c.n : ℝ)
    positivity
  have hc0 : (0 : ℝ) < p + c.c := by positivity
  simp only [f5, fsimp]
  refine ⟨⟨⟨hok, h1'.ne'⟩, hr⟩, hok, ?_⟩
  split
  · exact ⟨hc0, ⟨⟨⟨hok, h1'.ne'⟩, Or.inl hr⟩, hn⟩⟩
  · exact ⟨⟨hok, h1'.ne'⟩, hr⟩

theorem lnRatio_ok {c : Row} (hc : c ∈ table) (m r : ℝ) {v p : ℝ} (hv : 0 < v) (hp : 0 ≤ p)
    (mech : Mech) : (lnRatio c (F.ofReal m) (F.ofReal r) (F.ofReal v) (F.ofReal p) mech).ok := by
  have : (fMech c mech).ok := by cases mech <;> simp [fMech]
  simp only [lnRatio, F.ok_add]
  exact ⟨⟨f1_ok hc m r, f5_ok hc hv hp⟩, this⟩

/-- one of the two standard deviation parts as a clipped ramp -/
theorem stdPart_val (lo hi : ℚ) (m : ℝ) :
    (stdPart lo hi (F.ofReal m)).val = lo + (hi - lo) * ((min (max m 5) 7 - 5) / 2) := by
  simp only [stdPart, fsimp]
  split
  · rename_i h; rw [max_eq_right h.le, min_eq_left (by norm_num)]; ring
  · rename_i h
    split
    · rename_i h7
      rw [max_eq_left (not_lt.1 h), min_eq_left h7]; ring
    · rename_i h7
      rw [max_eq_left (not_lt.1 h), min_eq_right (not_le.1 h7).le]; ring

theorem stdPart_ok (lo hi : ℚ) (m : ℝ) : (stdPart lo hi (F.ofReal m)).ok := by
  simp only [stdPart, fsimp]
  split
  · trivial
  · split <;> trivial

theorem stdPart_pos {lo hi : ℚ} (hl : 0 < lo) (hh : 0 < hi) (m : ℝ) :
    0 < (stdPart lo hi (F.ofReal m)).val := by
  have hl' : (0 : ℝ) < lo := by exact_mod_cast hl
  have hh' : (0 : ℝ) < hi := by exact_mod_cast hh
  rw [stdPart_val]
  have h1 : (5 : ℝ) ≤ min (max m 5) 7 := le_min (le_max_right _ _) (by norm_num)
  have h2 : min (max m 5) 7 ≤ (7 : ℝ) := min_le_right _ _
  set x := (min (max m 5) 7 - 5) / 2 with hx
  have x0 : 0 ≤ x := by rw [hx]; linarith
  have x1 : x ≤ 1 := by rw [hx]; linarith
  have : (lo : ℝ) + (hi - lo) * x = (1 - x) * lo + x * hi := by ring
  rw [this]
  rcases eq_or_lt_of_le x1 with h | h
  · rw [h]; simpa using hh'
  · have := mul_pos (sub_pos.2 h) hl'
    have := mul_nonneg x0 hh'.le
    linarith

theorem lnStd_ok_pos {c : Row} (hc : c ∈ table) (m : ℝ) :
    (lnStd c (F.ofReal m)).ok ∧ 0 < (lnStd c (F.ofReal m)).val := by
  obtain ⟨-, -, -, h1, h2, h3, h4, -⟩ := row_facts c hc
  have a := stdPart_pos h3 h4 m
  have b := stdPart_pos h1 h2 m
  have hp : 0 < (stdPart c.s3 c.s4 (F.ofReal m)).val ^ 2 + (stdPart c.s1 c.s2 (F.ofReal m)).val ^ 2 := by
    positivity
  simp only [lnStd, fsimp]
  exact ⟨⟨⟨stdPart_ok .., stdPart_ok ..⟩, hp.le⟩, Real.sqrt_pos.2 hp⟩

theorem f1_cont (c : Row) (r : ℝ) : Continuous fun m => (f1 c (F.ofReal m) (F.ofReal r)).val := by
  simp only [f1, fsimp]
  refine Continuous.add (by fun_prop) ?_
  have : (fun m : ℝ => if m < (c.c1 : ℝ) then (c.a4 : ℝ) * (m - c.c1) else c.a5 * (m - c.c1)) =
      fun m : ℝ => if (c.c1 : ℝ) ≤ m then c.a5 * (m - c.c1) else (c.a4 : ℝ) * (m - c.c1) := by
    funext m
    by_cases h : m < (c.c1 : ℝ)
    · rw [if_pos h, if_neg (not_le.2 h)]
    · rw [if_neg h, if_pos (not_lt.1 h)]
  rw [this]
  apply Continuous.if_le
  · fun_prop
  · fun_prop
  · fun_prop
  · fun_prop
  · intro x hx; rw [hx]; simp

theorem f5_cont {c : Row} (hc : c ∈ table) {p : ℝ} (hp : 0 ≤ p) :
    ContinuousOn (fun v => (f5 c (F.ofReal v) (F.ofReal p)).val) (Set.Ioi 0) := by
  obtain ⟨h1, h2, -⟩ := row_facts c hc
  have h1' : (0 : ℝ) < c.v_lin := by exact_mod_cast h1
  have h2' : (0 : ℝ) < c.c := by exact_mod_cast h2
  obtain ⟨-, hpos⟩ := v1_ok_pos hc
  -- clip the velocity below at v_lin in one branch, above in the other
  have e : ∀ v ∈ Set.Ioi (0 : ℝ), (f5 c (F.ofReal v) (F.ofReal p)).val =
      c.a10 * Real.log (min v (v1 c.period).val / c.v_lin) -
      (-c.b * Real.log (p + c.c) + c.b * Real.log (p + c.c *
        (min (min v (v1 c.period).val / c.v_lin) 1) ^ (c.n : ℝ)) +
        c.b * c.n * Real.log (max (min v (v1 c.period).val / c.v_lin) 1)) := by
    intro v hv
    simp only [f5, fsimp]
    congr 1
    by_cases h : min v (v1 c.period).val < c.v_lin
    · have : min v (v1 c.period).val / c.v_lin ≤ 1 := (div_le_one h1').2 h.le
      rw [if_pos h, min_eq_left this, max_eq_right this]; simp
    · have : 1 ≤ min v (v1 c.period).val / c.v_lin := (one_le_div h1').2 (not_lt.1 h)
      rw [if_neg h, min_eq_right this, max_eq_left this]; simp
  refine ContinuousOn.congr ?_ e
  have hr : ∀ v ∈ Set.Ioi (0 : ℝ), 0 < min v (v1 c.period).val / c.v_lin := fun v hv =>
    div_pos (lt_min hv hpos) h1'
  have cr : ContinuousOn (fun v => min v (v1 c.period).val / (c.v_lin : ℝ)) (Set.Ioi 0) := by fun_prop
  refine ContinuousOn.sub ?_ (ContinuousOn.add (ContinuousOn.add continuousOn_const ?_) ?_)
  · exact continuousOn_const.mul (cr.log fun v hv => (hr v hv).ne')
  · refine continuousOn_const.mul (ContinuousOn.log ?_ ?_)
    · refine continuousOn_const.add (continuousOn_const.mul ?_)
      refine ContinuousOn.rpow (cr.inf continuousOn_const) continuousOn_const ?_
      intro v hv; left; exact (lt_min (hr v hv) one_pos).ne'
    · intro v hv
      have := Real.rpow_pos_of_pos (lt_min (hr v hv) one_pos) (c.n : ℝ)
      positivity
  · refine continuousOn_const.mul (ContinuousOn.log (cr.sup continuousOn_const) ?_)
    intro v hv
    exact (lt_max_of_lt_right one_pos).ne'

theorem psa_sorted : (psaRows.map (·.period)).Pairwise (· < ·) ∧ ∀ c ∈ psaRows, 0 < c.period := by
  decide +kernel

theorem nodes_sorted (g : Row → F) :
    Interp.Sorted (psaRows.map fun c => (Real.log c.period, g c)) := by
  obtain ⟨h1, h2⟩ := psa_sorted
  rw [List.pairwise_map] at h1
  unfold Interp.Sorted
  rw [List.pairwise_map]
  refine List.Pairwise.imp_of_mem ?_ h1
  intro a b ha hb hab
  have ha' : (0 : ℝ) < a.period := by exact_mod_cast h2 a ha
  have hab' : (a.period : ℝ) < b.period := by exact_mod_cast hab
  exact Real.log_lt_log ha' hab'

theorem zip_nodes (g : Row → F) :
    List.zip (psaRows.map fun c => Real.log c.period) ((table.map g).drop 2) =
      psaRows.map fun c => (Real.log c.period, g c) := by
  rw [← List.map_drop]
  change List.zip (psaRows.map _) (psaRows.map g) = _
  rw [List.zip_map']

end GA11

/-- GulerceAbrahamson2011: the V/H ratio is defined and positive at all 24 entries for every
magnitude, distance, positive v_s30, non-negative pga_ref and mechanism; so is the standard
deviation. -/
theorem C60_defined (s : Scenario) (m r v p : ℝ) (t : String) (hv : 0 < v) (hp : 0 ≤ p)
    (hsm : s.get "mag" = .num m) (hsr : s.get "dist_rup" = .num r) (hsv : s.get "v_s30" = .num v)
    (hsp : s.get "pga_ref" = .num p) (hst : s.get "mechanism" = .str t) :
    ∃ o, Gives GA11.cls s o ∧ o.lnRatio.length = 24 ∧ o.lnStd.length = 24 ∧
      F.AllPos (o.lnRatio.map F.exp) ∧ F.AllPos o.lnStd := by
  refine ⟨_, GA11.gives s hsm hsr hsv hsp hst, rfl, rfl, ?_, ?_⟩
  · intro y hy
    simp only [GA11.out, List.map_map, List.mem_map] at hy
    obtain ⟨c, hc, rfl⟩ := hy
    simp only [Function.comp, fsimp]
    exact ⟨GA11.lnRatio_ok hc m r hv hp _, Real.exp_pos _⟩
  · intro y hy
    simp only [GA11.out, List.mem_map] at hy
    obtain ⟨c, hc, rfl⟩ := hy
    exact GA11.lnStd_ok_pos hc m

/-- The log ratio is continuous in magnitude, everywhere. -/
theorem C60_continuous_mag (S : ℝ → Scenario) (r v p : ℝ) (t : String)
    (hsm : ∀ m, (S m).get "mag" = .num m) (hsr : ∀ m, (S m).get "dist_rup" = .num r)
    (hsv : ∀ m, (S m).get "v_s30" = .num v)
    (hsp : ∀ m, (S m).get "pga_ref" = .num p) (hst : ∀ m, (S m).get "mechanism" = .str t) :
    ∃ O : ℝ → GA11.Out, (∀ m, Gives GA11.cls (S m) (O m)) ∧
      ∀ i < 24, Continuous fun m => ((O m).lnRatio.getD i F.nan).val := by
  refine ⟨_, fun m => GA11.gives (S m) (hsm m) (hsr m) (hsv m) (hsp m) (hst m), ?_⟩
  intro i hi
  have hlen : i < GA11.table.length := hi
  have : ∀ m, ((GA11.out (F.ofReal m) (F.ofReal r) (F.ofReal v) (F.ofReal p)
      (GA11.mechFor t)).lnRatio.getD i F.nan).val =
      (GA11.f1 GA11.table[i] (F.ofReal m) (F.ofReal r)).val +
      ((GA11.f5 GA11.table[i] (F.ofReal v) (F.ofReal p)).val +
        (GA11.fMech GA11.table[i] (GA11.mechFor t)).val) := by
    intro m
    simp [GA11.out, List.getD_eq_getElem?_getD, hlen, GA11.lnRatio, add_assoc]
  simp only [this]
  exact (GA11.f1_cont _ r).add continuous_const

/-- The log ratio is continuous in v_s30 over all positive velocities, in particular at
v_lin and at the cut-off velocity v_1. -/
theorem C60_continuous_vs30 (S : ℝ → Scenario) (m r p : ℝ) (t : String) (hp : 0 ≤ p)
    (hsm : ∀ v, (S v).get "mag" = .num m) (hsr : ∀ v, (S v).get "dist_rup" = .num r)
    (hsv : ∀ v, (S v).get "v_s30" = .num v)
    (hsp : ∀ v, (S v).get "pga_ref" = .num p) (hst : ∀ v, (S v).get "mechanism" = .str t) :
    ∃ O : ℝ → GA11.Out, (∀ v, Gives GA11.cls (S v) (O v)) ∧
      ∀ i < 24, ContinuousOn (fun v => ((O v).lnRatio.getD i F.nan).val) (Set.Ioi 0) := by
  refine ⟨_, fun v => GA11.gives (S v) (hsm v) (hsr v) (hsv v) (hsp v) (hst v), ?_⟩
  intro i hi
  have hlen : i < GA11.table.length := hi
  have : ∀ v, ((GA11.out (F.ofReal m) (F.ofReal r) (F.ofReal v) (F.ofReal p)
      (GA11.mechFor t)).lnRatio.getD i F.nan).val =
      (GA11.f1 GA11.table[i] (F.ofReal m) (F.ofReal r)).val +
      (GA11.f5 GA11.table[i] (F.ofReal v) (F.ofReal p)).val +
        (GA11.fMech GA11.table[i] (GA11.mechFor t)).val := by
    intro m
    simp [GA11.out, List.getD_eq_getElem?_getD, hlen, GA11.lnRatio]
  simp only [this]
  exact (continuousOn_const.add (GA11.f5_cont (List.getElem_mem hlen) hp)).add continuousOn_const

/-- The standard deviation at every row: root of the squares of two components that run
linearly from their M 5 value to their M 7 value and are constant outside. -/
theorem C60_std (s : Scenario) (m r v p : ℝ) (t : String)
    (hsm : s.get "mag" = .num m) (hsr : s.get "dist_rup" = .num r) (hsv : s.get "v_s30" = .num v)
    (hsp : s.get "pga_ref" = .num p) (hst : s.get "mechanism" = .str t) :
    ∃ o, Gives GA11.cls s o ∧ List.Forall₂ (fun (c : GA11.Row) (y : F) => y.ok ∧
      y.val = √((c.s3 + (c.s4 - c.s3) * ((min (max m 5) 7 - 5) / 2)) ^ 2 +
        (c.s1 + (c.s2 - c.s1) * ((min (max m 5) 7 - 5) / 2)) ^ 2)) GA11.table o.lnStd := by
  refine ⟨_, GA11.gives s hsm hsr hsv hsp hst, ?_⟩
  simp only [GA11.out]
  rw [List.forall₂_map_right_iff, List.forall₂_same]
  intro c hc
  refine ⟨(GA11.lnStd_ok_pos hc m).1, ?_⟩
  simp only [GA11.lnStd, F.val_sqrt, F.val_add, F.val_npow, GA11.stdPart_val]

/-- `interp_ln_std` exponentiates: whatever the scenario and the (positive) period, the value
it returns is above 1, although every standard deviation it interpolates is below 1. -/
theorem C60_interp_ln_std (s : Scenario) (m r v p T : ℝ) (t : String) (hT : 0 < T)
    (hsm : s.get "mag" = .num m) (hsr : s.get "dist_rup" = .num r) (hsv : s.get "v_s30" = .num v)
    (hsp : s.get "pga_ref" = .num p) (hst : s.get "mechanism" = .str t) :
    ∃ o, Gives GA11.cls s o ∧ (∀ y ∈ o.lnStd, y.val < 1) ∧
      (GA11.interpLnStd o (F.ofReal T)).ok ∧ 1 < (GA11.interpLnStd o (F.ofReal T)).val := by
  refine ⟨_, GA11.gives s hsm hsr hsv hsp hst, ?_, ?_⟩
  · intro y hy
    simp only [GA11.out, List.mem_map] at hy
    obtain ⟨c, hc, rfl⟩ := hy
    have hb : ∀ c ∈ GA11.table, c.s1 ≤ 0.7 ∧ c.s2 ≤ 0.7 ∧ c.s3 ≤ 0.5 ∧ c.s4 ≤ 0.5 := by
      decide +kernel
    obtain ⟨b1, b2, b3, b4⟩ := hb c hc
    obtain ⟨-, -, -, h1, h2, h3, h4, -⟩ := GA11.row_facts c hc
    have up : ∀ {lo hi q : ℚ}, lo ≤ q → hi ≤ q →
        (GA11.stdPart lo hi (F.ofReal m)).val ≤ q := by
      intro lo hi q hl hh
      have hl' : (lo : ℝ) ≤ q := by exact_mod_cast hl
      have hh' : (hi : ℝ) ≤ q := by exact_mod_cast hh
      rw [GA11.stdPart_val]
      have h1 : (5 : ℝ) ≤ min (max m 5) 7 := le_min (le_max_right _ _) (by norm_num)
      have h2 : min (max m 5) 7 ≤ (7 : ℝ) := min_le_right _ _
      nlinarith
    have u1 := up b1 b2
    have u2 := up b3 b4
    have p1 := GA11.stdPart_pos h1 h2 m
    have p2 := GA11.stdPart_pos h3 h4 m
    push_cast at u1 u2
    simp only [GA11.lnStd, fsimp]
    rw [Real.sqrt_lt' one_pos]
    nlinarith
  · have e : (GA11.out (F.ofReal m) (F.ofReal r) (F.ofReal v) (F.ofReal p) (GA11.mechFor t)).lnStd =
        GA11.table.map fun c => GA11.lnStd c (F.ofReal m) := rfl
    simp only [GA11.interpLnStd, e, GA11.zip_nodes, npInterpF, fsimp]
    have hne : GA11.psaRows.map (fun c => (Real.log c.period, GA11.lnStd c (F.ofReal m))) ≠ [] := by
      simp [GA11.psaRows, GA11.table]
    have hmem : ∀ c ∈ GA11.psaRows, c ∈ GA11.table := fun c hc => List.mem_of_mem_drop hc
    refine ⟨⟨hT, Interp.ok_of _ _ (GA11.nodes_sorted _) hne ?_⟩, ?_⟩
    · intro q hq
      obtain ⟨c, hc, rfl⟩ := List.mem_map.1 hq
      exact (GA11.lnStd_ok_pos (hmem c hc) m).1
    · rw [Real.one_lt_exp_iff, Interp.val_eq]
      apply Interp.pos_of
      · have := GA11.nodes_sorted (fun c => GA11.lnStd c (F.ofReal m))
        unfold Interp.Sorted at this ⊢
        rw [List.pairwise_map] at this
        rw [List.pairwise_map, List.pairwise_map]
        exact this
      · simp [GA11.psaRows, GA11.table]
      · intro q hq
        simp only [List.map_map, List.mem_map, Function.comp] at hq
        obtain ⟨c, hc, rfl⟩ := hq
        exact (GA11.lnStd_ok_pos (hmem c hc) m).2

/-- `interp_ratio` at one of the model's own spectral periods returns the model's ratio
there. -/
theorem C60_interp_ratio_node (s : Scenario) (m r v p : ℝ) (t : String)
    (hsm : s.get "mag" = .num m) (hsr : s.get "dist_rup" = .num r) (hsv : s.get "v_s30" = .num v)
    (hsp : s.get "pga_ref" = .num p) (hst : s.get "mechanism" = .str t) :
    ∃ o, Gives GA11.cls s o ∧ ∀ i, 2 ≤ i → ∀ hi : i < GA11.table.length,
      (GA11.interpRatio o (F.ofReal GA11.table[i].period)).val =
        Real.exp (o.lnRatio.getD i F.nan).val := by
  refine ⟨_, GA11.gives s hsm hsr hsv hsp hst, ?_⟩
  intro i h2 hi
  have e : (GA11.out (F.ofReal m) (F.ofReal r) (F.ofReal v) (F.ofReal p) (GA11.mechFor t)).lnRatio =
      GA11.table.map fun c => GA11.lnRatio c (F.ofReal m) (F.ofReal r) (F.ofReal v) (F.ofReal p)
        (GA11.mechFor t) := rfl
  simp only [GA11.interpRatio, e, GA11.zip_nodes, npInterpF, fsimp]
  rw [Interp.val_eq]
  set g := fun c => GA11.lnRatio c (F.ofReal m) (F.ofReal r) (F.ofReal v) (F.ofReal p)
        (GA11.mechFor t) with hg
  have hmem : GA11.table[i] ∈ GA11.psaRows := by
    rw [GA11.psaRows, List.mem_iff_getElem]
    refine ⟨i - 2, by simp; omega, ?_⟩
    rw [List.getElem_drop]; congr 1; omega
  have := Interp.node ((GA11.psaRows.map fun c => (Real.log c.period, g c)).map
      fun p => (p.1, p.2.val)) (Real.log GA11.table[i].period, (g GA11.table[i]).val) ?_ ?_
  · simp only at this
    rw [this]
    simp [List.getD_eq_getElem?_getD, hi, hg]
  · have := GA11.nodes_sorted g
    unfold Interp.Sorted at this ⊢
    rw [List.pairwise_map] at this
    rw [List.pairwise_map, List.pairwise_map]
    exact this
  · simp only [List.map_map, List.mem_map, Function.comp]
    exact ⟨_, hmem, rfl⟩

example : ∃ o, Gives GA11.cls ⟨[("mag", .num 6), ("dist_rup", .num 20), ("v_s30", .num 500),
    ("pga_ref", .num 0.2), ("mechanism", .str "SS")], []⟩ o ∧ (∀ y ∈ o.lnStd, y.val < 1) ∧
      (GA11.interpLnStd o (F.ofReal 0.2)).ok ∧ 1 < (GA11.interpLnStd o (F.ofReal 0.2)).val :=
  C60_interp_ln_std _ 6 20 500 0.2 0.2 "SS" (by norm_num)
    (by simp [Scenario.get, Dict.get?]) (by simp [Scenario.get, Dict.get?])
    (by simp [Scenario.get, Dict.get?]) (by simp [Scenario.get, Dict.get?])
    (by simp [Scenario.get, Dict.get?])
example : (GA11.cls.new ⟨[("mag", .num 6), ("dist_rup", .num 20), ("v_s30", .num 500),
    ("mechanism", .str "SS")], []⟩).res = .error (.valueError "pga_ref") :=
  (C17_pga_ref_required _ (by simp [Scenario.get, Dict.get?])).2 6 20 500
    (by simp [Scenario.get, Dict.get?]) (by simp [Scenario.get, Dict.get?])
    (by simp [Scenario.get, Dict.get?])
