import Verif.Models.AB06Array
import Verif.Props.AB06

/-!
# C113: `AtkinsonBoore2006` accepts one distance per ordinate

The class declares no limits, so its checks let arrays through; numpy then pairs an array of 27
distances with the 27 rows of the table.
-/

set_option linter.unusedSimpArgs false

namespace AB06

theorem bc_length : bc.length = 27 := by decide +kernel
theorem rock_length : rock.length = 27 := by decide +kernel

/-- a value of any kind other than `None` passes a parameter without limits -/
theorem check_any {p : Param} (hk : p.kind = .numeric none none) {v : AVal}
    (h : v ≠ .scalar .none) : AVal.check p v = pure v := by
  cases v with
  | array l => exact AVal.check_unlimited hk (by simp)
  | list l => exact AVal.check_unlimited hk (by simp)
  | scalar w =>
    cases w <;> first | exact absurd rfl h |
      simp [AVal.check, AVal.baseCheck, Param.baseCheck, hk, AVal.below, AVal.above]

/-- with the three values present, construction is the arithmetic -/
theorem newA_eq {get : String → AVal} (hm : get "mag" ≠ .scalar .none)
    (hr : get "dist_rup" ≠ .scalar .none) (hv : get "v_s30" ≠ .scalar .none) :
    newA get = computeA (get "mag") (get "dist_rup") (get "v_s30") := by
  unfold newA AVal.construct
  have h : AVal.checkVals Decls.ab06 get = pure [("mag", get "mag"), ("dist_rup", get "dist_rup"),
      ("v_s30", get "v_s30")] := by
    simp only [Decls.ab06, AVal.checkVals, numP]
    rw [check_any rfl hm, check_any rfl hr, check_any rfl hv]
    simp only [Py.pure_bind']
  rw [h]
  simp [lookup]

theorem zip_rep {α : Type} (f : α → F → F) : ∀ (l : List α) (x : F),
    List.zipWith f l (List.replicate l.length x) = l.map fun c => f c x
  | [], _ => rfl
  | a :: l, x => by simp [List.replicate_succ, zip_rep f l x]

/-- the same distance for every row: the model of `AB06.lean` -/
theorem outRows_same (m r : F) (v : Option F) :
    outRows m (List.replicate 27 r) v = out m r v := by
  cases v with
  | none =>
    have := zip_rep (fun c r => toLn (log10Base c m r)) rock r
    rw [rock_length] at this
    simp only [outRows, out, this]
  | some v =>
    have h1 := zip_rep (fun c r => log10Base c m r) bc r
    rw [bc_length] at h1
    simp only [outRows, out, h1]
    have h2 := zip_rep (fun c x => toLn (log10Base c m x + log10Site c.period v (pgaBc m r))) bc r
    rw [bc_length] at h2
    rw [← h2]
    simp only [pgaBc]

/-- On scalars this model is the one of all other properties of the class: same result, same
error, same warnings. -/
theorem C113_scalar (s : Scenario) :
    newA (fun k => .scalar (s.get k)) = (do pure (← cls.new s).out) := by
  have hn : ParamsOk Decls.ab06 := by decide +kernel
  have : cls.new s = _ := ModelClass.newFrom_eq cls hn s.get
  rw [this]
  unfold newA AVal.construct
  rw [AVal.checkVals_scalar]
  change (do let d ← (do let e ← Model.checkVals Decls.ab06 s.get; _); _) = (do let i ← (do let d ← Model.checkVals Decls.ab06 s.get; _); _)
  simp only [Py.bind_assoc', Py.pure_bind', Decls.ab06, Model.checkVals, cls, List.map_cons,
    List.map_nil]
  refine Py.bind_congr_ok fun a _ => Py.bind_congr_ok fun b _ => Py.bind_congr_ok fun c _ => ?_
  simp [lookup, numP, Scenario.num, Scenario.getAttr, Scenario.getItem, Dict.get?, computeA, vTruth,
    distRows, magOf, Py.bind_assoc', siteOf, siteOfA,
    -List.reduceReplicate]
  refine Py.bind_congr_ok fun x _ => Py.bind_congr_ok fun y _ => ?_
  split
  · simp [Py.bind_assoc', outRows_same, -List.reduceReplicate]
  · simp [outRows_same, -List.reduceReplicate]

/-- a mapping with an array of distances -/
theorem newA_array {get : String → AVal} {m v : ℝ} {l : List ℝ} (hm : get "mag" = .scalar (.num m))
    (hr : get "dist_rup" = .array l) (hv : get "v_s30" = .scalar (.num v)) (hl : l.length = 27) :
    newA get = pure (outRows (F.ofReal m) (l.map F.ofReal)
      (if v = 0 then none else some (F.ofReal v))) := by
  rw [newA_eq (by simp [hm]) (by simp [hr]) (by simp [hv]), hm, hr, hv]
  have hd : distRows (.array l) = pure (l.map F.ofReal) := by
    match l, hl with
    | _ :: _ :: _, hl => simp only [distRows, hl, if_true]
  simp only [computeA, vTruth, hd, magOf, Val.toF, Py.pure_bind', siteOfA, Val.truthy]
  by_cases h : v = 0 <;> simp [h]

/-- row `i` of a `zipWith` -/
theorem getD_zip {α : Type} (f : α → F → F) {tab : List α} {ds : List F} {i : ℕ} {c : α} {r : F}
    (hc : tab[i]? = some c) (hr : ds[i]? = some r) :
    (List.zipWith f tab ds).getD i F.nan = f c r := by
  simp [List.getD_eq_getElem?_getD, List.getElem?_zipWith, hc, hr]

theorem getD_map {α : Type} (f : α → F) {tab : List α} {i : ℕ} {c : α} (hc : tab[i]? = some c) :
    (tab.map f).getD i F.nan = f c := by
  simp [List.getD_eq_getElem?_getD, hc]

/-- **Hard rock, 27 distances**: the model is constructed without an error or a warning, and
ordinate `i` is what a model constructed with the `i`-th distance alone gives at ordinate `i`. -/
theorem C113_pairs_rock (get : String → AVal) (m : ℝ) (l : List ℝ)
    (hm : get "mag" = .scalar (.num m)) (hr : get "dist_rup" = .array l)
    (hv : get "v_s30" = .scalar (.num 0)) (hl : l.length = 27) :
    ∃ o, (newA get).res = .ok o ∧ (newA get).log = [] ∧ o.lnResp.length = 27 ∧
      ∀ i (r : ℝ), l[i]? = some r →
        ∀ s : Scenario, s.get "mag" = .num m → s.get "dist_rup" = .num r → s.get "v_s30" = .num 0 →
          ∃ o', Gives cls s o' ∧ o.lnResp.getD i F.nan = o'.lnResp.getD i F.nan := by
  have e := newA_array hm hr hv hl
  rw [if_pos rfl] at e
  refine ⟨_, by rw [e]; rfl, by rw [e]; rfl, ?_, ?_⟩
  · simp only [outRows, List.length_zipWith, List.length_map, rock_length, hl]; rfl
  · intro i r hi s h1 h2 h3
    refine ⟨_, gives s h1 h2 h3, ?_⟩
    have hlt : i < rock.length := by
      rw [rock_length, ← hl]; exact (List.getElem?_eq_some_iff.1 hi).1
    rw [if_pos rfl]
    simp only [outRows, out]
    rw [getD_zip _ (List.getElem?_eq_getElem hlt) (by rw [List.getElem?_map, hi]; rfl),
      getD_map _ (List.getElem?_eq_getElem hlt)]

/-- **Soil, 27 distances**: constructed as silently; ordinate `i` takes its reference motion from
the `i`-th distance, but its site amplification from the PGA at the third. -/
theorem C113_pairs_soil (get : String → AVal) (m v : ℝ) (l : List ℝ)
    (hm : get "mag" = .scalar (.num m)) (hr : get "dist_rup" = .array l)
    (hv : get "v_s30" = .scalar (.num v)) (hv0 : v ≠ 0) (hl : l.length = 27) :
    ∃ o, (newA get).res = .ok o ∧ (newA get).log = [] ∧ o.lnResp.length = 27 ∧
      ∀ i (r r2 : ℝ), l[i]? = some r → l[2]? = some r2 →
        ∀ c : Row, bc[i]? = some c →
          o.lnResp.getD i F.nan = toLn (log10Base c (F.ofReal m) (F.ofReal r)
            + log10Site c.period (F.ofReal v) (pgaBc (F.ofReal m) (F.ofReal r2))) := by
  have e := newA_array hm hr hv hl
  rw [if_neg hv0] at e
  refine ⟨_, by rw [e]; rfl, by rw [e]; rfl, ?_, ?_⟩
  · simp only [outRows, List.length_zipWith, List.length_map, bc_length, hl]; rfl
  · intro i r r2 hi h2 c hc
    simp only [outRows]
    rw [getD_zip _ hc (by rw [List.getElem?_map, hi]; rfl)]
    have hlt : 2 < bc.length := by rw [bc_length]; norm_num
    rw [getD_zip _ (List.getElem?_eq_getElem hlt) (by rw [List.getElem?_map, h2]; rfl), pgaBc,
      getD_map _ (List.getElem?_eq_getElem hlt)]

/-- **Soil, 27 positive distances**: ordinate `i` is what a model constructed with the `i`-th
distance alone gives, when that distance is also the third, or the site is at least as stiff as
760 m/s. -/
theorem C113_soil_same (get : String → AVal) (m v : ℝ) (l : List ℝ)
    (hm : get "mag" = .scalar (.num m)) (hr : get "dist_rup" = .array l)
    (hv : get "v_s30" = .scalar (.num v)) (hv0 : 0 < v) (hl : l.length = 27) {o : GmmOut}
    (ho : (newA get).res = .ok o) (i : ℕ) (r r2 : ℝ) (hi : l[i]? = some r) (h2 : l[2]? = some r2)
    (hr0 : 0 < r) (hr2 : 0 < r2) (hsame : r = r2 ∨ 760 ≤ v) (s : Scenario)
    (h1 : s.get "mag" = .num m) (h3 : s.get "dist_rup" = .num r) (h4 : s.get "v_s30" = .num v) :
    ∃ o', Gives cls s o' ∧ o.lnResp.getD i F.nan = o'.lnResp.getD i F.nan := by
  obtain ⟨o1, e1, -, -, H⟩ := C113_pairs_soil get m v l hm hr hv hv0.ne' hl
  obtain rfl : o1 = o := by rw [e1] at ho; exact (Except.ok.injEq _ _ ▸ ho)
  refine ⟨_, gives s h1 h3 h4, ?_⟩
  have hlt : i < bc.length := by
    rw [bc_length, ← hl]; exact (List.getElem?_eq_some_iff.1 hi).1
  rw [if_neg hv0.ne', H i r r2 hi h2 _ (List.getElem?_eq_getElem hlt)]
  simp only [out]
  rw [getD_map _ (List.getElem?_eq_getElem hlt)]
  rcases hsame with rfl | hs
  · rfl
  · congr 2
    unfold log10Site
    congr 1
    apply List.map_congr_left
    intro c _
    have h0 : (bNl c (F.ofReal v)).val = 0 := by
      rw [bNl_val, specBnl, if_neg (by linarith), if_neg (by linarith)]
      split
      · rw [show v = 760 by linarith]; norm_num
      · rfl
    have hb := bNl_ok c hv0
    have p1 := pgaBc_ok m hr0
    have p2 := pgaBc_ok m hr2
    have q : ∀ p : F, 0 < max p.val 60 / 100 := fun p =>
      div_pos (lt_max_of_lt_right (by norm_num)) (by norm_num)
    refine Prod.ext rfl ?_
    ext
    · simp only [siteNode, fsimp, h0, zero_mul]
    · simp only [siteNode, fsimp, hb, p1, p2, q, Real.exp_pos]

/-- **What is refused**: an array of distances with neither 1 nor 27 entries, a list of distances,
an array of magnitudes or of site velocities with other than one entry, a list of magnitudes. -/
theorem C113_refused (get : String → AVal) (hm : get "mag" ≠ .scalar .none)
    (hr : get "dist_rup" ≠ .scalar .none) (hv : get "v_s30" ≠ .scalar .none)
    (h : (∃ l, get "dist_rup" = .array l ∧ l.length ≠ 1 ∧ l.length ≠ 27) ∨
      (∃ l, get "dist_rup" = .list l) ∨ (∃ l, get "mag" = .array l ∧ l.length ≠ 1) ∨
      (∃ l, get "mag" = .list l) ∨ (∃ l, get "v_s30" = .array l ∧ l.length ≠ 1) ∨
      (∃ l, get "v_s30" = .list l ∧ l ≠ [])) :
    ∃ e, (newA get).res = .error e := by
  rw [newA_eq hm hr hv, computeA]
  have key : ∀ {α β : Type} (x : Py α) (f : α → Py β), (∀ a, ∃ e, (f a).res = .error e) →
      ∃ e, (x >>= f).res = .error e := by
    intro α β x f hf
    cases hx : x.res with
    | error e => exact ⟨e, Py.bind_res_error hx f⟩
    | ok a => obtain ⟨e, he⟩ := hf a; exact ⟨e, by rw [Py.bind_res_ok hx, he]⟩
  rcases h with ⟨l, e, h1, h27⟩ | ⟨l, e⟩ | ⟨l, e, h1⟩ | ⟨l, e⟩ | ⟨l, e, h1⟩ | ⟨l, e, h1⟩
  · apply key; intro b
    rw [e]
    match l, h1, h27 with
    | [], _, _ => exact ⟨_, rfl⟩
    | _ :: _ :: _, _, h27 =>
      rw [distRows, if_neg h27]
      · exact ⟨_, rfl⟩
      · simp
    | [_], h1, _ => exact absurd rfl h1
  · apply key; intro b
    rw [e]; exact ⟨_, rfl⟩
  · apply key; intro b; apply key; intro d
    rw [e]
    match l, h1 with
    | [], _ => exact ⟨_, rfl⟩
    | _ :: _ :: _, _ => exact ⟨_, rfl⟩
    | [_], h1 => exact absurd rfl h1
  · apply key; intro b; apply key; intro d
    rw [e, magOf]
    split <;> exact ⟨_, rfl⟩
  · rw [e]
    match l, h1 with
    | [], _ => exact ⟨_, rfl⟩
    | _ :: _ :: _, _ => exact ⟨_, rfl⟩
    | [_], h1 => exact absurd rfl h1
  · rw [e]
    match l, h1 with
    | a :: l, _ =>
      rw [show vTruth (.list (a :: l)) = pure true from rfl, Py.pure_bind']
      apply key; intro d; apply key; intro m
      exact ⟨_, rfl⟩

/-- **The empty list as a site velocity** is taken for hard rock. -/
theorem C113_empty_list (get : String → AVal) (m r : ℝ) (hm : get "mag" = .scalar (.num m))
    (hr : get "dist_rup" = .scalar (.num r)) (hv : get "v_s30" = .list []) (s : Scenario)
    (h1 : s.get "mag" = .num m) (h3 : s.get "dist_rup" = .num r) (h4 : s.get "v_s30" = .num 0) :
    ∃ o, (newA get).res = .ok o ∧ Gives cls s o := by
  refine ⟨_, ?_, gives s h1 h3 h4⟩
  rw [newA_eq (by simp [hm]) (by simp [hr]) (by simp [hv]), hm, hr, hv, if_pos rfl]
  simp only [computeA, vTruth, distRows, magOf, Val.toF, Py.pure_bind', siteOfA, List.isEmpty_nil,
    Bool.not_true, outRows_same]
  rfl

/-- one-entry arrays act as their entries -/
theorem C113_one_entry (get : String → AVal) (m r v : ℝ) (hm : get "mag" = .array [m])
    (hr : get "dist_rup" = .array [r]) (hv : get "v_s30" = .array [v]) (s : Scenario)
    (h1 : s.get "mag" = .num m) (h3 : s.get "dist_rup" = .num r) (h4 : s.get "v_s30" = .num v) :
    ∃ o, (newA get).res = .ok o ∧ Gives cls s o := by
  refine ⟨_, ?_, gives s h1 h3 h4⟩
  rw [newA_eq (by simp [hm]) (by simp [hr]) (by simp [hv]), hm, hr, hv]
  by_cases h : v = 0
  · simp only [computeA, vTruth, distRows, magOf, Py.pure_bind', siteOfA, AVal.truth, List.map,
      Val.truthy, h, ne_eq, not_true_eq_false, decide_false, if_true, outRows_same]
    rfl
  · simp only [computeA, vTruth, distRows, magOf, Py.pure_bind', siteOfA, AVal.truth, List.map,
      Val.truthy, h, ne_eq, not_false_eq_true, decide_true, if_true, outRows_same]
    rfl

/-- a magnitude 6, 27 distances from 20 to 46 km, on rock, and on a 800 m/s site -/
noncomputable def exArr (v : ℝ) (k : String) : AVal :=
  if k = "mag" then .scalar (.num 6)
  else if k = "dist_rup" then .array ((List.range 27).map fun n : ℕ => (20 + n : ℝ))
  else if k = "v_s30" then .scalar (.num v) else .scalar .none

/-- the hypotheses are met: the 10th ordinate comes from 30 km -/
example : ∃ o, (newA (exArr 0)).res = .ok o ∧ (newA (exArr 0)).log = [] ∧ o.lnResp.length = 27 ∧
    ∃ o', Gives cls ⟨[("mag", .num 6), ("dist_rup", .num 30), ("v_s30", .num 0)], []⟩ o' ∧
      o.lnResp.getD 10 F.nan = o'.lnResp.getD 10 F.nan := by
  obtain ⟨o, h, hl, hn, H⟩ := C113_pairs_rock (exArr 0) 6 _ (by simp [exArr]) (by simp [exArr]; rfl)
    (by simp [exArr]) (by simp)
  exact ⟨o, h, hl, hn, H 10 30 (by simp; norm_num) _ rfl rfl rfl⟩

example : ∃ o o', (newA (exArr 800)).res = .ok o ∧
    Gives cls ⟨[("mag", .num 6), ("dist_rup", .num 30), ("v_s30", .num 800)], []⟩ o' ∧
      o.lnResp.getD 10 F.nan = o'.lnResp.getD 10 F.nan := by
  obtain ⟨o, h, -, -, -⟩ := C113_pairs_soil (exArr 800) 6 800 _ (by simp [exArr])
    (by simp [exArr]; rfl) (by simp [exArr]) (by norm_num) (by simp)
  obtain ⟨o', h1, h2⟩ := C113_soil_same (exArr 800) 6 800 _ (by simp [exArr])
    (by simp [exArr]; rfl) (by simp [exArr]) (by norm_num) (by simp) h 10 30 22 (by simp; norm_num)
    (by simp; norm_num) (by norm_num) (by norm_num) (Or.inr (by norm_num))
    ⟨[("mag", .num 6), ("dist_rup", .num 30), ("v_s30", .num 800)], []⟩ rfl rfl rfl
  exact ⟨o, o', h, h1, h2⟩

/-- three distances are refused -/
example : ∃ e, (newA fun k => if k = "dist_rup" then .array [10, 20, 30] else .scalar (.num 6)).res
    = .error e :=
  C113_refused _ (by simp) (by simp) (by simp) (Or.inl ⟨[10, 20, 30], by simp, by simp, by simp⟩)

end AB06
