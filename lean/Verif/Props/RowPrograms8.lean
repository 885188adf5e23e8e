import Verif.Models.RowKernels8
import Verif.Props.AB06

/-! # C124, continued: Atkinson & Boore (2006) -/

set_option linter.unusedSimpArgs false
set_option maxHeartbeats 1000000

open Arrays Classical

/-- a class whose constructor program leaves the arrays of `o` -/
theorem Arrays.accessed_of' {I : Type} (C : GmmClass) (f : String → I → List Arr → Arr) (test : String → I → Bool) (name : String)
    (body : List Cmd) (hs : (gmm name body).sound = true) (hC : ∀ i ∈ C.indicesPsa, i < C.periods.length)
    (i : I) (args : String → Arr) (t : Tables) (g s : List F) (hg : g.length = C.periods.length) (hs' : s.length = C.periods.length)
    (h1 : vexec (accessors C f test) i t args (block body) noVars "_ln_resp" = g)
    (h2 : vexec (accessors C f test) i t args (block body) noVars "_ln_std" = s) :
    Accessed C ⟨g, some s⟩ (call (accessors C f test).toMeaning (gmm name body) i args t).values := by
  have hc := (call_eq (accessors C f test) (gmm name body) hs i args t).2.2
  refine ⟨C.indicesPsa.map fun j => F.exp (g.getD j F.nan),
    C.indicesPsa.map fun j => s.getD j F.nan, C.indicesPsa.map fun j => C.periods.getD j 0, ?_, ?_, ?_, ?_⟩
  · simp only [Gmm.specAccels]
    rw [pyTake_eq _ _ (by simpa [hg] using hC) F.nan]
    simp only [Py.pure_bind', List.map_map]
    rfl
  · simp only [Gmm.lnStds]
    rw [pyTake_eq _ _ (by simpa [hs'] using hC) F.nan]
    rfl
  · simp only [Gmm.periods]; rw [pyTake_eq _ _ hC 0]; rfl
  · simp only [Outcome.values]
    rw [hc]
    simp only [gmm, vexec_block_append, gmmAccessors, block, vexec, List.map_cons, List.map_nil]
    simp only [String.reduceAppend, update_same, update_other, ne_eq, String.reduceEq, not_false_eq_true, h1, h2]
    simp [accessors]

namespace AB06

theorem rows_length (i : In) : i.rows.length = bc.length := by
  have h1 : rock.length = bc.length := by decide +kernel
  unfold In.rows
  split
  · rfl
  · exact h1

/-- the rows carry the periods of the B/C table -/
theorem atPeriods_rows (i : In) (x : List ℚ) (y : Arr) :
    atPeriods x y = i.rows.map fun c => npInterp (List.zip (x.map fun q : ℚ => (q : ℝ)) y) c.period := by
  unfold atPeriods In.rows
  split
  · rfl
  · have e : ∀ l : List Row, (l.map fun c => npInterp (List.zip (x.map fun q : ℚ => (q : ℝ)) y) c.period) =
        (l.map (·.period)).map fun q : ℚ => npInterp (List.zip (x.map fun q : ℚ => (q : ℝ)) y) q := by
      intro l; rw [List.map_map]; rfl
    rw [e, e, periods_agree]

theorem zip_map {α : Type} (l : List α) (x : α → ℚ) (y : α → F) :
    List.zip ((l.map x).map fun q : ℚ => (q : ℝ)) (l.map y) = l.map fun c => ((x c : ℝ), y c) := by
  rw [List.map_map, List.zip_map']; rfl

theorem zipWith_maps {α : Type} (l : List α) (f : F → F → F) (x y : α → F) :
    List.zipWith f (l.map x) (l.map y) = l.map fun c => f (x c) (y c) := by
  rw [List.zipWith_map, List.zipWith_self]

/-- lines 65-86 -/
theorem run_base (i : In) :
    formula "ab06:86" i [formula "ab06:75" i []] = i.rows.map fun c => log10Base c i.mag i.dist := by
  simp only [formula, String.reduceEq, ↓reduceIte, List.getD_cons_zero]
  rw [atPeriods_rows i, zip_map, zipWith_maps]
  rfl

/-- lines 157-172 -/
theorem run_site (i : In) (hv : i.v.ok) (hb : i.rows = bc) (t : Tables)
    (ht : t "AtkinsonBoore2006.site.b_1" = site.map fun c => F.ofRat c.b_1) (args : String → Arr) (e : Env)
    (he : e "log10_resp" = i.rows.map fun c => log10Base c i.mag i.dist) :
    vexec (accessors .ab06 formula test) i t args (block
      [.ite "ab06:157" (.bind "b_nl" (.column "AtkinsonBoore2006.site.b_1"))
         (.ite "ab06:159" (.new "b_nl" "ab06:160" []) (.ite "ab06:161" (.new "b_nl" "ab06:162" []) (.new "b_nl" "ab06:165" []))),
       .new "log10_site" "ab06:169" ["log10_resp", "b_nl"], .new "log10_site" "ab06:172" ["log10_site"]]) e "log10_site" =
      i.rows.map fun c => log10Site c.period i.v (pgaBc i.mag i.dist) := by
  have hp : (10 : F) ^ ((i.rows.map fun c => log10Base c i.mag i.dist).getD 2 F.nan) = pgaBc i.mag i.dist := by rw [hb]; rfl
  have key : ∀ b : Arr, (b = site.map fun c => bNl c i.v) →
      formula "ab06:172" i [formula "ab06:169" i [i.rows.map fun c => log10Base c i.mag i.dist, b]] =
        i.rows.map fun c => log10Site c.period i.v (pgaBc i.mag i.dist) := by
    rintro b rfl
    simp only [formula, String.reduceEq, ↓reduceIte, List.getD_cons_zero, List.getD_cons_succ, hp]
    rw [List.zipWith_map_right, List.zipWith_self, atPeriods_rows i, zip_map]
    rfl
  have hb1 : ∀ c : SiteRow, bNl c i.v = if i.v.val ≤ 180 then F.ofRat c.b_1 else if i.v.val ≤ 300 then
      (c.b_1 - c.b_2) * F.log (i.v / 300) / F.log (180 / 300) else if i.v.val ≤ 760 then
      c.b_2 * F.log (i.v / 760) / F.log (300 / 760) else 0 := by
    intro c
    unfold bNl
    rw [iteLe_of hv trivial, iteLe_of hv trivial, iteLe_of hv trivial]
    rfl
  rowrun [accessors, test, he]
  by_cases h1 : i.v.val ≤ 180
  · simp only [h1, decide_true, ↓reduceIte, update_same, update_other, ne_eq, not_false_eq_true, String.reduceEq, ht]
    refine key _ ?_
    refine List.map_congr_left fun c _ => ?_
    rw [hb1, if_pos h1]
  · have h1' : 180 < i.v.val := not_le.1 h1
    by_cases h2 : i.v.val ≤ 300
    · simp only [h1, h1', h2, and_self, decide_true, decide_false, Bool.false_eq_true, ↓reduceIte, update_same, update_other, ne_eq, not_false_eq_true, String.reduceEq, he]
      refine key _ ?_
      simp only [formula, String.reduceEq, ↓reduceIte]
      refine List.map_congr_left fun c _ => ?_
      rw [hb1, if_neg h1, if_pos h2]
    · have h2' : 300 < i.v.val := not_le.1 h2
      by_cases h3 : i.v.val ≤ 760
      · simp only [h1, h2, h2', h3, and_self, and_false, decide_true, decide_false, Bool.false_eq_true, ↓reduceIte, update_same, update_other, ne_eq, not_false_eq_true, String.reduceEq, he]
        refine key _ ?_
        simp only [formula, String.reduceEq, ↓reduceIte]
        refine List.map_congr_left fun c _ => ?_
        rw [hb1, if_neg h1, if_neg h2, if_pos h3]
      · simp only [h1, h2, h3, and_self, and_false, decide_true, decide_false, Bool.false_eq_true, ↓reduceIte, update_same, update_other, ne_eq, not_false_eq_true, String.reduceEq, he]
        refine key _ ?_
        simp only [formula, String.reduceEq, ↓reduceIte]
        refine List.map_congr_left fun c _ => ?_
        rw [hb1, if_neg h1, if_neg h2, if_neg h3]

/-- atkinson_boore_2006.py lines 48-112 -/
theorem run (i : In) (hv : i.site.isSome → i.v.ok) (t : Tables)
    (ht : t "AtkinsonBoore2006.site.b_1" = site.map fun c => F.ofRat c.b_1) (args : String → Arr) :
    Accessed .ab06 (out i.mag i.dist i.site) (call (accessors .ab06 formula test).toMeaning ab06 i args t).values := by
  have hl : bc.length = GmmClass.ab06.periods.length := by decide +kernel
  have e : out i.mag i.dist i.site = ⟨i.rows.map fun c => toLn (log10Base c i.mag i.dist +
      (if i.site.isSome then log10Site c.period i.v (pgaBc i.mag i.dist) else 0)), some (bc.map fun _ => 0.30)⟩ := by
    rcases i with ⟨m, d, _ | v⟩
    · simp only [In.rows, out, Option.isSome_none, Bool.false_eq_true, if_false, add_zero_F]
    · simp only [In.rows, out, Option.isSome_some, if_true]; rfl
  rw [e]
  refine accessed_of' _ _ _ _ _ (by decide +kernel) (by decide +kernel) _ _ _ _ _
    (by rw [List.length_map, rows_length, hl]) (by rw [List.length_map, hl]) ?_ ?_
  · have hf : ∀ (x : Row → F), formula "ab06:99" i [formula "ab06:97" i [i.rows.map x]] = i.rows.map fun c => toLn (x c) := by
      intro x
      simp only [formula, String.reduceEq, ↓reduceIte, List.getD_cons_zero, List.map_map]
      rfl
    by_cases h : i.site.isSome
    · have hb : i.rows = bc := by unfold In.rows; rw [if_pos h]
      have e1 : ∀ e : Env, vexec (accessors .ab06 formula test) i t args (block
          [.new "log10_resp" "ab06:75" [], .write "log10_resp" "ab06:86" ["log10_resp"]]) e "log10_resp" =
          i.rows.map fun c => log10Base c i.mag i.dist := by
        intro e
        rowrun [accessors]
        exact run_base i
      change vexec _ _ _ _ (block ([_, _] ++ [_, _, _, _])) _ _ = _
      rw [vexec_block_append]
      have e1 := e1 noVars
      generalize vexec _ _ _ _ _ noVars = e at e1 ⊢
      have e2 := run_site i (hv h) hb t ht args e e1
      have e3 : vexec (accessors .ab06 formula test) i t args (block
          [.ite "ab06:157" (.bind "b_nl" (.column "AtkinsonBoore2006.site.b_1"))
            (.ite "ab06:159" (.new "b_nl" "ab06:160" []) (.ite "ab06:161" (.new "b_nl" "ab06:162" []) (.new "b_nl" "ab06:165" []))),
          .new "log10_site" "ab06:169" ["log10_resp", "b_nl"], .new "log10_site" "ab06:172" ["log10_site"]]) e "log10_resp" =
          i.rows.map fun c => log10Base c i.mag i.dist := (vexec_frame _ _ _ _ _ _ (by decide +kernel)).trans e1
      have e4 : vexec (accessors .ab06 formula test) i t args (block
          ([.ite "ab06:157" (.bind "b_nl" (.column "AtkinsonBoore2006.site.b_1"))
            (.ite "ab06:159" (.new "b_nl" "ab06:160" []) (.ite "ab06:161" (.new "b_nl" "ab06:162" []) (.new "b_nl" "ab06:165" []))),
          .new "log10_site" "ab06:169" ["log10_resp", "b_nl"], .new "log10_site" "ab06:172" ["log10_site"]] ++
          [.write "log10_resp" "ab06:94" ["log10_resp", "log10_site"]])) e "log10_resp" =
          i.rows.map fun c => log10Base c i.mag i.dist + log10Site c.period i.v (pgaBc i.mag i.dist) := by
        rw [vexec_block_append]
        generalize vexec _ _ _ _ _ e = e' at e2 e3 ⊢
        rowrun [accessors, e2, e3]
        simp only [formula, String.reduceEq, ↓reduceIte, List.getD_cons_zero, List.getD_cons_succ]
        rw [zipWith_maps]
      have h88 : test "ab06:88" i = true := h
      change vexec _ _ _ _ (.seq (.ite _ _ _) (block [_, _, _])) _ _ = _
      rw [vexec]
      have e5 : vexec (accessors .ab06 formula test) i t args (.ite "ab06:88" (block
          ([.ite "ab06:157" (.bind "b_nl" (.column "AtkinsonBoore2006.site.b_1"))
            (.ite "ab06:159" (.new "b_nl" "ab06:160" []) (.ite "ab06:161" (.new "b_nl" "ab06:162" []) (.new "b_nl" "ab06:165" []))),
          .new "log10_site" "ab06:169" ["log10_resp", "b_nl"], .new "log10_site" "ab06:172" ["log10_site"]] ++
          [.write "log10_resp" "ab06:94" ["log10_resp", "log10_site"]])) .skip) e "log10_resp" =
          i.rows.map fun c => log10Base c i.mag i.dist + log10Site c.period i.v (pgaBc i.mag i.dist) := by
        rw [vexec, if_pos (show (accessors .ab06 formula test).test "ab06:88" i args = true from h88)]
        exact e4
      change vexec _ _ _ _ _ (vexec _ _ _ _ (.ite "ab06:88" (block ([_, _, _] ++ [_])) .skip) e) _ = _
      generalize vexec _ _ _ _ (.ite "ab06:88" _ _) e = e' at e5 ⊢
      rowrun [accessors, e5, hf]
      refine List.map_congr_left fun c _ => ?_
      rw [if_pos h]
    · have h88 : test "ab06:88" i = false := by simpa [test] using h
      rowrun [accessors, h88, Bool.false_eq_true]
      rw [run_base, hf]
      refine List.map_congr_left fun c _ => ?_
      rw [if_neg h, add_zero_F]
  · rw [show (fun _ : Row => (0.30 : F)) = fun _ => 0.30 from rfl]
    change vexec _ _ _ _ (block ([_, _, _, _, _] ++ [_])) _ _ = _
    rw [vexec_block_append]
    generalize vexec _ _ _ _ _ noVars = e
    rowrun [accessors, formula]

end AB06

/-- Atkinson & Boore (2006) -/
theorem C124_ab06 (s : Scenario) {m r v : ℝ} (hm : s.get "mag" = .num m) (hr : s.get "dist_rup" = .num r)
    (hv : s.get "v_s30" = .num v) (args : String → Arr) (t : Tables)
    (ht : t "AtkinsonBoore2006.site.b_1" = AB06.site.map fun c => F.ofRat c.b_1) :
    ∃ o, Gives AB06.cls s o ∧
      Accessed .ab06 o (call (accessors .ab06 AB06.formula AB06.test).toMeaning ab06
        ⟨F.ofReal m, F.ofReal r, if v = 0 then none else some (F.ofReal v)⟩ args t).values := by
  refine ⟨_, AB06.gives s hm hr hv, AB06.run ⟨F.ofReal m, F.ofReal r, if v = 0 then none else some (F.ofReal v)⟩ ?_ t ht args⟩
  intro h
  by_cases h0 : v = 0
  · simp [h0] at h
  · simp [AB06.In.v, h0]

/-- a soft site -/
example : ∃ o, Gives AB06.cls ⟨[("mag", .num 6.5), ("dist_rup", .num 20), ("v_s30", .num 250)], []⟩ o ∧
    Accessed .ab06 o (call (accessors .ab06 AB06.formula AB06.test).toMeaning ab06
      ⟨F.ofReal 6.5, F.ofReal 20, if (250 : ℝ) = 0 then none else some (F.ofReal 250)⟩ (fun _ => [])
      (fun _ => AB06.site.map fun c => F.ofRat c.b_1)).values :=
  C124_ab06 _ rfl rfl rfl _ _ rfl
