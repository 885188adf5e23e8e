import Verif.Models.BA19
import Verif.Bounds
import Verif.Props.Estimators
import Mathlib.Analysis.Convex.SpecificFunctions.Basic

/-! # C41, C42, C70, C71: Bayless & Abrahamson (2019) -/

open Bounds


set_option linter.unusedSimpArgs false

namespace BA19

theorem ok_params : ParamsOk cls.params := by change ParamsOk Decls.ba19; decide +kernel
theorem nodup : (Decls.ba19.map Param.name).Nodup := by decide +kernel

/-- numeric inputs of a scenario -/
structure Given where
  rup : ℝ
  mag : ℝ
  v : ℝ
  tor : ℝ
  z1 : Option ℝ := none

/-- `s` holds these numbers (and anything as mechanism) -/
structure Source (s : Scenario) (g : Given) : Prop where
  rup : s.get "dist_rup" = .num g.rup
  mag : s.get "mag" = .num g.mag
  v : s.get "v_s30" = .num g.v
  tor : s.get "depth_tor" = .num g.tor
  z1 : s.get "depth_1_0" = Val.ofOpt g.z1

noncomputable section

/-- the inputs of the formulas -/
def Given.toIn (g : Given) (ns : Bool) : In where
  rup := F.ofReal g.rup
  mag := F.ofReal g.mag
  v := F.ofReal g.v
  tor := F.ofReal g.tor
  z1 := F.orEst g.z1 (calcDepth10 (F.ofReal g.v))
  ns := ns

end

theorem ns_cat (v : Val) : (catVal ["SS", "NS", "RS"] (.str "SS") v).isStr "NS" = v.isStr "NS" := by
  unfold catVal
  split
  · rfl
  · rename_i h
    simp only [List.mem_cons, List.not_mem_nil, or_false, exists_eq_or_imp, exists_eq_left, not_or] at h
    simp [Val.isStr, h, Lit.toVal]

/-- Construction from a numeric scenario succeeds. -/
theorem built {s : Scenario} {g : Given} (h : Source s g) :
    ∃ inst, (cls.new s).res = .ok inst ∧
      inst.out = out (g.toIn ((s.get "mechanism").isStr "NS")) ∧
      inst.scenario.num "depth_1_0" = pure (F.orEst g.z1 (calcDepth10 (F.ofReal g.v))) := by
  apply built_of ok_params s (P := fun t => t.num "depth_1_0" =
    pure (F.orEst g.z1 (calcDepth10 (F.ofReal g.v))))
  · simp only [cls, Decls.ba19, List.forall_mem_cons]
    exact ⟨pass_num h.rup, pass_num h.mag, pass_num h.v, pass_num h.tor, pass_opt h.z1, pass_cat_opt,
      fun _ h => by simp at h⟩
  intro d hd
  have hn := nodup
  have a1 := Scenario.getAttr_of (Checked.num hd hn (name := "dist_rup") (by mem_tac) h.rup)
  have a2 := Scenario.getAttr_of (Checked.num hd hn (name := "mag") (by mem_tac) h.mag)
  have a3 := Scenario.getAttr_of (Checked.num hd hn (name := "v_s30") (by mem_tac) h.v)
  have a4 := Scenario.getAttr_of (Checked.num hd hn (name := "depth_tor") (by mem_tac) h.tor)
  have b1 := Scenario.getAttr_of (Checked.opt hd hn (name := "depth_1_0") (by mem_tac) h.z1)
  have c1 := Scenario.getAttr_of (Checked.cat_val hd hn (name := "mechanism") (by mem_tac))
  set s0 : Scenario := ⟨d, []⟩
  have f1 : fillItem "depth_1_0" estDepth10 s0 = pure (s0.doneItem "depth_1_0" g.z1
      (calcDepth10 (F.ofReal g.v))) := by
    apply fillItem_eq rfl b1
    intro _
    simp only [estDepth10, Scenario.num_of_num a3, Py.pure_bind']
  set s1 := s0.doneItem "depth_1_0" g.z1 (calcDepth10 (F.ofReal g.v))
  have nn : ∀ k, "depth_1_0" ≠ k → s1.getAttr k = s0.getAttr k :=
    fun k hk => Scenario.doneItem_other rfl hk
  have q1 : s1.num "depth_1_0" = pure (F.orEst g.z1 (calcDepth10 (F.ofReal g.v))) :=
    Scenario.num_of_est (Scenario.doneItem_self rfl b1)
  refine ⟨s1, ?_, q1, ?_⟩
  · simp only [cls, f1, Py.pure_res]
  · have r1 := Scenario.num_of_num ((nn "dist_rup" (by decide)).trans a1)
    have r2 := Scenario.num_of_num ((nn "mag" (by decide)).trans a2)
    have r3 := Scenario.num_of_num ((nn "v_s30" (by decide)).trans a3)
    have r4 := Scenario.num_of_num ((nn "depth_tor" (by decide)).trans a4)
    have r5 := (nn "mechanism" (by decide)).trans c1
    simp only [cls, r1, r2, r3, r4, r5, q1, Py.pure_bind', Py.pure_res, ns_cat]
    rfl

theorem gives {s : Scenario} {g : Given} (h : Source s g) :
    Gives cls s (out (g.toIn ((s.get "mechanism").isStr "NS"))) := by
  obtain ⟨inst, h1, h2, -⟩ := built h
  exact ⟨inst, h1, h2⟩

/-! ### The coefficient rows -/

@[simp, fsimp] theorem co_val (o : Option ℚ) : (co o).val = ((o.getD 0 : ℚ) : ℝ) := by
  cases o <;> simp [co, F.nan]
@[simp, fsimp] theorem co_ok (o : Option ℚ) : (co o).ok ↔ o.isSome = true := by
  cases o <;> simp [co]

theorem usable_length : usable.length = 239 := by decide +kernel
theorem table_length : table.length = 301 := by decide +kernel

/-- every coefficient is present on the usable frequencies -/
theorem row_some : ∀ c ∈ usable, c.c1.isSome ∧ c.c2.isSome ∧ c.c3.isSome ∧ c.cn.isSome ∧ c.cM.isSome ∧
    c.c4.isSome ∧ c.c5.isSome ∧ c.c6.isSome ∧ c.chm.isSome ∧ c.c7.isSome ∧ c.c8.isSome ∧ c.c9.isSome ∧
    c.c10.isSome ∧ c.c11a.isSome ∧ c.c11b.isSome ∧ c.c11c.isSome ∧ c.c11d.isSome ∧ c.c1a.isSome := by
  decide +kernel

theorem row_facts : ∀ c ∈ usable, c.c2.getD 0 = 1.27 ∧ 1.27 < c.c3.getD 0 ∧ 0 < c.cn.getD 0 ∧
    c.c4.getD 0 = -1.86 ∧ 0 < c.c5.getD 0 ∧ 0 < c.c6.getD 0 ∧ c.c6.getD 0 < 0.5 ∧ c.c7.getD 0 < 0 ∧
    c.c10.getD 0 = -0.2 ∧ 0 < c.f3 ∧ c.f4 < 0 ∧ c.f5 < 0 := by decide +kernel

/-! ### The flattening and smoothing of the nonlinear term -/

/-- entry `k` of the flattened list -/
theorem flatten_getD {l : List F} {k : ℕ} (hk : k < l.length) :
    (flatten l).getD k 0 = if k ≤ argmin l then l.getD k F.nan else atArgmin l := by
  simp only [flatten, List.getD_eq_getElem?_getD, List.getElem?_mapIdx, List.getElem?_eq_getElem hk,
    Option.map_some, Option.getD_some]

theorem flatten_length (l : List F) : (flatten l).length = l.length := by simp [flatten]

theorem flatten_getD_ge {l : List F} {k : ℕ} (hk : l.length ≤ k) : (flatten l).getD k 0 = 0 := by
  rw [List.getD_eq_getElem?_getD, List.getElem?_eq_none (by rw [flatten_length]; exact hk)]
  rfl

/-- the smoothed value at `k` -/
noncomputable def avg (l : List F) (k : ℕ) : F :=
  F.sum ((List.range 7).map fun j => if k + j < 3 then 0 else (flatten l).getD (k + j - 3) 0 * (1 / 7))

theorem smooth_getD {l : List F} {k : ℕ} (hk : k < l.length) :
    (smooth (flatten l)).getD k F.nan = avg l k := by
  simp only [smooth, avg, flatten_length, List.getD_eq_getElem?_getD, List.getElem?_map,
    List.getElem?_range hk, Option.map_some, Option.getD_some]

theorem smooth_length (l : List F) : (smooth l).length = l.length := by simp [smooth]

theorem shape_length (l : List F) : (shape l).length = l.length := by
  simp [shape, smooth_length, flatten_length]

/-- entry `k` of the shaped list -/
theorem shape_getD {l : List F} {k : ℕ} (hk : k < l.length) :
    (shape l).getD k F.nan = if k + 7 < l.length then avg l k else avg l (argmin l) := by
  have hne : l ≠ [] := by rintro rfl; simp at hk
  have hk' : k < (smooth (flatten l)).length := by rw [smooth_length, flatten_length]; exact hk
  have e : (shape l).getD k F.nan = if k + 7 < l.length then (smooth (flatten l)).getD k F.nan
      else (smooth (flatten l)).getD (argmin l) F.nan := by
    simp only [shape, List.getD_eq_getElem?_getD, List.getElem?_mapIdx, List.getElem?_eq_getElem hk',
      Option.map_some, Option.getD_some]
  rw [e, smooth_getD hk, smooth_getD (argmin_lt hne)]

theorem sum7 (f : ℕ → ℝ) : ((List.range 7).map f).sum = f 0 + f 1 + f 2 + f 3 + f 4 + f 5 + f 6 := by
  simp only [show List.range 7 = [0, 1, 2, 3, 4, 5, 6] from rfl, List.map_cons, List.map_nil,
    List.sum_cons, List.sum_nil]
  ring

theorem avg_ok {l : List F} (h : ∀ x ∈ l, x.ok) (k : ℕ) : (avg l k).ok := by
  unfold avg
  rw [F.ok_sum]
  intro a ha
  obtain ⟨j, -, rfl⟩ := List.mem_map.1 ha
  split
  · simp
  · by_cases hk : k + j - 3 < l.length
    · rw [flatten_getD hk]
      split
      · simp only [fsimp, List.getD_eq_getElem?_getD, List.getElem?_eq_getElem hk, Option.getD_some]
        exact ⟨h _ (List.getElem_mem hk), by norm_num⟩
      · simp only [fsimp, atArgmin]
        exact ⟨h, by norm_num⟩
    · rw [flatten_getD_ge (by omega)]; simp

/-- the value that entry `k - 3 + j` of the window contributes -/
noncomputable def term (l : List F) (k j : ℕ) : ℝ :=
  if k + j < 3 then 0 else ((flatten l).getD (k + j - 3) 0).val

theorem avg_val (l : List F) (k : ℕ) :
    (avg l k).val = (term l k 0 + term l k 1 + term l k 2 + term l k 3 + term l k 4 + term l k 5
      + term l k 6) / 7 := by
  have e : ∀ j, (if k + j < 3 then (0 : F) else (flatten l).getD (k + j - 3) 0 * (1 / 7)).val =
      term l k j / 7 := by
    intro j
    unfold term
    split
    · simp
    · simp only [fsimp]; ring
  unfold avg
  rw [F.val_sum, List.map_map, show (F.val ∘ fun j => if k + j < 3 then (0 : F) else
    (flatten l).getD (k + j - 3) 0 * (1 / 7)) = fun j => term l k j / 7 from funext e, sum7]
  ring

/-- smallest value of the list -/
noncomputable def low (l : List F) : ℝ := (l.getD (argmin l) F.nan).val

theorem getD_mem {l : List F} {k : ℕ} (hk : k < l.length) : l.getD k F.nan ∈ l := by
  simp only [List.getD_eq_getElem?_getD, List.getElem?_eq_getElem hk, Option.getD_some]
  exact List.getElem_mem hk

theorem term_bounds {l : List F} (hl : l ≠ []) (h : ∀ x ∈ l, x.val ≤ 0) (k j : ℕ) :
    low l ≤ term l k j ∧ term l k j ≤ 0 := by
  have h0 : low l ≤ 0 := h _ (getD_mem (argmin_lt hl))
  unfold term
  split
  · exact ⟨h0, le_rfl⟩
  · by_cases hk : k + j - 3 < l.length
    · rw [flatten_getD hk]
      split
      · exact ⟨argmin_le _ (getD_mem hk), h _ (getD_mem hk)⟩
      · exact ⟨le_rfl, h0⟩
    · rw [flatten_getD_ge (by omega)]; simpa using h0

theorem avg_bounds {l : List F} (hl : l ≠ []) (h : ∀ x ∈ l, x.val ≤ 0) (k : ℕ) :
    low l ≤ (avg l k).val ∧ (avg l k).val ≤ 0 := by
  have b := term_bounds hl h k
  rw [avg_val]
  constructor <;> linarith [(b 0).1, (b 1).1, (b 2).1, (b 3).1, (b 4).1, (b 5).1, (b 6).1, (b 0).2,
    (b 1).2, (b 2).2, (b 3).2, (b 4).2, (b 5).2, (b 6).2]

/-- a list of zeros stays zero -/
theorem avg_zero {l : List F} (hl : l ≠ []) (h : ∀ x ∈ l, x.val = 0) (k : ℕ) : (avg l k).val = 0 := by
  have b := avg_bounds hl (fun x hx => (h x hx).le) k
  have : low l = 0 := h _ (getD_mem (argmin_lt hl))
  linarith [b.1, b.2]

theorem term_at {l : List F} {k j : ℕ} (h3 : 3 ≤ k + j) (hk : k + j - 3 < l.length) :
    term l k j = if k + j - 3 ≤ argmin l then (l.getD (k + j - 3) F.nan).val else low l := by
  unfold term
  rw [if_neg (by omega), flatten_getD hk]
  split <;> rfl

/-- a list of negative numbers gives negative averages -/
theorem avg_neg {l : List F} (h : ∀ x ∈ l, x.val < 0) {k : ℕ} (hk : k < l.length) :
    (avg l k).val < 0 := by
  have hl : l ≠ [] := by rintro rfl; simp at hk
  have b := term_bounds hl (fun x hx => (h x hx).le) k
  have : term l k 3 < 0 := by
    rw [term_at (by omega) (by simpa using hk)]
    split
    · exact h _ (getD_mem (by simpa using hk))
    · exact h _ (getD_mem (argmin_lt hl))
  rw [avg_val]
  linarith [(b 0).2, (b 1).2, (b 2).2, (b 4).2, (b 5).2, (b 6).2]

/-- beyond the position of the minimum the average is the minimum -/
theorem avg_eq_low {l : List F} {k : ℕ} (h1 : argmin l + 4 ≤ k) (h2 : k + 3 < l.length) :
    (avg l k).val = low l := by
  have e : ∀ j < 7, term l k j = low l := by
    intro j hj
    rw [term_at (by omega) (by omega), if_neg (by omega)]
  rw [avg_val, e 0 (by omega), e 1 (by omega), e 2 (by omega), e 3 (by omega), e 4 (by omega),
    e 5 (by omega), e 6 (by omega)]
  ring

/-- at the position of the minimum of a negative list the average is larger than the minimum -/
theorem avg_at_argmin {l : List F} (hl : l ≠ []) (h : ∀ x ∈ l, x.val < 0) :
    low l < (avg l (argmin l)).val := by
  have b := term_bounds hl (fun x hx => (h x hx).le) (argmin l)
  have ha := argmin_lt hl
  have : low l < term l (argmin l) 2 := by
    by_cases h0 : argmin l = 0
    · unfold term
      rw [if_pos (by omega)]
      exact h _ (getD_mem ha)
    · rw [term_at (by omega) (by omega), if_pos (by omega)]
      exact argmin_first (by omega)
  rw [avg_val]
  linarith [(b 0).1, (b 1).1, (b 3).1, (b 4).1, (b 5).1, (b 6).1]


/-! ### The nonlinear term before shaping -/

theorem nlRaw_ok {c : Row} (hc : c ∈ usable) {ref : F} (hr : ref.ok) (v : ℝ) :
    (nlRaw (F.ofReal v) ref c).ok := by
  obtain ⟨-, -, -, -, -, -, -, -, -, h3, -⟩ := row_facts c hc
  have h3' : (0 : ℝ) < c.f3 := by exact_mod_cast h3
  simp only [nlRaw, vRef, fsimp, hr]
  exact ⟨h3'.ne', by positivity⟩

theorem nlRaw_val (v : ℝ) (ref : F) (c : Row) :
    (nlRaw (F.ofReal v) ref c).val = c.f4 * (Real.exp (c.f5 * (min v 760 - 360)) - Real.exp (c.f5 * 400)) *
      Real.log ((Real.exp (1.238 + 0.846 * ref.val) + c.f3) / c.f3) := by
  simp only [nlRaw, vRef, fsimp]
  norm_num

theorem nlRaw_zero {v : ℝ} (hv : 760 ≤ v) (ref : F) (c : Row) : (nlRaw (F.ofReal v) ref c).val = 0 := by
  rw [nlRaw_val, min_eq_right hv]
  norm_num

theorem nlLog_pos {c : Row} (hc : c ∈ usable) (x : ℝ) :
    0 < Real.log ((Real.exp x + c.f3) / c.f3) := by
  obtain ⟨-, -, -, -, -, -, -, -, -, h3, -⟩ := row_facts c hc
  have h3' : (0 : ℝ) < c.f3 := by exact_mod_cast h3
  apply Real.log_pos
  rw [lt_div_iff₀ h3']
  have := Real.exp_pos x
  linarith

theorem nlRaw_neg {c : Row} (hc : c ∈ usable) {v : ℝ} (hv : v < 760) (ref : F) :
    (nlRaw (F.ofReal v) ref c).val < 0 := by
  obtain ⟨-, -, -, -, -, -, -, -, -, -, h4, h5⟩ := row_facts c hc
  have h4' : (c.f4 : ℝ) < 0 := by exact_mod_cast h4
  have h5' : (c.f5 : ℝ) < 0 := by exact_mod_cast h5
  rw [nlRaw_val, min_eq_left hv.le]
  have h : Real.exp (c.f5 * 400) < Real.exp (c.f5 * (v - 360)) := by
    apply Real.exp_lt_exp.2; nlinarith
  exact mul_neg_of_neg_of_pos (mul_neg_of_neg_of_pos h4' (by linarith)) (nlLog_pos hc _)

/-- the row at 9.12 Hz has a stronger nonlinearity than those above 16 Hz, for every velocity -/
theorem strong_facts : ∀ c0 ∈ usable[196]?, ∀ c ∈ usable.drop 221, c.f3 = c0.f3 ∧ c0.f5 ≤ c.f5 ∧
    400 * (c.f5 - c0.f5) ≤ 8 ∧
    c.f4 * c.f5 * expHi (400 * (c.f5 - c0.f5)) < c0.f4 * c0.f5 := by decide +kernel

theorem exp_ratio {a b u : ℝ} (hb : 0 < b) (hab : b ≤ a) :
    a / b * (Real.exp (b * u) - 1) ≤ Real.exp (a * u) - 1 := by
  have h := one_add_mul_self_le_rpow_one_add (s := Real.exp (b * u) - 1)
    (by linarith [Real.exp_pos (b * u)]) (p := a / b) ((one_le_div hb).2 hab)
  have e : (1 + (Real.exp (b * u) - 1)) ^ (a / b) = Real.exp (a * u) := by
    rw [add_sub_cancel, ← Real.exp_mul]
    congr 1
    field_simp
  rw [e] at h
  linarith

theorem mem_usable_drop {c : Row} {n : ℕ} (h : c ∈ usable.drop n) : c ∈ usable := List.mem_of_mem_drop h

theorem strong {c0 c : Row} (h0 : usable[196]? = some c0) (hc : c ∈ usable.drop 221) {v : ℝ} (hv : v < 760)
    (ref : F) : (nlRaw (F.ofReal v) ref c0).val < (nlRaw (F.ofReal v) ref c).val := by
  obtain ⟨e3, h5, h8, hlt⟩ := strong_facts c0 h0 c hc
  have hcu := mem_usable_drop hc
  obtain ⟨-, -, -, -, -, -, -, -, -, -, n4, n5⟩ := row_facts c hcu
  have hc0 : c0 ∈ usable := List.mem_of_getElem? h0
  obtain ⟨-, -, -, -, -, -, -, -, -, -, m4, m5⟩ := row_facts c0 hc0
  have hx := le_expHi (q := 400 * (c.f5 - c0.f5)) (by linarith) h8
  push_cast at hx
  have hlt' : (c.f4 : ℝ) * c.f5 * (expHi (400 * (c.f5 - c0.f5)) : ℚ) < c0.f4 * c0.f5 := by exact_mod_cast hlt
  rify at h5 n4 n5 m4 m5
  have hL := nlLog_pos hcu (1.238 + 0.846 * ref.val)
  rw [nlRaw_val, nlRaw_val, min_eq_left hv.le, ← e3]
  apply mul_lt_mul_of_pos_right _ hL
  -- write everything relative to 760 m/s
  have e : ∀ q : ℝ, Real.exp (q * (v - 360)) - Real.exp (q * 400) =
      Real.exp (q * 400) * (Real.exp (-q * (760 - v)) - 1) := by
    intro q
    have : q * (v - 360) = q * 400 + -q * (760 - v) := by ring
    rw [this, Real.exp_add]
    ring
  rw [e, e]
  have hr := exp_ratio (u := 760 - v) (b := -c.f5) (a := -c0.f5) (by linarith) (by linarith)
  have hp : 0 < Real.exp (-(c.f5 : ℝ) * (760 - v)) - 1 := by
    have : (1 : ℝ) < Real.exp (-(c.f5 : ℝ) * (760 - v)) := Real.one_lt_exp_iff.2 (by nlinarith)
    linarith
  have hE : Real.exp (c.f5 * 400) = Real.exp (c0.f5 * 400) * Real.exp (400 * (c.f5 - c0.f5)) := by
    rw [← Real.exp_add]; congr 1; ring
  rw [hE]
  have hE0 := Real.exp_pos ((c0.f5 : ℝ) * 400)
  set E := Real.exp (400 * ((c.f5 : ℝ) - c0.f5))
  set E0 := Real.exp ((c0.f5 : ℝ) * 400)
  set X := Real.exp (-(c.f5 : ℝ) * (760 - v)) - 1
  set Y := Real.exp (-(c0.f5 : ℝ) * (760 - v)) - 1
  -- divide by E0
  have k1 : (c.f4 : ℝ) * c.f5 * E ≤ c.f4 * c.f5 * (expHi (400 * (c.f5 - c0.f5)) : ℚ) :=
    mul_le_mul_of_nonneg_left (by exact_mod_cast hx) (mul_pos_of_neg_of_neg n4 n5).le
  have k2 : -(c.f4 : ℝ) * E * X < -c0.f4 * Y := by
    have s1 : -(c0.f4 : ℝ) * (-c0.f5 / -c.f5 * X) ≤ -c0.f4 * Y := mul_le_mul_of_nonneg_left hr (by linarith)
    refine lt_of_lt_of_le ?_ s1
    have s2 : -(c0.f4 : ℝ) * (-c0.f5 / -c.f5 * X) = (c0.f4 * c0.f5) / (-c.f5) * X := by
      field_simp
    rw [s2]
    apply mul_lt_mul_of_pos_right _ hp
    rw [lt_div_iff₀ (by linarith)]
    linarith
  nlinarith

/-- the nonlinear term before shaping -/
noncomputable def nls (v : ℝ) (ref : F) : List F := usable.map (nlRaw (F.ofReal v) ref)

theorem nls_length (v : ℝ) (ref : F) : (nls v ref).length = 239 := by simp [nls, usable_length]

theorem nls_ne (v : ℝ) (ref : F) : nls v ref ≠ [] := by
  intro h; have := nls_length v ref; rw [h] at this; simp at this

theorem nls_neg {v : ℝ} (hv : v < 760) (ref : F) : ∀ x ∈ nls v ref, x.val < 0 := by
  intro x hx
  obtain ⟨c, hc, rfl⟩ := List.mem_map.1 hx
  exact nlRaw_neg hc hv ref

theorem mem_drop_of {α : Type} {l : List α} {k n : ℕ} (hk : k < l.length) (h : n ≤ k) :
    l[k] ∈ l.drop n := by
  rw [List.mem_drop_iff_getElem]
  refine ⟨k - n, by omega, ?_⟩
  congr 1
  omega

/-- the minimum lies below 16 Hz -/
theorem argmin_nls {v : ℝ} (hv : v < 760) (ref : F) : argmin (nls v ref) ≤ 220 := by
  by_contra h
  have h' : 221 ≤ argmin (nls v ref) := by omega
  have hl := argmin_lt (nls_ne v ref)
  have hl2 : argmin (nls v ref) < usable.length := by
    rw [usable_length]; rw [nls_length] at hl; exact hl
  have h196 : 196 < usable.length := by rw [usable_length]; norm_num
  have hm := argmin_le (l := nls v ref) (nlRaw (F.ofReal v) ref usable[196])
    (List.mem_map.2 ⟨_, List.getElem_mem h196, rfl⟩)
  have hs := strong (c0 := usable[196]) (c := usable[argmin (nls v ref)]) (List.getElem?_eq_getElem h196)
    (mem_drop_of hl2 h') hv ref
  have e : (nls v ref).getD (argmin (nls v ref)) F.nan = nlRaw (F.ofReal v) ref usable[argmin (nls v ref)] := by
    rw [List.getD_eq_getElem?_getD]
    conv_lhs => rw [show (nls v ref)[argmin (nls v ref)]? = (usable[argmin (nls v ref)]?).map (nlRaw (F.ofReal v) ref) from by
      unfold nls; rw [List.getElem?_map]]
    rw [List.getElem?_eq_getElem hl2]
    rfl
  rw [e] at hm
  linarith


/-! ### The outputs -/

/-- the admissible numbers: a distance that is not negative, a positive velocity, a basin depth
(if given) that is not negative -/
def Given.Ok (g : Given) : Prop := 0 ≤ g.rup ∧ 0 < g.v ∧ ∀ z, g.z1 = some z → 0 ≤ z

theorem depth_facts {v : ℝ} (hv : 0 ≤ v) : (calcDepth10 (F.ofReal v)).ok ∧
    0 < (calcDepth10 (F.ofReal v)).val ∧ (calcDepth10 (F.ofReal v)).val ≤ 2 := by
  obtain ⟨h1, h2, -⟩ := C59_depth_1_0 calcDepth10 (by simp)
  refine ⟨(h1 v hv).1, (h1 v hv).2, ?_⟩
  have h3 : (calcDepth10 (F.ofReal v)).val ≤ (calcDepth10 (F.ofReal 0)).val :=
    h2.antitoneOn (Set.mem_Ici.2 le_rfl) (Set.mem_Ici.2 hv) hv
  refine h3.trans ?_
  have e : (calcDepth10 (F.ofReal 0)).val =
      Real.exp (-7.67 / 4 * Real.log ((0 ^ 4 + 610 ^ 4) / (1360 ^ 4 + 610 ^ 4))) / 1000 := by
    simp only [calcDepth10, depth10, fsimp]
  rw [e, show ((0 : ℝ) ^ 4 + 610 ^ 4) / (1360 ^ 4 + 610 ^ 4) = ((1360 ^ 4 + 610 ^ 4) / 610 ^ 4)⁻¹ by norm_num,
    Real.log_inv]
  have hpos : (0 : ℝ) ≤ Real.log ((1360 ^ 4 + 610 ^ 4) / 610 ^ 4) := Real.log_nonneg (by norm_num)
  have : Real.exp (-7.67 / 4 * -Real.log ((1360 ^ 4 + 610 ^ 4) / 610 ^ 4)) ≤
      Real.exp (2 * Real.log ((1360 ^ 4 + 610 ^ 4) / 610 ^ 4)) := by
    apply Real.exp_le_exp.2; nlinarith
  have e2 : Real.exp (2 * Real.log ((1360 ^ 4 + 610 ^ 4) / 610 ^ 4)) =
      (((1360 : ℝ) ^ 4 + 610 ^ 4) / 610 ^ 4) ^ 2 := by
    rw [two_mul, Real.exp_add, Real.exp_log (by norm_num)]; ring
  rw [e2] at this
  norm_num at this ⊢
  linarith

theorem z1_ok {g : Given} (h : g.Ok) (ns : Bool) :
    (g.toIn ns).z1.ok ∧ 0 ≤ (g.toIn ns).z1.val := by
  obtain ⟨-, hv, hz⟩ := h
  have hd := depth_facts hv.le
  refine ⟨F.orEst_ok fun _ => hd.1, ?_⟩
  simp only [Given.toIn]
  cases e : g.z1 with
  | none => rw [F.orEst_none hd.1]; exact hd.2.1.le
  | some z => simpa using hz z e

theorem base_ok {c : Row} (hc : c ∈ usable) {g : Given} (hr : 0 ≤ g.rup) (ns : Bool) {v : ℝ} {z : F}
    (hv : 0 < v) (hz : z.ok) (hz0 : 0 ≤ z.val) : (lnBase c (g.toIn ns) (F.ofReal v) z).ok := by
  obtain ⟨s1, s2, s3, s4, s5, s6, s7, s8, s9, s10, s11, s12, s13, s14, s15, s16, s17, -⟩ := row_some c hc
  obtain ⟨-, -, hn, -, h5, -⟩ := row_facts c hc
  have hn' : ((c.cn.getD 0 : ℚ) : ℝ) ≠ 0 := by exact_mod_cast hn.ne'
  have h5' : (0 : ℝ) < (c.c5.getD 0 : ℚ) := by exact_mod_cast h5
  obtain ⟨d1, d2, -⟩ := depth_facts hv.le
  have hcosh : 0 < g.rup + (c.c5.getD 0 : ℚ) * Real.cosh ((c.c6.getD 0 : ℚ) * max (g.mag - (c.chm.getD 0 : ℚ)) 0) := by
    have := Real.cosh_pos ((c.c6.getD 0 : ℚ) * max (g.mag - (c.chm.getD 0 : ℚ)) 0)
    positivity
  have hsq : 0 < Real.sqrt (g.rup ^ 2 + 50 ^ 2) := Real.sqrt_pos.2 (by positivity)
  have hm : 0 ≤ min z.val 2 := le_min hz0 (by norm_num)
  have hb : 0 < (min z.val 2 + 0.01) / ((calcDepth10 (F.ofReal v)).val + 0.01) := by
    apply div_pos <;> linarith
  have hb2 : (calcDepth10 (F.ofReal v)).val + 0.01 ≠ 0 := by positivity
  have he : ∀ x : ℝ, 0 < 1 + Real.exp x := fun x => by positivity
  have hs : 0 ≤ g.rup ^ 2 + 50 ^ 2 := by positivity
  simp only [lnBase, fM, fP, fTorNM, fZ1, c11, Given.toIn, fsimp, s1, s2, s3, s4, s5, s6, s7, s8, s9, s10,
    s12, s13, s14, s15, s16, s17, hn', hcosh, hsq, hb, hb2, d1, hz, he, hs]
  have hns : (if ns then co c.c10 else (0 : F)).ok := by cases ns <;> simp [s13]
  simpa using ⟨⟨hn.ne', hns⟩, hb2⟩

theorem idx5_mem {c : Row} (h : table[idx5Hz]? = some c) : c ∈ usable := by
  have h2 : usable[170]? = some c := by
    rw [usable, List.getElem?_take, if_pos (by decide)]; exact h
  exact List.mem_of_getElem? h2

theorem ref_ok {g : Given} (h : g.Ok) (ns : Bool) : (lnRef (g.toIn ns)).ok := by
  have hl : idx5Hz < table.length := by rw [table_length]; decide
  have e := List.getElem?_eq_getElem hl
  have hd := depth_facts (v := 760) (by norm_num)
  unfold lnRef
  rw [e]
  exact base_ok (idx5_mem e) h.1 ns (v := 760) (by norm_num) hd.1 hd.2.1.le

theorem usable_getElem? {k : ℕ} (hk : k < 239) : usable[k]? = table[k]? := by
  rw [usable, List.getElem?_take, if_pos (by exact hk)]

theorem usable_of {k : ℕ} {c : Row} (hk : k < 239) (hc : table[k]? = some c) : c ∈ usable :=
  List.mem_of_getElem? ((usable_getElem? hk).trans hc)

theorem fNl_length (v : ℝ) (ref : F) : (fNl (F.ofReal v) ref).length = 239 := by
  unfold fNl; rw [shape_length]; exact nls_length v ref

theorem zip_get {α β γ : Type} {f : α → β → γ} {l : List α} {l' : List β} {k : ℕ} {a : α} {b : β}
    (ha : l[k]? = some a) (hb : l'[k]? = some b) : (List.zipWith f l l')[k]? = some (f a b) := by
  simp [List.getElem?_zipWith, ha, hb]

theorem usable_out {s : In} {v : ℝ} (hv : s.v = F.ofReal v) {k : ℕ} {c : Row} (hk : k < 239)
    (hc : table[k]? = some c) : (lnUsable s)[k]? = some (lnBase c s (F.ofReal v) s.z1 + (fSl c (F.ofReal v) +
      (fNl (F.ofReal v) (lnRef s)).getD k F.nan)) := by
  have hl : k < (fNl (F.ofReal v) (lnRef s)).length := by rw [fNl_length]; exact hk
  unfold lnUsable
  rw [hv]
  refine zip_get ((usable_getElem? hk).trans hc) ?_
  rw [List.getD_eq_getElem?_getD, List.getElem?_eq_getElem hl, Option.getD_some]

theorem usable_len (s : In) {v : ℝ} (hv : s.v = F.ofReal v) : (lnUsable s).length = 239 := by
  unfold lnUsable
  rw [hv, List.length_zipWith, fNl_length, usable_length, min_self]

theorem out_low {s : In} {v : ℝ} (hv : s.v = F.ofReal v) {k : ℕ} {c : Row} (hk : k < 239)
    (hc : table[k]? = some c) : (lnEas s).getD k F.nan = lnBase c s (F.ofReal v) s.z1 + (fSl c (F.ofReal v) +
      (fNl (F.ofReal v) (lnRef s)).getD k F.nan) := by
  unfold lnEas
  rw [List.getD_eq_getElem?_getD, List.getElem?_append_left (by rw [usable_len s hv]; exact hk),
    usable_out hv hk hc]
  rfl

theorem freqMax_eq {c : Row} (hc : table[238]? = some c) :
    (table.map (·.freq_hz)).getD idxMax 0 = c.freq_hz := by
  rw [List.getD_eq_getElem?_getD, List.getElem?_map, show idxMax = 238 from rfl, hc]
  rfl

theorem out_high {s : In} {v : ℝ} (hv : s.v = F.ofReal v) {k : ℕ} {c c0 : Row} (hk : 239 ≤ k)
    (hc : table[k]? = some c) (h0 : table[238]? = some c0) :
    (lnEas s).getD k F.nan = (lnEas s).getD 238 F.nan + lnDimin s.v c0.freq_hz c := by
  rw [out_low hv (by norm_num) h0]
  unfold lnEas
  rw [List.getD_eq_getElem?_getD, List.getElem?_append_right (by rw [usable_len s hv]; exact hk),
    usable_len s hv, List.getElem?_map, List.getElem?_drop,
    show idxMax + 1 + (k - 239) = k from by unfold idxMax; omega, hc, freqMax_eq h0]
  rw [List.getD_eq_getElem?_getD, show idxMax = 238 from rfl, usable_out hv (by norm_num) h0]
  rfl

theorem out_length (s : In) {v : ℝ} (hv : s.v = F.ofReal v) : (lnEas s).length = 301 := by
  unfold lnEas
  rw [List.length_append, usable_len s hv, List.length_map, List.length_drop, table_length]
  rfl

-- otherwise the elaborator evaluates entries at literal positions
attribute [local irreducible] lnEas

theorem fSl_ok {c : Row} (hc : c ∈ usable) {v : ℝ} (hv : 0 < v) : (fSl c (F.ofReal v)).ok := by
  obtain ⟨s1, s2, s3, s4, s5, s6, s7, s8, s9, s10, s11, -⟩ := row_some c hc
  have : 0 < min v 1000 / 1000 := div_pos (lt_min hv (by norm_num)) (by norm_num)
  simp only [fSl, fsimp, s11, this]
  norm_num

theorem nls_ok {g : Given} (h : g.Ok) (ns : Bool) : ∀ x ∈ nls g.v (lnRef (g.toIn ns)), x.ok := by
  intro x hx
  obtain ⟨c, hc, rfl⟩ := List.mem_map.1 hx
  exact nlRaw_ok hc (ref_ok h ns) _

theorem fNl_getD {v : ℝ} {ref : F} {k : ℕ} (hk : k < 239) : (fNl (F.ofReal v) ref).getD k F.nan =
    if k < 232 then avg (nls v ref) k else avg (nls v ref) (argmin (nls v ref)) := by
  have := shape_getD (l := nls v ref) (k := k) (by rw [nls_length]; exact hk)
  rw [nls_length] at this
  unfold fNl
  rw [show usable.map (nlRaw (F.ofReal v) ref) = nls v ref from rfl, this]
  by_cases h : k < 232
  · rw [if_pos h, if_pos (by omega)]
  · rw [if_neg h, if_neg (by omega)]

theorem low_ok {g : Given} (h : g.Ok) (ns : Bool) {k : ℕ} (hk : k < 239) :
    ((lnEas (g.toIn ns)).getD k F.nan).ok := by
  have hl : k < table.length := by rw [table_length]; omega
  have e := List.getElem?_eq_getElem hl
  have hc := usable_of hk e
  rw [out_low (v := g.v) rfl hk e]
  simp only [F.ok_add]
  refine ⟨base_ok hc h.1 ns h.2.1 (z1_ok h ns).1 (z1_ok h ns).2, fSl_ok hc h.2.1, ?_⟩
  rw [fNl_getD hk]
  split
  · exact avg_ok (nls_ok h ns) _
  · exact avg_ok (nls_ok h ns) _

theorem ok238 {g : Given} (h : g.Ok) (ns : Bool) :
    ((lnEas (g.toIn ns)).getD 238 F.nan).ok := low_ok h ns (Nat.lt_succ_self 238)

theorem dimin_facts {v : ℝ} (hv : 0 < v) (f : ℚ) (c : Row) : (lnDimin (F.ofReal v) f c).ok ∧
    (lnDimin (F.ofReal v) f c).val =
      -(Real.pi * Real.exp (-0.4 * Real.log (v / 760) - 3.5) * (c.freq_hz - f)) := by
  have : 0 < v / 760 := by positivity
  constructor
  · simp only [lnDimin, kappa, fsimp, this]
    norm_num [Real.exp_pos]
  · simp only [lnDimin, kappa, fsimp, Real.log_exp]
    ring

theorem freq_sorted : (table.map (·.freq_hz)).Pairwise (· < ·) := by decide +kernel

theorem freq_lt {k l : ℕ} {c c' : Row} (h : k < l) (hc : table[k]? = some c) (hc' : table[l]? = some c') :
    c.freq_hz < c'.freq_hz := by
  have hs := freq_sorted
  rw [List.pairwise_map] at hs
  obtain ⟨h1, e1⟩ := List.getElem?_eq_some_iff.1 hc
  obtain ⟨h2, e2⟩ := List.getElem?_eq_some_iff.1 hc'
  have := List.pairwise_iff_getElem.1 hs k l h1 h2 h
  rwa [e1, e2] at this

end BA19

-- otherwise the elaborator evaluates entries at literal positions
attribute [local irreducible] BA19.lnEas

/-- Above 24 Hz: relative to any lower extrapolated frequency (or 24 Hz itself, entry 238) the
logarithm of the amplitude falls linearly with frequency, by `π κ` per Hz with
`κ = exp(-0.4 ln(v_s30/760) - 3.5)`; so it strictly decreases.  All 301 amplitudes are defined. -/
theorem C42_high_frequency (s : Scenario) (g : BA19.Given) (h : BA19.Source s g) (hg : g.Ok) :
    ∃ o, Gives BA19.cls s o ∧ o.lnEas.length = 301 ∧ (∀ y ∈ o.lnEas, y.ok) ∧
      ∀ (k l : ℕ) (c c' : BA19.Row), 238 ≤ k → k < l → BA19.table[k]? = some c →
        BA19.table[l]? = some c' →
        F.Drops (o.lnEas.getD k F.nan) (o.lnEas.getD l F.nan) ∧
        (o.lnEas.getD l F.nan).val = (o.lnEas.getD k F.nan).val -
          Real.pi * Real.exp (-0.4 * Real.log (g.v / 760) - 3.5) * (c'.freq_hz - c.freq_hz) := by
  refine ⟨_, BA19.gives h, BA19.out_length _ (v := g.v) rfl, ?_, ?_⟩
  all_goals set ns := (s.get "mechanism").isStr "NS"
  all_goals have h238 : 238 < BA19.table.length := lt_of_lt_of_eq (by norm_num) BA19.table_length.symm
  all_goals have e0 := List.getElem?_eq_getElem h238
  all_goals have ok0 := BA19.ok238 hg ns
  · intro y hy
    have hlen := BA19.out_length (g.toIn ns) (v := g.v) rfl
    obtain ⟨k, hk, ey⟩ := List.mem_iff_getElem.1 hy
    have hk2 : k < (BA19.lnEas (g.toIn ns)).length := hk
    have hk' : k < 301 := hlen ▸ hk2
    have e : y = (BA19.lnEas (g.toIn ns)).getD k F.nan := by
      rw [List.getD_eq_getElem?_getD, List.getElem?_eq_getElem hk2, Option.getD_some]; exact ey.symm
    rw [e]
    by_cases hlow : k < 239
    · exact BA19.low_ok hg ns hlow
    · have ek := List.getElem?_eq_getElem (l := BA19.table) (i := k) (by rw [BA19.table_length]; exact hk')
      rw [BA19.out_high (v := g.v) rfl (by omega) ek e0]
      exact ⟨ok0, (BA19.dimin_facts hg.2.1 _ _).1⟩
  · have key : ∀ (k : ℕ) (c : BA19.Row), 238 ≤ k → BA19.table[k]? = some c →
        ((BA19.lnEas (g.toIn ns)).getD k F.nan).ok ∧
        ((BA19.lnEas (g.toIn ns)).getD k F.nan).val = ((BA19.lnEas (g.toIn ns)).getD 238 F.nan).val -
          Real.pi * Real.exp (-0.4 * Real.log (g.v / 760) - 3.5) *
            (c.freq_hz - (BA19.table[238] : BA19.Row).freq_hz) := by
      intro k c hk hc
      rcases eq_or_lt_of_le hk with rfl | hk
      · rw [e0] at hc; cases hc
        exact ⟨ok0, by ring⟩
      · rw [BA19.out_high (v := g.v) rfl (by omega) hc e0]
        obtain ⟨d1, d2⟩ := BA19.dimin_facts hg.2.1 (BA19.table[238] : BA19.Row).freq_hz c
        refine ⟨⟨ok0, d1⟩, ?_⟩
        rw [F.val_add, show (g.toIn ns).v = F.ofReal g.v from rfl, d2]
        ring
    intro k l c c' hk hkl hc hc'
    obtain ⟨o1, v1⟩ := key k c hk hc
    obtain ⟨o2, v2⟩ := key l c' (by omega) hc'
    have e : ((BA19.lnEas (g.toIn ns)).getD l F.nan).val = ((BA19.lnEas (g.toIn ns)).getD k F.nan).val -
          Real.pi * Real.exp (-0.4 * Real.log (g.v / 760) - 3.5) * (c'.freq_hz - c.freq_hz) := by
      rw [v1, v2]; ring
    refine ⟨⟨o1, o2, ?_⟩, e⟩
    change ((BA19.lnEas (g.toIn ns)).getD l F.nan).val < _
    have hf : (c.freq_hz : ℝ) < c'.freq_hz := by exact_mod_cast BA19.freq_lt hkl hc hc'
    have : 0 < Real.pi * Real.exp (-0.4 * Real.log (g.v / 760) - 3.5) * (c'.freq_hz - c.freq_hz) :=
      mul_pos (mul_pos Real.pi_pos (Real.exp_pos _)) (by linarith)
    rw [e]
    change _ < ((BA19.lnEas (g.toIn ns)).getD k F.nan).val
    linarith

/-! ### The standard deviation -/

namespace BA19

theorem c1a_iff : ∀ c ∈ table, (c.c1a.isSome ↔ c.freq_hz < 24) ∧ 0.3 < c.s2 ∧ 0 < c.s4 ∧ 0 < c.s6 ∧
    0 < c.s1 ∧ 0 < c.s3 ∧ 0 < c.s5 := by decide +kernel

theorem stdTerm_ok (m : ℝ) (l r : ℚ) : (stdTerm (F.ofReal m) l r).ok := by
  simp only [stdTerm, fsimp]; norm_num

theorem stdTerm_val (m : ℝ) (l r : ℚ) :
    (stdTerm (F.ofReal m) l r).val = min (max (l + (r - l) / 2 * (m - 4)) l) r := by
  simp only [stdTerm, fsimp]

theorem stdTerm_pos (m : ℝ) {l r : ℚ} (hl : 0 < l) (hr : 0 < r) : 0 < (stdTerm (F.ofReal m) l r).val := by
  rw [stdTerm_val]
  exact lt_min (lt_max_of_lt_right (by exact_mod_cast hl)) (by exact_mod_cast hr)

theorem stdTerm_mono {m m' : ℝ} (h : m ≤ m') (l r : ℚ) :
    (stdTerm (F.ofReal m) l r).val ≤ (stdTerm (F.ofReal m') l r).val := by
  rw [stdTerm_val, stdTerm_val]
  by_cases hlr : l ≤ r
  · have hlr' : (l : ℝ) ≤ r := by exact_mod_cast hlr
    refine min_le_min (max_le_max ?_ le_rfl) le_rfl
    have : ((r : ℝ) - l) / 2 * (m - 4) ≤ (r - l) / 2 * (m' - 4) :=
      mul_le_mul_of_nonneg_left (by linarith) (by linarith)
    linarith
  · have hlr' : (r : ℝ) ≤ l := by push Not at hlr; exact_mod_cast hlr.le
    rw [min_eq_right (hlr'.trans (le_max_right _ _)), min_eq_right (hlr'.trans (le_max_right _ _))]

theorem stdTerm_const {l r : ℚ} (h : r ≤ l) (m : ℝ) : (stdTerm (F.ofReal m) l r).val = r := by
  have hlr' : (r : ℝ) ≤ l := by exact_mod_cast h
  rw [stdTerm_val, min_eq_right (hlr'.trans (le_max_right _ _))]

theorem lnStd_ok (m : ℝ) {c : Row} (hc : c ∈ table) : (lnStd (F.ofReal m) c).ok ↔ c.freq_hz < 24 := by
  rw [← (c1a_iff c hc).1]
  simp only [lnStd, fsimp, stdTerm_ok]
  constructor
  · exact fun h => h.1
  · exact fun h => ⟨h, by positivity⟩

theorem lnStd_val (m : ℝ) (c : Row) : (lnStd (F.ofReal m) c).val =
    Real.sqrt ((stdTerm (F.ofReal m) c.s1 c.s2).val ^ 2 + (stdTerm (F.ofReal m) c.s3 c.s4).val ^ 2 +
      (stdTerm (F.ofReal m) c.s5 c.s6).val ^ 2 + ((c.c1a.getD 0 : ℚ) : ℝ) ^ 2) := by
  simp only [lnStd, fsimp]

theorem std_getD {s : In} {m : ℝ} (hm : s.mag = F.ofReal m) {k : ℕ} {c : Row} (hc : table[k]? = some c) :
    (out s).lnStd.getD k F.nan = lnStd (F.ofReal m) c := by
  simp only [out, hm, List.getD_eq_getElem?_getD, List.getElem?_map, hc, Option.map_some, Option.getD_some]

end BA19

/-- The standard deviation is undefined (NaN) at every frequency of 24 Hz and above, for every
scenario; at every lower frequency it is defined and greater than 0.3. -/
theorem C41_std (s : Scenario) (g : BA19.Given) (h : BA19.Source s g) :
    ∃ o, Gives BA19.cls s o ∧ o.lnStd.length = 301 ∧
      ∀ (k : ℕ) (c : BA19.Row), BA19.table[k]? = some c →
        (24 ≤ c.freq_hz → ¬ (o.lnStd.getD k F.nan).ok) ∧
        (c.freq_hz < 24 → (o.lnStd.getD k F.nan).ok ∧ 0.3 < (o.lnStd.getD k F.nan).val) := by
  refine ⟨_, BA19.gives h, by simp [BA19.out, BA19.table_length], fun k c hc => ?_⟩
  have hm := List.mem_of_getElem? hc
  rw [BA19.std_getD (m := g.mag) rfl hc]
  refine ⟨fun hf => ?_, fun hf => ⟨(BA19.lnStd_ok _ hm).2 hf, ?_⟩⟩
  · rw [BA19.lnStd_ok _ hm]; exact not_lt.2 hf
  · obtain ⟨-, h2, h4, h6, h1, h3, h5⟩ := BA19.c1a_iff c hm
    rw [BA19.lnStd_val]
    apply Real.lt_sqrt_of_sq_lt
    have a1 : 0.3 ≤ (BA19.stdTerm (F.ofReal g.mag) c.s1 c.s2).val ∨
        0.09 < (BA19.stdTerm (F.ofReal g.mag) c.s3 c.s4).val ^ 2 +
          (BA19.stdTerm (F.ofReal g.mag) c.s5 c.s6).val ^ 2 := by
      left
      rw [BA19.stdTerm_val]
      have h2' : (0.3 : ℝ) < c.s2 := by
        have : ((0.3 : ℚ) : ℝ) < c.s2 := by exact_mod_cast h2
        norm_num at this ⊢; linarith
      have hs : ∀ c ∈ BA19.table, 0.3 < c.s1 := by decide +kernel
      have h1' : (0.3 : ℝ) < c.s1 := by
        have : ((0.3 : ℚ) : ℝ) < c.s1 := by exact_mod_cast hs c hm
        norm_num at this ⊢; linarith
      exact le_min (le_max_of_le_right h1'.le) h2'.le
    have p3 := BA19.stdTerm_pos g.mag h3 h4
    have p5 := BA19.stdTerm_pos g.mag h5 h6
    rcases a1 with a1 | a1
    · have : (0.09 : ℝ) ≤ (BA19.stdTerm (F.ofReal g.mag) c.s1 c.s2).val ^ 2 := by nlinarith
      have := pow_pos p3 2
      have := sq_nonneg (BA19.stdTerm (F.ofReal g.mag) c.s5 c.s6).val
      have := sq_nonneg ((c.c1a.getD 0 : ℚ) : ℝ)
      norm_num at *
      linarith
    · have := sq_nonneg (BA19.stdTerm (F.ofReal g.mag) c.s1 c.s2).val
      have := sq_nonneg ((c.c1a.getD 0 : ℚ) : ℝ)
      norm_num at *
      linarith

/-- Magnitude dependence of the standard deviation: it never decreases with magnitude, at no
frequency; and where none of the three coefficient pairs increases it does not depend on
magnitude at all (the published decrease is lost). -/
theorem C41_magnitude (s s' : Scenario) (g g' : BA19.Given) (h : BA19.Source s g) (h' : BA19.Source s' g')
    (hm : g.mag ≤ g'.mag) :
    ∃ o o', Gives BA19.cls s o ∧ Gives BA19.cls s' o' ∧
      ∀ (k : ℕ) (c : BA19.Row), BA19.table[k]? = some c → c.freq_hz < 24 →
        F.NotAbove (o'.lnStd.getD k F.nan) (o.lnStd.getD k F.nan) ∧
        (c.s2 ≤ c.s1 → c.s4 ≤ c.s3 → c.s6 ≤ c.s5 →
          F.Same (o.lnStd.getD k F.nan) (o'.lnStd.getD k F.nan) ∧
          (o.lnStd.getD k F.nan).val = Real.sqrt ((c.s2 : ℝ) ^ 2 + (c.s4 : ℝ) ^ 2 + (c.s6 : ℝ) ^ 2
            + ((c.c1a.getD 0 : ℚ) : ℝ) ^ 2)) := by
  refine ⟨_, _, BA19.gives h, BA19.gives h', fun k c hc hf => ?_⟩
  have hmem := List.mem_of_getElem? hc
  rw [BA19.std_getD (s := g.toIn _) (m := g.mag) rfl hc, BA19.std_getD (s := g'.toIn _) (m := g'.mag) rfl hc]
  have o1 := (BA19.lnStd_ok g.mag hmem).2 hf
  have o2 := (BA19.lnStd_ok g'.mag hmem).2 hf
  obtain ⟨-, h2, h4, h6, h1, h3, h5⟩ := BA19.c1a_iff c hmem
  have h2' : 0 < c.s2 := lt_trans (by norm_num) h2
  refine ⟨⟨o2, o1, ?_⟩, fun e1 e2 e3 => ?_⟩
  · rw [BA19.lnStd_val, BA19.lnStd_val]
    apply Real.sqrt_le_sqrt
    have q1 := pow_le_pow_left₀ (BA19.stdTerm_pos g.mag h1 h2').le (BA19.stdTerm_mono hm c.s1 c.s2) 2
    have q2 := pow_le_pow_left₀ (BA19.stdTerm_pos g.mag h3 h4).le (BA19.stdTerm_mono hm c.s3 c.s4) 2
    have q3 := pow_le_pow_left₀ (BA19.stdTerm_pos g.mag h5 h6).le (BA19.stdTerm_mono hm c.s5 c.s6) 2
    linarith
  · have e : ∀ m : ℝ, (BA19.lnStd (F.ofReal m) c).val = Real.sqrt ((c.s2 : ℝ) ^ 2 + (c.s4 : ℝ) ^ 2 +
        (c.s6 : ℝ) ^ 2 + ((c.c1a.getD 0 : ℚ) : ℝ) ^ 2) := by
      intro m
      rw [BA19.lnStd_val, BA19.stdTerm_const e1, BA19.stdTerm_const e2, BA19.stdTerm_const e3]
    exact ⟨⟨o1, o2, by rw [e, e]⟩, e _⟩

/-- 124 of the 239 frequencies below 24 Hz are of the second kind. -/
theorem C41_how_many : (BA19.table.filter fun c => decide (c.freq_hz < 24 ∧ c.s2 ≤ c.s1 ∧ c.s4 ≤ c.s3 ∧
    c.s6 ≤ c.s5)).length = 124 ∧ (BA19.table.filter fun c => decide (c.freq_hz < 24)).length = 239 := by
  decide +kernel

/-! ### Site response -/

namespace BA19

/-- the basin term vanishes for the model's own basin depth -/
theorem fZ1_default (c : Row) {v : ℝ} (hv : 0 ≤ v) :
    (fZ1 c (F.ofReal v) (calcDepth10 (F.ofReal v))).val = 0 := by
  obtain ⟨-, h1, h2⟩ := depth_facts hv
  simp only [fZ1, F.val_mul, F.val_log, F.val_div, F.val_add, F.val_min, F.val_ofNat, F.val_ofScientific]
  rw [min_eq_left h2, div_self (by positivity)]
  simp

/-- the part of the prediction that depends on neither velocity nor basin depth -/
noncomputable def source (c : Row) (g : Given) (ns : Bool) : ℝ :=
  (fM c (g.toIn ns) + fP c (g.toIn ns) + fTorNM c (g.toIn ns)).val

theorem source_congr (c : Row) {g g' : Given} (ns : Bool) (h1 : g.rup = g'.rup) (h2 : g.mag = g'.mag)
    (h3 : g.tor = g'.tor) : source c g ns = source c g' ns := by
  obtain ⟨a, b, d, e, z⟩ := g
  obtain ⟨a', b', d', e', z'⟩ := g'
  simp only at h1 h2 h3
  subst h1 h2 h3
  rfl

theorem ref_congr {g g' : Given} (ns : Bool) (h1 : g.rup = g'.rup) (h2 : g.mag = g'.mag)
    (h3 : g.tor = g'.tor) : lnRef (g.toIn ns) = lnRef (g'.toIn ns) := by
  obtain ⟨a, b, d, e, z⟩ := g
  obtain ⟨a', b', d', e', z'⟩ := g'
  simp only at h1 h2 h3
  subst h1 h2 h3
  rfl

/-- the prediction in parts -/
theorem low_val (g : Given) (ns : Bool) {k : ℕ} {c : Row} (hk : k < 239) (hc : table[k]? = some c) :
    ((lnEas (g.toIn ns)).getD k F.nan).val = source c g ns + (fZ1 c (F.ofReal g.v) (g.toIn ns).z1).val +
      (c.c8.getD 0 : ℚ) * Real.log (min g.v 1000 / 1000) +
      (if k < 232 then avg (nls g.v (lnRef (g.toIn ns))) k
        else avg (nls g.v (lnRef (g.toIn ns))) (argmin (nls g.v (lnRef (g.toIn ns))))).val := by
  rw [out_low (v := g.v) rfl hk hc, fNl_getD hk]
  simp only [lnBase, source, fSl, F.val_add, F.val_mul, F.val_log, F.val_div, F.val_min, F.val_ofNat,
    F.val_ofReal, co_val]
  ring

theorem default_z1 {g : Given} (hv : 0 < g.v) (hz : g.z1 = none) (ns : Bool) :
    (g.toIn ns).z1 = calcDepth10 (F.ofReal g.v) := by
  simp only [Given.toIn, hz]
  exact F.orEst_none (depth_facts hv.le).1

/-- without nonlinearity -/
theorem low_val_rock {g : Given} (hv : 760 ≤ g.v) (ns : Bool) {k : ℕ} {c : Row} (hk : k < 239)
    (hc : table[k]? = some c) :
    ((lnEas (g.toIn ns)).getD k F.nan).val = source c g ns + (fZ1 c (F.ofReal g.v) (g.toIn ns).z1).val +
      (c.c8.getD 0 : ℚ) * Real.log (min g.v 1000 / 1000) := by
  have hz : ∀ x ∈ nls g.v (lnRef (g.toIn ns)), x.val = 0 := by
    intro x hx
    obtain ⟨c, -, rfl⟩ := List.mem_map.1 hx
    exact nlRaw_zero hv _ _
  rw [low_val g ns hk hc]
  split <;> rw [avg_zero (nls_ne _ _) hz, add_zero]

end BA19

/-- From 760 m/s on the site response is linear: with the default basin depth, changing the
velocity between two values of at least 760 m/s changes each amplitude up to 24 Hz by exactly
`c8 ln(min(v', 1000)/min(v, 1000))`, whatever the source; so above 1000 m/s the velocity has no
effect on them. -/
theorem C42_linear_on_rock (s s' : Scenario) (g g' : BA19.Given) (h : BA19.Source s g)
    (h' : BA19.Source s' g') (hg : g.Ok) (hg' : g'.Ok) (hm : s.get "mechanism" = s'.get "mechanism")
    (e1 : g.rup = g'.rup) (e2 : g.mag = g'.mag) (e3 : g.tor = g'.tor) (hz : g.z1 = none)
    (hz' : g'.z1 = none) (hv : 760 ≤ g.v) (hv' : 760 ≤ g'.v) :
    ∃ o o', Gives BA19.cls s o ∧ Gives BA19.cls s' o' ∧
      ∀ (k : ℕ) (c : BA19.Row), BA19.table[k]? = some c → c.freq_hz < 24 →
        (o.lnEas.getD k F.nan).ok ∧ (o'.lnEas.getD k F.nan).ok ∧
        (o'.lnEas.getD k F.nan).val = (o.lnEas.getD k F.nan).val +
          (c.c8.getD 0 : ℚ) * Real.log (min g'.v 1000 / min g.v 1000) := by
  refine ⟨_, _, BA19.gives h, BA19.gives h', fun k c hc hf => ?_⟩
  rw [← hm]
  set ns := (s.get "mechanism").isStr "NS"
  have hk : k < 239 := by
    by_contra hk
    have hall : ∀ c ∈ BA19.table.drop 239, ¬ c.freq_hz < 24 := by decide +kernel
    obtain ⟨hl, rfl⟩ := List.getElem?_eq_some_iff.1 hc
    exact hall _ (BA19.mem_drop_of hl (by omega)) hf
  refine ⟨BA19.low_ok hg ns hk, BA19.low_ok hg' ns hk, ?_⟩
  change ((BA19.lnEas _).getD k F.nan).val = ((BA19.lnEas _).getD k F.nan).val + _
  rw [BA19.low_val_rock hv ns hk hc, BA19.low_val_rock hv' ns hk hc, BA19.source_congr c ns e1 e2 e3,
    BA19.default_z1 hg.2.1 hz, BA19.default_z1 hg'.2.1 hz', BA19.fZ1_default c hg.2.1.le,
    BA19.fZ1_default c hg'.2.1.le]
  have p1 : (0 : ℝ) < min g.v 1000 := lt_min (by linarith) (by norm_num)
  have p2 : (0 : ℝ) < min g'.v 1000 := lt_min (by linarith) (by norm_num)
  rw [Real.log_div p1.ne' (by norm_num), Real.log_div p2.ne' (by norm_num), Real.log_div p2.ne' p1.ne']
  ring

/-- Below 760 m/s the nonlinear response only reduces the motion.  With the default basin depth
let `N` be the change of an amplitude from 760 m/s to the softer site beyond the linear part
`c8 ln(v/760)`.  Then `N < 0` at every frequency up to 24 Hz; and although the code is meant to
force the end of the curve down, `N` at the last seven frequencies (above 20.5 Hz, from which
the extrapolation starts) is the same and strictly *larger* than at the one before. -/
theorem C42_nonlinear (s s' : Scenario) (g g' : BA19.Given) (h : BA19.Source s g)
    (h' : BA19.Source s' g') (hg : g.Ok) (hg' : g'.Ok) (hm : s.get "mechanism" = s'.get "mechanism")
    (e1 : g.rup = g'.rup) (e2 : g.mag = g'.mag) (e3 : g.tor = g'.tor) (hz : g.z1 = none)
    (hz' : g'.z1 = none) (hv : g.v = 760) (hv' : g'.v < 760) :
    ∃ o o', Gives BA19.cls s o ∧ Gives BA19.cls s' o' ∧ ∃ N : ℕ → ℝ,
      (∀ (k : ℕ) (c : BA19.Row), BA19.table[k]? = some c → c.freq_hz < 24 →
        N k < 0 ∧ (o'.lnEas.getD k F.nan).val = (o.lnEas.getD k F.nan).val +
          (c.c8.getD 0 : ℚ) * Real.log (g'.v / 760) + N k) ∧
      N 231 < N 232 ∧ ∀ k, 232 ≤ k → k ≤ 238 → N k = N 232 := by
  refine ⟨_, _, BA19.gives h, BA19.gives h', ?_⟩
  rw [← hm]
  set ns := (s.get "mechanism").isStr "NS"
  set l := BA19.nls g'.v (BA19.lnRef (g'.toIn ns)) with hl
  have hne : l ≠ [] := BA19.nls_ne _ _
  have hlen : l.length = 239 := BA19.nls_length _ _
  have hneg : ∀ x ∈ l, x.val < 0 := BA19.nls_neg hv' _
  have harg : argmin l ≤ 220 := BA19.argmin_nls hv' _
  refine ⟨fun k => if k < 232 then (BA19.avg l k).val else (BA19.avg l (argmin l)).val, ?_, ?_, ?_⟩
  · intro k c hc hf
    have hk : k < 239 := by
      by_contra hk
      have hall : ∀ c ∈ BA19.table.drop 239, ¬ c.freq_hz < 24 := by decide +kernel
      obtain ⟨hl, rfl⟩ := List.getElem?_eq_some_iff.1 hc
      exact hall _ (BA19.mem_drop_of hl (by omega)) hf
    constructor
    · dsimp only
      split
      · exact BA19.avg_neg hneg (by omega)
      · exact BA19.avg_neg hneg (by omega)
    · change ((BA19.lnEas _).getD k F.nan).val = ((BA19.lnEas _).getD k F.nan).val + _ + _
      rw [BA19.low_val_rock hv.ge ns hk hc, BA19.low_val g' ns hk hc, BA19.source_congr c ns e1 e2 e3,
        BA19.default_z1 hg.2.1 hz, BA19.default_z1 hg'.2.1 hz', BA19.fZ1_default c hg.2.1.le,
        BA19.fZ1_default c hg'.2.1.le, ← hl, hv, min_eq_left (by linarith : g'.v ≤ 1000),
        min_eq_left (by norm_num : (760 : ℝ) ≤ 1000)]
      have p2 : (0 : ℝ) < g'.v := hg'.2.1
      rw [Real.log_div p2.ne' (by norm_num), Real.log_div (by norm_num) (by norm_num),
        Real.log_div p2.ne' (by norm_num)]
      by_cases h232 : k < 232
      · simp only [if_pos h232]; ring
      · simp only [if_neg h232]; ring
  · simp only [if_pos (show 231 < 232 by norm_num), lt_irrefl, if_false]
    rw [BA19.avg_eq_low (by omega) (by omega)]
    exact BA19.avg_at_argmin hne hneg
  · intro k h1 _
    simp only [if_neg (show ¬ k < 232 by omega), lt_irrefl, if_false]

/-! ### Rock sites: distance, magnitude, mechanism -/

namespace BA19

/-- the fictitious depth stays below 70 km up to magnitude 8.5 -/
theorem fict_facts : ∀ c ∈ usable, c.chm.getD 0 ≤ 8.5 ∧ c.c6.getD 0 * (8.5 - c.chm.getD 0) ≤ 8 ∧
    c.c5.getD 0 * ((expHi (c.c6.getD 0 * (8.5 - c.chm.getD 0)) + 1) / 2) < 70 := by decide +kernel

/-- the fictitious depth -/
noncomputable def fict (c : Row) (m : ℝ) : ℝ :=
  (c.c5.getD 0 : ℚ) * Real.cosh ((c.c6.getD 0 : ℚ) * max (m - (c.chm.getD 0 : ℚ)) 0)

theorem fict_pos {c : Row} (hc : c ∈ usable) (m : ℝ) : 0 < fict c m := by
  obtain ⟨-, -, -, -, h5, -⟩ := row_facts c hc
  have h5' : (0 : ℝ) < (c.c5.getD 0 : ℚ) := by exact_mod_cast h5
  exact mul_pos h5' (Real.cosh_pos _)

theorem fict_lt {c : Row} (hc : c ∈ usable) {m : ℝ} (hm : m ≤ 8.5) : fict c m < 70 := by
  obtain ⟨-, -, -, -, h5, h6, -⟩ := row_facts c hc
  obtain ⟨hh, h8, hlt⟩ := fict_facts c hc
  have h5' : (0 : ℝ) < (c.c5.getD 0 : ℚ) := by exact_mod_cast h5
  have h6' : (0 : ℝ) < (c.c6.getD 0 : ℚ) := by exact_mod_cast h6
  have hh' : ((c.chm.getD 0 : ℚ) : ℝ) ≤ 8.5 := by
    have : ((c.chm.getD 0 : ℚ) : ℝ) ≤ ((8.5 : ℚ) : ℝ) := by exact_mod_cast hh
    norm_num at this ⊢; linarith
  set q := c.c6.getD 0 * (8.5 - c.chm.getD 0)
  have hq0 : 0 ≤ q := mul_nonneg h6.le (by linarith)
  have hy : (c.c6.getD 0 : ℚ) * max (m - (c.chm.getD 0 : ℚ)) 0 ≤ ((q : ℚ) : ℝ) := by
    have e : ((q : ℚ) : ℝ) = (c.c6.getD 0 : ℚ) * (8.5 - (c.chm.getD 0 : ℚ)) := by
      simp only [q]; push_cast; norm_num
    rw [e]
    exact mul_le_mul_of_nonneg_left (max_le (by linarith) (by linarith)) h6'.le
  have hy0 : 0 ≤ ((c.c6.getD 0 : ℚ) : ℝ) * max (m - (c.chm.getD 0 : ℚ)) 0 :=
    mul_nonneg h6'.le (le_max_right _ _)
  have hcosh : Real.cosh ((c.c6.getD 0 : ℚ) * max (m - (c.chm.getD 0 : ℚ)) 0) ≤ ((expHi q : ℚ) + 1) / 2 := by
    rw [Real.cosh_eq]
    have a1 := (Real.exp_le_exp.2 hy).trans (le_expHi hq0 h8)
    have a2 : Real.exp (-((c.c6.getD 0 : ℚ) * max (m - (c.chm.getD 0 : ℚ)) 0)) ≤ 1 := Real.exp_le_one_iff.2 (by linarith)
    linarith
  have hlt' : ((c.c5.getD 0 : ℚ) : ℝ) * (((expHi q : ℚ) + 1) / 2) < 70 := by exact_mod_cast hlt
  exact lt_of_le_of_lt (mul_le_mul_of_nonneg_left hcosh h5'.le) hlt'

theorem spread_anti {h : ℝ} (h0 : 0 < h) (h70 : h < 70) :
    StrictAntiOn (fun r => -1.86 * Real.log (r + h) + 1.36 * (Real.log (r ^ 2 + 50 ^ 2) / 2)) (Set.Ici (0 : ℝ)) := by
  have hd : ∀ r, 0 ≤ r → HasDerivAt (fun r => -1.86 * Real.log (r + h) + 1.36 * (Real.log (r ^ 2 + 50 ^ 2) / 2))
      (-1.86 * (1 / (r + h)) + 1.36 * ((2 * r / (r ^ 2 + 50 ^ 2)) / 2)) r := by
    intro r hr
    have h1 : r + h ≠ 0 := by positivity
    have h2 : r ^ 2 + 50 ^ 2 ≠ 0 := by positivity
    have hq : HasDerivAt (fun r : ℝ => r ^ 2 + 50 ^ 2) (2 * r) r := by
      simpa using (hasDerivAt_pow 2 r).add_const ((50 : ℝ) ^ 2)
    exact ((((hasDerivAt_id r).add_const h).log h1).const_mul _).add (((hq.log h2).div_const 2).const_mul _)
  apply strictAntiOn_of_deriv_neg (convex_Ici 0)
  · intro r hr; exact (hd r hr).continuousAt.continuousWithinAt
  · intro r hr
    rw [interior_Ici] at hr
    have hr' : (0 : ℝ) < r := hr
    rw [(hd r hr'.le).deriv]
    have e : -1.86 * (1 / (r + h)) + 1.36 * ((2 * r / (r ^ 2 + 50 ^ 2)) / 2) =
        -(0.5 * r ^ 2 - 1.36 * h * r + 4650) / ((r + h) * (r ^ 2 + 50 ^ 2)) := by
      have h1 : r + h ≠ 0 := by positivity
      have h2 : r ^ 2 + 50 ^ 2 ≠ 0 := by positivity
      field_simp
      ring
    rw [e]
    apply div_neg_of_neg_of_pos _ (by positivity)
    nlinarith [sq_nonneg (r - 1.36 * h), mul_pos hr' h0]

theorem source_val (c : Row) (g : Given) (ns : Bool) : source c g ns =
    ((c.c1.getD 0 : ℚ) + (c.c2.getD 0 : ℚ) * (g.mag - 6) + ((c.c2.getD 0 : ℚ) - (c.c3.getD 0 : ℚ)) / (c.cn.getD 0 : ℚ) *
      Real.log (1 + Real.exp ((c.cn.getD 0 : ℚ) * ((c.cM.getD 0 : ℚ) - g.mag)))) +
    ((c.c4.getD 0 : ℚ) * Real.log (g.rup + fict c g.mag) +
      (-0.5 - (c.c4.getD 0 : ℚ)) * (Real.log (g.rup ^ 2 + 50 ^ 2) / 2) + (c.c7.getD 0 : ℚ) * g.rup) +
    ((c.c9.getD 0 : ℚ) * min g.tor 20 + (if ns then ((c.c10.getD 0 : ℚ) : ℝ) else 0)) := by
  have e : Real.log (Real.sqrt (g.rup ^ 2 + 50 ^ 2)) = Real.log (g.rup ^ 2 + 50 ^ 2) / 2 := by
    rw [Real.log_sqrt (by positivity)]
  cases ns <;> simp only [source, fM, fP, fTorNM, Given.toIn, fict, fsimp, e, Bool.false_eq_true]

theorem source_anti {c : Row} (hc : c ∈ usable) {g g' : Given} (ns : Bool) (hm : g.mag ≤ 8.5)
    (e2 : g.mag = g'.mag) (e3 : g.tor = g'.tor) (h0 : 0 ≤ g.rup) (hr : g.rup < g'.rup) :
    source c g' ns < source c g ns := by
  obtain ⟨-, -, -, h4, -, -, -, h7, -⟩ := row_facts c hc
  have h4' : ((c.c4.getD 0 : ℚ) : ℝ) = -1.86 := by rw [h4]; norm_num
  have h7' : ((c.c7.getD 0 : ℚ) : ℝ) < 0 := by exact_mod_cast h7
  have hs := spread_anti (fict_pos hc g.mag) (fict_lt hc hm) (Set.mem_Ici.2 h0)
    (Set.mem_Ici.2 (h0.trans hr.le)) hr
  rw [source_val, source_val, ← e2, ← e3, h4']
  have h := mul_lt_mul_of_neg_left hr h7'
  norm_num at hs ⊢
  linarith

theorem cosh_le_exp_mul {y t : ℝ} (ht : 0 ≤ t) : Real.cosh (y + t) ≤ Real.exp t * Real.cosh y := by
  rw [Real.cosh_eq, Real.cosh_eq, neg_add, Real.exp_add, Real.exp_add]
  have h1 : Real.exp (-t) ≤ Real.exp t := Real.exp_le_exp.2 (by linarith)
  have h2 := mul_le_mul_of_nonneg_left h1 (Real.exp_pos (-y)).le
  linarith

theorem source_mono {c : Row} (hc : c ∈ usable) {g g' : Given} (ns : Bool)
    (e1 : g.rup = g'.rup) (e3 : g.tor = g'.tor) (h0 : 0 ≤ g.rup) (hm : g.mag < g'.mag) :
    source c g ns < source c g' ns := by
  obtain ⟨h2, h3, hn, h4, h5, h6, h6', -⟩ := row_facts c hc
  have r2 : ((c.c2.getD 0 : ℚ) : ℝ) = 1.27 := by rw [h2]; norm_num
  have r3 : (1.27 : ℝ) < (c.c3.getD 0 : ℚ) := by
    have : ((1.27 : ℚ) : ℝ) < (c.c3.getD 0 : ℚ) := by exact_mod_cast h3
    norm_num at this ⊢; linarith
  have rn : (0 : ℝ) < (c.cn.getD 0 : ℚ) := by exact_mod_cast hn
  have r4 : ((c.c4.getD 0 : ℚ) : ℝ) = -1.86 := by rw [h4]; norm_num
  have r5 : (0 : ℝ) < (c.c5.getD 0 : ℚ) := by exact_mod_cast h5
  have r6 : (0 : ℝ) < (c.c6.getD 0 : ℚ) := by exact_mod_cast h6
  have r6' : ((c.c6.getD 0 : ℚ) : ℝ) < 0.5 := by
    have : ((c.c6.getD 0 : ℚ) : ℝ) < ((0.5 : ℚ) : ℝ) := by exact_mod_cast h6'
    norm_num at this ⊢; linarith
  -- magnitude scaling
  have a1 : (((c.c2.getD 0 : ℚ) : ℝ) - (c.c3.getD 0 : ℚ)) / (c.cn.getD 0 : ℚ) *
        Real.log (1 + Real.exp ((c.cn.getD 0 : ℚ) * ((c.cM.getD 0 : ℚ) - g.mag))) ≤
      (((c.c2.getD 0 : ℚ) : ℝ) - (c.c3.getD 0 : ℚ)) / (c.cn.getD 0 : ℚ) *
        Real.log (1 + Real.exp ((c.cn.getD 0 : ℚ) * ((c.cM.getD 0 : ℚ) - g'.mag))) := by
    apply mul_le_mul_of_nonpos_left
    · apply Real.log_le_log (by positivity)
      have : Real.exp ((c.cn.getD 0 : ℚ) * ((c.cM.getD 0 : ℚ) - g'.mag)) ≤
          Real.exp ((c.cn.getD 0 : ℚ) * ((c.cM.getD 0 : ℚ) - g.mag)) :=
        Real.exp_le_exp.2 (mul_le_mul_of_nonneg_left (by linarith) rn.le)
      linarith
    · exact div_nonpos_of_nonpos_of_nonneg (by linarith) rn.le
  -- near-source saturation
  set t : ℝ := (c.c6.getD 0 : ℚ) * (max (g'.mag - (c.chm.getD 0 : ℚ)) 0 - max (g.mag - (c.chm.getD 0 : ℚ)) 0) with ht
  have d0 : 0 ≤ max (g'.mag - (c.chm.getD 0 : ℚ)) 0 - max (g.mag - (c.chm.getD 0 : ℚ)) (0 : ℝ) := by
    have := max_le_max (a := g.mag - ((c.chm.getD 0 : ℚ) : ℝ)) (c := g'.mag - ((c.chm.getD 0 : ℚ) : ℝ))
      (by linarith) (le_refl (0 : ℝ))
    linarith
  have d1 : max (g'.mag - (c.chm.getD 0 : ℚ)) 0 - max (g.mag - (c.chm.getD 0 : ℚ)) 0 ≤ g'.mag - g.mag := by
    rcases max_cases (g'.mag - ((c.chm.getD 0 : ℚ) : ℝ)) 0 with ⟨e, _⟩ | ⟨e, _⟩ <;>
      rcases max_cases (g.mag - ((c.chm.getD 0 : ℚ) : ℝ)) 0 with ⟨e', _⟩ | ⟨e', _⟩ <;> rw [e, e'] <;> linarith
  have ht0 : 0 ≤ t := mul_nonneg r6.le d0
  have ht1 : t ≤ 0.5 * (g'.mag - g.mag) := by
    have : t ≤ 0.5 * (max (g'.mag - (c.chm.getD 0 : ℚ)) 0 - max (g.mag - (c.chm.getD 0 : ℚ)) 0) :=
      mul_le_mul_of_nonneg_right r6'.le d0
    linarith
  have hf : fict c g'.mag ≤ Real.exp t * fict c g.mag := by
    have e : ((c.c6.getD 0 : ℚ) : ℝ) * max (g'.mag - (c.chm.getD 0 : ℚ)) 0 =
        (c.c6.getD 0 : ℚ) * max (g.mag - (c.chm.getD 0 : ℚ)) 0 + t := by rw [ht]; ring
    unfold fict
    rw [e]
    have := mul_le_mul_of_nonneg_left (cosh_le_exp_mul (y := (c.c6.getD 0 : ℚ) * max (g.mag - (c.chm.getD 0 : ℚ)) 0) ht0) r5.le
    linarith
  have p := fict_pos hc g.mag
  have p' := fict_pos hc g'.mag
  have hl : Real.log (g.rup + fict c g'.mag) ≤ Real.log (g.rup + fict c g.mag) + t := by
    rw [← Real.log_exp t, ← Real.log_mul (by positivity) (by positivity)]
    apply Real.log_le_log (by positivity)
    have h1 : 1 ≤ Real.exp t := Real.one_le_exp ht0
    have h2 : g.rup ≤ g.rup * Real.exp t := le_mul_of_one_le_right h0 h1
    linarith
  rw [source_val, source_val, ← e1, ← e3, r4]
  rw [r2] at a1 ⊢
  nlinarith

/-- a relation of the source terms carries over to all amplitudes of a rock site -/
theorem rock_transfer {g g' : Given} (hg : g.Ok) (hg' : g'.Ok) (hv : 760 ≤ g.v) (ev : g.v = g'.v)
    (ez : g.z1 = g'.z1) (ns ns' : Bool) {k : ℕ} (hk : k < 301) :
    ((lnEas (g.toIn ns)).getD k F.nan).ok ∧ ((lnEas (g'.toIn ns')).getD k F.nan).ok ∧
    ∃ c ∈ usable, ((lnEas (g'.toIn ns')).getD k F.nan).val - ((lnEas (g.toIn ns)).getD k F.nan).val =
      source c g' ns' - source c g ns := by
  have h238 : 238 < table.length := lt_of_lt_of_eq (by norm_num) table_length.symm
  have e0 := List.getElem?_eq_getElem h238
  have hlow : ∀ k c, k < 239 → table[k]? = some c →
      ((lnEas (g'.toIn ns')).getD k F.nan).val - ((lnEas (g.toIn ns)).getD k F.nan).val =
      source c g' ns' - source c g ns := by
    intro k c hk hc
    rw [low_val_rock hv ns hk hc, low_val_rock (ev ▸ hv) ns' hk hc]
    have : (g.toIn ns).z1 = (g'.toIn ns').z1 := by simp only [Given.toIn, ez, ev]
    rw [this, ev]
    ring
  by_cases hl : k < 239
  · have ek := List.getElem?_eq_getElem (l := table) (i := k) (by rw [table_length]; exact hk)
    exact ⟨low_ok hg ns hl, low_ok hg' ns' hl, _, usable_of hl ek, hlow k _ hl ek⟩
  · have ek := List.getElem?_eq_getElem (l := table) (i := k) (by rw [table_length]; exact hk)
    obtain ⟨d1, d2⟩ := dimin_facts hg.2.1 (table[238] : Row).freq_hz (table[k]'(by rw [table_length]; exact hk))
    rw [out_high (s := g.toIn ns) (v := g.v) rfl (by omega) ek e0,
      out_high (s := g'.toIn ns') (v := g'.v) rfl (by omega) ek e0]
    rw [show (g'.toIn ns').v = F.ofReal g.v from by rw [ev]; rfl, show (g.toIn ns).v = F.ofReal g.v from rfl]
    refine ⟨⟨ok238 hg ns, d1⟩, ⟨ok238 hg' ns', d1⟩, _, usable_of (by norm_num) e0, ?_⟩
    rw [F.val_add, F.val_add, ← hlow 238 _ (by norm_num) e0]
    ring

end BA19

/-- On sites with v_s30 of at least 760 m/s and up to magnitude 8.5, every amplitude strictly
decreases with distance. -/
theorem C70_attenuates (s s' : Scenario) (g g' : BA19.Given) (h : BA19.Source s g) (h' : BA19.Source s' g')
    (hg : g.Ok) (hg' : g'.Ok) (hm : s.get "mechanism" = s'.get "mechanism") (e2 : g.mag = g'.mag)
    (e3 : g.tor = g'.tor) (ev : g.v = g'.v) (ez : g.z1 = g'.z1) (hv : 760 ≤ g.v) (h8 : g.mag ≤ 8.5)
    (hr : g.rup < g'.rup) :
    ∃ o o', Gives BA19.cls s o ∧ Gives BA19.cls s' o' ∧ o.lnEas.length = 301 ∧ o'.lnEas.length = 301 ∧
      ∀ k < 301, F.Drops (o.lnEas.getD k F.nan) (o'.lnEas.getD k F.nan) := by
  refine ⟨_, _, BA19.gives h, BA19.gives h', BA19.out_length _ (v := g.v) rfl,
    BA19.out_length _ (v := g'.v) rfl, fun k hk => ?_⟩
  rw [← hm]
  set ns := (s.get "mechanism").isStr "NS"
  obtain ⟨o1, o2, c, hc, e⟩ := BA19.rock_transfer hg hg' hv ev ez ns ns hk
  have := BA19.source_anti hc ns h8 e2 e3 hg.1 hr
  exact ⟨o1, o2, by change ((BA19.lnEas _).getD k F.nan).val < ((BA19.lnEas _).getD k F.nan).val; linarith⟩

/-- On sites with v_s30 of at least 760 m/s every amplitude strictly increases with magnitude,
at every distance and without bounds on the magnitude. -/
theorem C70_magnitude (s s' : Scenario) (g g' : BA19.Given) (h : BA19.Source s g) (h' : BA19.Source s' g')
    (hg : g.Ok) (hg' : g'.Ok) (hm : s.get "mechanism" = s'.get "mechanism") (e1 : g.rup = g'.rup)
    (e3 : g.tor = g'.tor) (ev : g.v = g'.v) (ez : g.z1 = g'.z1) (hv : 760 ≤ g.v)
    (hmag : g.mag < g'.mag) :
    ∃ o o', Gives BA19.cls s o ∧ Gives BA19.cls s' o' ∧ o.lnEas.length = 301 ∧ o'.lnEas.length = 301 ∧
      ∀ k < 301, F.Drops (o'.lnEas.getD k F.nan) (o.lnEas.getD k F.nan) := by
  refine ⟨_, _, BA19.gives h, BA19.gives h', BA19.out_length _ (v := g.v) rfl,
    BA19.out_length _ (v := g'.v) rfl, fun k hk => ?_⟩
  rw [← hm]
  set ns := (s.get "mechanism").isStr "NS"
  obtain ⟨o1, o2, c, hc, e⟩ := BA19.rock_transfer hg hg' hv ev ez ns ns hk
  have := BA19.source_mono hc ns e1 e3 hg.1 hmag
  exact ⟨o2, o1, by change ((BA19.lnEas _).getD k F.nan).val < ((BA19.lnEas _).getD k F.nan).val; linarith⟩

/-- Only normal faulting is distinguished: all other mechanisms give identical results; and on
sites with v_s30 of at least 760 m/s a normal event is lower by exactly 0.2 in every amplitude. -/
theorem C70_mechanism (s s' : Scenario) (g : BA19.Given) (h : BA19.Source s g) (h' : BA19.Source s' g)
    (hg : g.Ok) (hm : s.get "mechanism" ≠ .str "NS") :
    ∃ o o', Gives BA19.cls s o ∧ Gives BA19.cls s' o' ∧
      (s'.get "mechanism" ≠ .str "NS" → o' = o) ∧
      (s'.get "mechanism" = .str "NS" → 760 ≤ g.v → ∀ k < 301,
        (o'.lnEas.getD k F.nan).ok ∧ (o.lnEas.getD k F.nan).ok ∧
        (o'.lnEas.getD k F.nan).val = (o.lnEas.getD k F.nan).val - 0.2) := by
  refine ⟨_, _, BA19.gives h, BA19.gives h', fun hm' => ?_, fun hm' hv k hk => ?_⟩
  · have a : (s.get "mechanism").isStr "NS" = false := by simp [Val.isStr, hm]
    have b : (s'.get "mechanism").isStr "NS" = false := by simp [Val.isStr, hm']
    rw [a, b]
  · have a : (s.get "mechanism").isStr "NS" = false := by simp [Val.isStr, hm]
    have b : (s'.get "mechanism").isStr "NS" = true := by simp [Val.isStr, hm']
    rw [a, b]
    obtain ⟨o1, o2, c, hc, e⟩ := BA19.rock_transfer hg hg hv rfl rfl false true hk
    refine ⟨o2, o1, ?_⟩
    obtain ⟨-, -, -, -, -, -, -, -, h10, -⟩ := BA19.row_facts c hc
    have r10 : ((c.c10.getD 0 : ℚ) : ℝ) = -0.2 := by rw [h10]; norm_num
    have : BA19.source c g true - BA19.source c g false = -0.2 := by
      rw [BA19.source_val, BA19.source_val, r10]; simp
    change ((BA19.lnEas _).getD k F.nan).val = ((BA19.lnEas _).getD k F.nan).val - 0.2
    linarith

/-! ### Basin depth -/

open Classical in
/-- the basin coefficient of a row: one value up to 200 m/s, one up to 300, one up to 500 and
one above -/
noncomputable def BA19.basinCoeff (c : BA19.Row) (v : ℝ) : ℝ :=
  if v ≤ 200 then (c.c11a.getD 0 : ℚ) else if v ≤ 300 then (c.c11b.getD 0 : ℚ)
  else if v ≤ 500 then (c.c11c.getD 0 : ℚ) else (c.c11d.getD 0 : ℚ)

namespace BA19

theorem fZ1_val (c : Row) (v : ℝ) (z : F) : (fZ1 c (F.ofReal v) z).val =
    basinCoeff c v * Real.log ((min z.val 2 + 0.01) / ((calcDepth10 (F.ofReal v)).val + 0.01)) := by
  simp only [fZ1, c11, fsimp, basinCoeff]

end BA19

/-- Leaving the basin depth out is the same as giving the estimate for the velocity; and giving
`z` instead changes each amplitude up to 24 Hz by exactly
`c11 ln((min(z, 2) + 0.01)/(z_est + 0.01))`, for every source and velocity.  All depths of 2 km
and more give the same. -/
theorem C71_basin (s s' : Scenario) (g g' : BA19.Given) (h : BA19.Source s g) (h' : BA19.Source s' g')
    (hg : g.Ok) (hg' : g'.Ok) (hm : s.get "mechanism" = s'.get "mechanism") (e1 : g.rup = g'.rup)
    (e2 : g.mag = g'.mag) (e3 : g.tor = g'.tor) (ev : g.v = g'.v) (hz : g.z1 = none)
    (z : ℝ) (hz' : g'.z1 = some z) :
    ∃ o o', Gives BA19.cls s o ∧ Gives BA19.cls s' o' ∧
      (z = (BA19.calcDepth10 (F.ofReal g.v)).val → o' = o) ∧
      ∀ (k : ℕ) (c : BA19.Row), BA19.table[k]? = some c → k ≤ 238 →
        (o.lnEas.getD k F.nan).ok ∧ (o'.lnEas.getD k F.nan).ok ∧
        (o'.lnEas.getD k F.nan).val = (o.lnEas.getD k F.nan).val + BA19.basinCoeff c g.v *
          Real.log ((min z 2 + 0.01) / ((BA19.calcDepth10 (F.ofReal g.v)).val + 0.01)) := by
  refine ⟨_, _, BA19.gives h, BA19.gives h', fun hzv => ?_, fun k c hc hk => ?_⟩
  all_goals rw [← hm]
  all_goals set ns := (s.get "mechanism").isStr "NS"
  · congr 1
    obtain ⟨d1, -⟩ := BA19.depth_facts hg.2.1.le
    obtain ⟨a, b, d, e, z1⟩ := g
    obtain ⟨a', b', d', e', z1'⟩ := g'
    simp only at e1 e2 e3 ev hz hz' hzv d1
    subst e1 e2 e3 ev hz hz'
    simp only [BA19.Given.toIn]
    congr 1
    rw [F.orEst_none d1, F.orEst_some, hzv]
    ext
    · rfl
    · simpa using d1
  · have hk' : k < 239 := by omega
    refine ⟨BA19.low_ok hg ns hk', BA19.low_ok hg' ns hk', ?_⟩
    change ((BA19.lnEas _).getD k F.nan).val = ((BA19.lnEas _).getD k F.nan).val + _
    rw [BA19.low_val g ns hk' hc, BA19.low_val g' ns hk' hc, BA19.source_congr c ns e1 e2 e3,
      BA19.ref_congr ns e1 e2 e3, ev, BA19.default_z1 hg.2.1 hz, ev, BA19.fZ1_default c hg'.2.1.le,
      BA19.fZ1_val]
    have : (g'.toIn ns).z1.val = z := by simp [BA19.Given.toIn, hz']
    rw [this]
    ring

namespace BA19

open Filter Topology

theorem logTerm_continuousAt {a : ℝ} (ha : 0 < a) {z : ℝ} (hz : 0 ≤ z) (q : ℝ) :
    ContinuousAt (fun v : ℝ => q * Real.log ((min z 2 + 0.01) / ((calcDepth10 (F.ofReal v)).val + 0.01))) a := by
  have hd : ContinuousAt (fun v : ℝ => (calcDepth10 (F.ofReal v)).val) a := by
    simp only [calcDepth10, depth10, fsimp]
    refine ContinuousAt.div_const (ContinuousAt.rexp (continuousAt_const.mul (ContinuousAt.log ?_ ?_))) _
    · fun_prop
    · positivity
  obtain ⟨-, h1, -⟩ := depth_facts ha.le
  have hm : 0 ≤ min z 2 := le_min hz (by norm_num)
  refine continuousAt_const.mul (ContinuousAt.log (continuousAt_const.div (hd.add continuousAt_const) ?_) ?_)
  · positivity
  · have : 0 < min z 2 + 0.01 := by positivity
    positivity

theorem basin_limits (c : Row) {z a : ℝ} {cl cr : ℚ} (hz : 0 ≤ z) (ha : (a, cl, cr) ∈
      [((200 : ℝ), c.c11a.getD 0, c.c11b.getD 0), (300, c.c11b.getD 0, c.c11c.getD 0),
      (500, c.c11c.getD 0, c.c11d.getD 0)]) :
    Tendsto (fun v : ℝ => basinCoeff c v *
        Real.log ((min z 2 + 0.01) / ((calcDepth10 (F.ofReal v)).val + 0.01)))
      (𝓝[<] a) (𝓝 (cl * Real.log ((min z 2 + 0.01) / ((calcDepth10 (F.ofReal a)).val + 0.01)))) ∧
    Tendsto (fun v : ℝ => basinCoeff c v *
        Real.log ((min z 2 + 0.01) / ((calcDepth10 (F.ofReal v)).val + 0.01)))
      (𝓝[>] a) (𝓝 (cr * Real.log ((min z 2 + 0.01) / ((calcDepth10 (F.ofReal a)).val + 0.01)))) := by
  suffices key : ∃ lo hi : ℝ, lo < a ∧ a < hi ∧ (∀ v, lo < v → v < a → basinCoeff c v = cl) ∧
      (∀ v, a < v → v < hi → basinCoeff c v = cr) ∧ 0 < a by
    obtain ⟨lo, hi, h1, h2, h3, h4, ha0⟩ := key
    constructor
    · exact Tendsto.congr' (f₁ := fun v : ℝ => (cl : ℝ) *
        Real.log ((min z 2 + 0.01) / ((calcDepth10 (F.ofReal v)).val + 0.01)))
        (by filter_upwards [Ioo_mem_nhdsLT h1] with v hv; rw [h3 v hv.1 hv.2])
        ((logTerm_continuousAt ha0 hz cl).tendsto.mono_left nhdsWithin_le_nhds)
    · exact Tendsto.congr' (f₁ := fun v : ℝ => (cr : ℝ) *
        Real.log ((min z 2 + 0.01) / ((calcDepth10 (F.ofReal v)).val + 0.01)))
        (by filter_upwards [Ioo_mem_nhdsGT h2] with v hv; rw [h4 v hv.1 hv.2])
        ((logTerm_continuousAt ha0 hz cr).tendsto.mono_left nhdsWithin_le_nhds)
  simp only [List.mem_cons, Prod.mk.injEq, List.not_mem_nil, or_false] at ha
  rcases ha with ⟨rfl, rfl, rfl⟩ | ⟨rfl, rfl, rfl⟩ | ⟨rfl, rfl, rfl⟩
  · refine ⟨100, 300, by norm_num, by norm_num, fun v h1 h2 => ?_, fun v h1 h2 => ?_, by norm_num⟩
    · rw [basinCoeff, if_pos h2.le]
    · rw [basinCoeff, if_neg (by linarith), if_pos h2.le]
  · refine ⟨200, 500, by norm_num, by norm_num, fun v h1 h2 => ?_, fun v h1 h2 => ?_, by norm_num⟩
    · rw [basinCoeff, if_neg (by linarith), if_pos h2.le]
    · rw [basinCoeff, if_neg (by linarith), if_neg (by linarith), if_pos h2.le]
  · refine ⟨300, 600, by norm_num, by norm_num, fun v h1 h2 => ?_, fun v h1 h2 => ?_, by norm_num⟩
    · rw [basinCoeff, if_neg (by linarith), if_neg (by linarith), if_pos h2.le]
    · rw [basinCoeff, if_neg (by linarith), if_neg (by linarith), if_neg (by linarith)]

end BA19

/-- So the effect of a given depth `z` (against leaving it out) jumps where the velocity crosses
200, 300 or 500 m/s: its two limits there are the logarithm times the coefficients of the two
ranges. -/
theorem C71_jumps (S S' : ℝ → Scenario) (r m t z : ℝ) (hr : 0 ≤ r) (hz : 0 ≤ z)
    (h : ∀ v, BA19.Source (S v) ⟨r, m, v, t, none⟩) (h' : ∀ v, BA19.Source (S' v) ⟨r, m, v, t, some z⟩)
    (hm : ∀ v, (S v).get "mechanism" = (S' v).get "mechanism") (k : ℕ) (c : BA19.Row)
    (hc : BA19.table[k]? = some c) (hk : k ≤ 238) (a : ℝ) (cl cr : ℚ)
    (ha : (a, cl, cr) ∈ [((200 : ℝ), c.c11a.getD 0, c.c11b.getD 0), (300, c.c11b.getD 0, c.c11c.getD 0),
      (500, c.c11c.getD 0, c.c11d.getD 0)]) :
    ∃ O O' : ℝ → BA19.Out, (∀ v, 0 < v → Gives BA19.cls (S v) (O v) ∧ Gives BA19.cls (S' v) (O' v)) ∧
      Filter.Tendsto (fun v => ((O' v).lnEas.getD k F.nan).val - ((O v).lnEas.getD k F.nan).val)
        (nhdsWithin a (Set.Iio a)) (nhds (cl *
          Real.log ((min z 2 + 0.01) / ((BA19.calcDepth10 (F.ofReal a)).val + 0.01)))) ∧
      Filter.Tendsto (fun v => ((O' v).lnEas.getD k F.nan).val - ((O v).lnEas.getD k F.nan).val)
        (nhdsWithin a (Set.Ioi a)) (nhds (cr *
          Real.log ((min z 2 + 0.01) / ((BA19.calcDepth10 (F.ofReal a)).val + 0.01)))) := by
  have key : ∀ v, 0 < v → ∃ p : BA19.Out × BA19.Out, Gives BA19.cls (S v) p.1 ∧ Gives BA19.cls (S' v) p.2 ∧
      (p.2.lnEas.getD k F.nan).val - (p.1.lnEas.getD k F.nan).val = BA19.basinCoeff c v *
          Real.log ((min z 2 + 0.01) / ((BA19.calcDepth10 (F.ofReal v)).val + 0.01)) := by
    intro v hv
    obtain ⟨o, o', g1, g2, -, e⟩ := C71_basin (S v) (S' v) _ _ (h v) (h' v) ⟨hr, hv, by simp⟩
      ⟨hr, hv, by simpa using hz⟩ (hm v) rfl rfl rfl rfl rfl z rfl
    refine ⟨(o, o'), g1, g2, ?_⟩
    have := (e k c hc hk).2.2
    simp only at this ⊢
    linarith
  classical
  let O : ℝ → BA19.Out × BA19.Out := fun v => if hv : 0 < v then (key v hv).choose else (⟨[], []⟩, ⟨[], []⟩)
  have hO := fun v (hv : 0 < v) => (key v hv).choose_spec
  have eO : ∀ v (hv : 0 < v), O v = (key v hv).choose := fun v hv => by simp only [O, dif_pos hv]
  have ha0 : 0 < a := by
    simp only [List.mem_cons, Prod.mk.injEq, List.not_mem_nil, or_false] at ha
    rcases ha with ⟨rfl, _⟩ | ⟨rfl, _⟩ | ⟨rfl, _⟩ <;> norm_num
  obtain ⟨l1, l2⟩ := BA19.basin_limits c hz ha
  refine ⟨fun v => (O v).1, fun v => (O v).2, fun v hv => ?_, ?_, ?_⟩
  · simp only [eO v hv]; exact ⟨(hO v hv).1, (hO v hv).2.1⟩
  · refine l1.congr' ?_
    filter_upwards [nhdsWithin_le_nhds (lt_mem_nhds ha0)] with v hv
    simp only [eO v hv]; exact (hO v hv).2.2.symm
  · refine l2.congr' ?_
    filter_upwards [nhdsWithin_le_nhds (lt_mem_nhds ha0)] with v hv
    simp only [eO v hv]; exact (hO v hv).2.2.symm

/-! ### The hypotheses are met -/

namespace BA19

/-- a scenario with the given numbers -/
def sample (r m v t : ℝ) (z : Val) (mech : String) : Scenario :=
  ⟨[("dist_rup", .num r), ("mag", .num m), ("v_s30", .num v), ("depth_tor", .num t), ("depth_1_0", z),
    ("mechanism", .str mech)], []⟩

theorem sample_source (r m v t : ℝ) (z : Option ℝ) (mech : String) :
    Source (sample r m v t (Val.ofOpt z) mech) ⟨r, m, v, t, z⟩ := by
  constructor <;> simp [sample, Scenario.get, Dict.get?]

end BA19

example : ∃ o o', Gives BA19.cls (BA19.sample 20 7 900 3 .none "RS") o ∧
    Gives BA19.cls (BA19.sample 60 7 900 3 .none "RS") o' ∧ o.lnEas.length = 301 ∧ o'.lnEas.length = 301 ∧
      ∀ k < 301, F.Drops (o.lnEas.getD k F.nan) (o'.lnEas.getD k F.nan) :=
  C70_attenuates _ _ _ _ (BA19.sample_source 20 7 900 3 none "RS") (BA19.sample_source 60 7 900 3 none "RS")
    ⟨by norm_num, by norm_num, by simp⟩ ⟨by norm_num, by norm_num, by simp⟩ rfl rfl rfl rfl rfl
    (by norm_num) (by norm_num) (by norm_num)

example : ∃ o o', Gives BA19.cls (BA19.sample 20 6 900 3 (.num 0.1) "NS") o ∧
    Gives BA19.cls (BA19.sample 20 7.5 900 3 (.num 0.1) "NS") o' ∧ o.lnEas.length = 301 ∧
    o'.lnEas.length = 301 ∧ ∀ k < 301, F.Drops (o'.lnEas.getD k F.nan) (o.lnEas.getD k F.nan) :=
  C70_magnitude _ _ _ _ (BA19.sample_source 20 6 900 3 (some 0.1) "NS") (BA19.sample_source 20 7.5 900 3 (some 0.1) "NS")
    ⟨by norm_num, by norm_num, by norm_num⟩ ⟨by norm_num, by norm_num, by norm_num⟩ rfl rfl rfl rfl rfl
    (by norm_num) (by norm_num)

example := C42_nonlinear _ _ _ _ (BA19.sample_source 20 7 760 3 none "SS") (BA19.sample_source 20 7 250 3 none "SS")
    ⟨by norm_num, by norm_num, by simp⟩ ⟨by norm_num, by norm_num, by simp⟩ rfl rfl rfl rfl rfl rfl rfl
    (by norm_num)

example := C42_linear_on_rock _ _ _ _ (BA19.sample_source 20 7 800 3 none "SS") (BA19.sample_source 20 7 1100 3 none "SS")
    ⟨by norm_num, by norm_num, by simp⟩ ⟨by norm_num, by norm_num, by simp⟩ rfl rfl rfl rfl rfl rfl
    (by norm_num) (by norm_num)

example := C42_high_frequency _ _ (BA19.sample_source 20 7 250 3 none "SS") ⟨by norm_num, by norm_num, by simp⟩

example := C41_std _ _ (BA19.sample_source 20 7 250 3 none "SS")

example := C41_magnitude _ _ _ _ (BA19.sample_source 20 4.5 250 3 none "SS") (BA19.sample_source 30 6 250 3 none "SS")
    (by norm_num)

example := C70_mechanism _ _ _ (BA19.sample_source 20 7 900 3 none "SS") (BA19.sample_source 20 7 900 3 none "NS")
    ⟨by norm_num, by norm_num, by simp⟩ (by simp [BA19.sample, Scenario.get, Dict.get?])

example := C71_jumps (fun v => BA19.sample 20 7 v 3 .none "SS") (fun v => BA19.sample 20 7 v 3 (.num 0.7) "SS")
    20 7 3 0.7 (by norm_num) (by norm_num) (fun v => BA19.sample_source 20 7 v 3 none "SS")
    (fun v => BA19.sample_source 20 7 v 3 (some 0.7) "SS") (fun _ => rfl)
