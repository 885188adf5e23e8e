import Verif.Models.TP05
import Verif.Bounds

/-! # C55: Tavakoli & Pezeshk (2005) -/

open Bounds

set_option linter.unusedSimpArgs false

namespace TP05

theorem row_facts : ∀ c ∈ table, c.c_5 ≠ 0 ∧ c.c_15 < 0 ∧ 0 < c.c_14 + c.c_15 * 7.2 ∧ 0 < c.c_16 ∧
    (c.period ≠ 0.5 → c.c_14 + c.c_15 * 7.2 - c.c_16 ≤ 0.0066 ∧
      -0.0066 ≤ c.c_14 + c.c_15 * 7.2 - c.c_16) ∧
    (c.period = 0.5 → c.c_14 + c.c_15 * 7.2 - c.c_16 < -0.4) := by
  decide +kernel

/-- one row is defined exactly for magnitudes up to 8.5 and distances above -4.5 km -/
theorem lnResp_ok_iff {c : Row} (hc : c ∈ table) (m R : ℝ) :
    (lnResp c (F.ofReal m) (F.ofReal R)).ok ↔ m ≤ 8.5 ∧ -4.5 < R := by
  have h5 : (c.c_5 : ℝ) ≠ 0 := by exact_mod_cast (row_facts c hc).1
  have hp : ∀ x : ℝ, 0 < R ^ 2 + (c.c_5 * Real.exp x) ^ 2 := fun x => by positivity
  have e1 : (0 < 8.5 - m ∨ 8.5 - m = 0 ∧ (0 : ℝ) < 2.5) ↔ m ≤ 8.5 := by
    constructor
    · rintro (h | ⟨h, -⟩) <;> linarith
    · intro h
      rcases h.lt_or_eq with h | h
      · left; linarith
      · right; constructor <;> [linarith; norm_num]
  have e2 : (0 < R + 4.5) ↔ -4.5 < R := by constructor <;> intro h <;> linarith
  have h70 : (0 : ℝ) < 70 := by norm_num
  have h130 : (0 : ℝ) < 130 := by norm_num
  simp only [lnResp, f1, f2, f3, distR, fsimp, e1, e2, hp, Real.sqrt_pos, (hp _).le, h70.ne',
    h130.ne', ne_eq, not_false_eq_true]
  constructor
  · rintro ⟨⟨h, h2⟩, -⟩
    refine ⟨h, ?_⟩
    split at h2 <;> split at h2 <;> tauto
  · rintro ⟨h, h2⟩
    refine ⟨⟨h, ?_⟩, h⟩
    split
    · rename_i h3
      have : 0 < R := by linarith
      split <;> simp [h2, this]
    · split
      · rename_i h3
        have : 0 < R := by linarith
        simp [h2, this]
      · exact h2

theorem std_facts_real {c : Row} (hc : c ∈ table) : (c.c_15 : ℝ) < 0 ∧
    0 < (c.c_14 : ℝ) + c.c_15 * 7.2 ∧ (0 : ℝ) < c.c_16 ∧
    (c.period ≠ 0.5 → (c.c_14 : ℝ) + c.c_15 * 7.2 - c.c_16 ≤ 0.0066 ∧
      -0.0066 ≤ (c.c_14 : ℝ) + c.c_15 * 7.2 - c.c_16) ∧
    (c.period = 0.5 → (c.c_14 : ℝ) + c.c_15 * 7.2 - c.c_16 < -0.4) := by
  obtain ⟨-, k1, k2, k3, k4, k5⟩ := row_facts c hc
  have r2 : (0 : ℝ) < ((c.c_14 + c.c_15 * 7.2 : ℚ) : ℝ) := by exact_mod_cast k2
  push_cast at r2
  refine ⟨by exact_mod_cast k1, r2, by exact_mod_cast k3, fun h => ?_, fun h => ?_⟩
  · have r4 : ((c.c_14 + c.c_15 * 7.2 - c.c_16 : ℚ) : ℝ) ≤ ((0.0066 : ℚ) : ℝ) := by
      exact_mod_cast (k4 h).1
    have r5 : ((-0.0066 : ℚ) : ℝ) ≤ ((c.c_14 + c.c_15 * 7.2 - c.c_16 : ℚ) : ℝ) := by
      exact_mod_cast (k4 h).2
    push_cast at r4 r5
    exact ⟨r4, r5⟩
  · have r4 : ((c.c_14 + c.c_15 * 7.2 - c.c_16 : ℚ) : ℝ) < ((-0.4 : ℚ) : ℝ) := by
      exact_mod_cast k5 h
    push_cast at r4
    exact r4

end TP05

/-- TavakoliPezeshk05: every scenario with a numeric magnitude and distance constructs,
and each of the 14 log responses is defined exactly when the magnitude is at most 8.5
and the distance above -4.5 km: above magnitude 8.5 there is no defined response at any
period, although only a warning (limit 8.2) was given. -/
theorem C55_domain (s : Scenario) (m R : ℝ)
    (hm : s.get "mag" = .num m) (hr : s.get "dist_rup" = .num R) :
    ∃ o, Gives TP05.cls s o ∧ o.lnResp.length = 14 ∧
      ∀ y ∈ o.lnResp, (y.ok ↔ m ≤ 8.5 ∧ -4.5 < R) := by
  refine ⟨_, TP05.gives s hm hr, by simp [TP05.out, TP05.table], ?_⟩
  intro y hy
  obtain ⟨c, hc, rfl⟩ := List.mem_map.1 hy
  exact TP05.lnResp_ok_iff hc m R

/-- Standard deviations are defined and positive for every numeric magnitude. -/
theorem C55_std_positive (s : Scenario) (m R : ℝ)
    (hm : s.get "mag" = .num m) (hr : s.get "dist_rup" = .num R) :
    ∃ o sd, Gives TP05.cls s o ∧ o.lnStd = some sd ∧ sd.length = 14 ∧ F.AllPos sd := by
  refine ⟨_, _, TP05.gives s hm hr, rfl, by simp [TP05.table], ?_⟩
  intro y hy
  obtain ⟨c, hc, rfl⟩ := List.mem_map.1 hy
  obtain ⟨r1, r2, r3, -, -⟩ := TP05.std_facts_real hc
  refine ⟨by simp [TP05.lnStd], ?_⟩
  simp only [TP05.lnStd, fsimp]
  split
  · rename_i h; nlinarith
  · exact r3

open Filter Topology in
/-- the jump of one row -/
theorem TP05.row_std_jump (c : TP05.Row) (hc : c ∈ TP05.table) :
    ∃ L, Tendsto (fun m => (TP05.lnStd c (F.ofReal m)).val) (𝓝[<] 7.2) (𝓝 L) ∧
      (c.period ≠ 0.5 → |L - (TP05.lnStd c (F.ofReal 7.2)).val| ≤ 0.0066) ∧
      (c.period = 0.5 → 0.4 < (TP05.lnStd c (F.ofReal 7.2)).val - L) := by
  obtain ⟨r1, r2, r3, r4, r5⟩ := TP05.std_facts_real hc
  refine ⟨c.c_14 + c.c_15 * 7.2, tendsto_left (g := fun m => c.c_14 + c.c_15 * m)
    (by fun_prop) ?_, ?_, ?_⟩
  · intro x hx; simp [TP05.lnStd, hx]
  · intro h
    simp only [TP05.lnStd, fsimp, lt_irrefl]
    rw [abs_le]
    constructor <;> linarith [r4 h]
  · intro h
    simp only [TP05.lnStd, fsimp, lt_irrefl]
    linarith [r5 h]

open Filter Topology in
/-- The standard deviation jumps at M 7.2 by at most 0.0066 at every period but 0.5 s,
and by more than 0.4 at 0.5 s. -/
theorem C55_std_jump (S : ℝ → Scenario) (R : ℝ) (hm : ∀ m, (S m).get "mag" = .num m)
    (hr : ∀ m, (S m).get "dist_rup" = .num R) :
    ∃ (O : ℝ → GmmOut) (sd : ℝ → List F), (∀ m, Gives TP05.cls (S m) (O m) ∧ (O m).lnStd = some (sd m)) ∧
      ∀ i < 14, ∃ L T, (TP05.table.map TP05.Row.period)[i]? = some T ∧
        Tendsto (fun m => ((sd m).getD i F.nan).val) (𝓝[<] 7.2) (𝓝 L) ∧
        (T ≠ 0.5 → |L - ((sd 7.2).getD i F.nan).val| ≤ 0.0066) ∧
        (T = 0.5 → 0.4 < ((sd 7.2).getD i F.nan).val - L) := by
  refine ⟨_, _, fun m => ⟨TP05.gives (S m) (hm m) (hr m), rfl⟩, fun i hi => ?_⟩
  have hi' : i < TP05.table.length := by simpa [TP05.table] using hi
  simp only [List.getD_eq_getElem?_getD, List.getElem?_map, List.getElem?_eq_getElem hi',
    Option.map_some, Option.getD_some]
  obtain ⟨L, h1, h2, h3⟩ := TP05.row_std_jump _ (List.getElem_mem hi')
  exact ⟨L, _, rfl, h1, h2, h3⟩

/-- both kinds of period occur in the table -/
example : (∃ c ∈ TP05.table, c.period = 0.5) ∧ (∃ c ∈ TP05.table, c.period ≠ 0.5) := by
  constructor
  · decide +kernel
  · decide +kernel

/-- a scenario above magnitude 8.5, and one below -/
example : ∃ o, Gives TP05.cls ⟨[("mag", .num 9), ("dist_rup", .num 20)], []⟩ o ∧
    ∀ y ∈ o.lnResp, ¬ y.ok := by
  obtain ⟨o, h1, -, h2⟩ := C55_domain ⟨[("mag", .num 9), ("dist_rup", .num 20)], []⟩ 9 20
    (by simp [Scenario.get, Dict.get?]) (by simp [Scenario.get, Dict.get?])
  exact ⟨o, h1, fun y hy h => by have := ((h2 y hy).1 h).1; norm_num at this⟩
example : ∃ o, Gives TP05.cls ⟨[("mag", .num 7), ("dist_rup", .num 20)], []⟩ o ∧
    ∀ y ∈ o.lnResp, y.ok := by
  obtain ⟨o, h1, -, h2⟩ := C55_domain ⟨[("mag", .num 7), ("dist_rup", .num 20)], []⟩ 7 20
    (by simp [Scenario.get, Dict.get?]) (by simp [Scenario.get, Dict.get?])
  exact ⟨o, h1, fun y hy => (h2 y hy).2 (by norm_num)⟩
