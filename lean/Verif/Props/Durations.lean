import Verif.Models.Durations
import Verif.Bounds

/-! # C20, C30-C33: duration models -/

open Bounds

set_option linter.unusedSimpArgs false

/-! ### The source term -/

theorem log_ten_gt : (2.3025 : ℝ) < Real.log 10 := by
  have h : expHi 2.3025 < (10 : ℚ) := by decide +kernel
  have h' : (expHi 2.3025 : ℝ) < (10 : ℝ) := by exact_mod_cast h
  rw [Real.lt_log_iff_exp_lt (by norm_num)]
  have := le_expHi (q := 2.3025) (by norm_num) (by norm_num)
  push_cast at this
  linarith

theorem log_ten_lt : Real.log 10 < (2.3026 : ℝ) := by
  have h : (10 : ℚ) < expLo 2.3026 := by decide +kernel
  have h' : (10 : ℝ) < (expLo 2.3026 : ℝ) := by exact_mod_cast h
  rw [Real.log_lt_iff_lt_exp (by norm_num)]
  have := expLo_le (q := 2.3026) (by norm_num)
  push_cast at this
  linarith

/-- `(stress drop / moment) ** p` as one exponential -/
theorem source_val (A m p : ℝ) :
    (Real.exp A / (10 : ℝ) ^ (1.5 * m + 16.05)) ^ p
      = Real.exp ((A - (1.5 * m + 16.05) * Real.log 10) * p) := by
  rw [Real.rpow_def_of_pos (by norm_num : (0 : ℝ) < 10), ← Real.exp_sub, ← Real.exp_mul]
  congr 2; ring

theorem source_pos (A m : ℝ) : 0 < Real.exp A / (10 : ℝ) ^ (1.5 * m + 16.05) :=
  div_pos (Real.exp_pos _) (Real.rpow_pos_of_pos (by norm_num) _)

theorem moment_ne (m : ℝ) : (10 : ℝ) ^ (1.5 * m + 16.05) ≠ 0 :=
  (Real.rpow_pos_of_pos (by norm_num) _).ne'

/-- the source duration grows with magnitude while the stress drop grows slower than the
moment -/
theorem source_mono {a b m m' : ℝ} (hb : b < 3) (h : m < m') :
    (Real.exp (a + b * (m - 6)) / (10 : ℝ) ^ (1.5 * m + 16.05)) ^ ((-1 : ℝ) / 3) <
    (Real.exp (a + b * (m' - 6)) / (10 : ℝ) ^ (1.5 * m' + 16.05)) ^ ((-1 : ℝ) / 3) := by
  rw [source_val, source_val, Real.exp_lt_exp]
  nlinarith [log_ten_gt, mul_pos (sub_pos.2 h) (sub_pos.2 log_ten_gt), mul_pos (sub_pos.2 h) (sub_pos.2 hb)]

/-! ### AS96 -/

namespace AS96

/-- the number inside the logarithm -/
theorem arg_pos (m r : ℝ) (soil : Bool) :
    0 < (Real.exp (5.204 + 0.851 * (m - 6)) / (10 : ℝ) ^ (1.5 * m + 16.05)) ^ ((-1 : ℝ) / 3)
      / (4.9e6 * 3.2) + 0.805 * (if soil then 1 else 0) + 0.063 * max (r - 10) 0 := by
  have h1 := Real.rpow_pos_of_pos (source_pos (5.204 + 0.851 * (m - 6)) m) ((-1 : ℝ) / 3)
  have h2 : 0 ≤ max (r - 10) 0 := le_max_right _ _
  have h3 : (0 : ℝ) ≤ if soil then 1 else 0 := by split <;> norm_num
  positivity

theorem lnDur_ok (m r : ℝ) (soil : Bool) : (lnDur (F.ofReal m) (F.ofReal r) soil).ok := by
  have h := arg_pos m r soil
  have h1 := source_pos (5.204 + 0.851 * (m - 6)) m
  simp only [lnDur, calcLnDurIncr, incr, seismicMoment, fsimp]
  repeat' apply And.intro
  all_goals first
    | exact h
    | exact moment_ne m
    | exact Or.inl h1
    | exact Or.inl (by norm_num)
    | (split <;> trivial)
    | norm_num

/-- the duration as a function of the argument of the logarithm -/
theorem lnDur_val (m r : ℝ) (soil : Bool) :
    (lnDur (F.ofReal m) (F.ofReal r) soil).val =
    Real.log ((Real.exp (5.204 + 0.851 * (m - 6)) / (10 : ℝ) ^ (1.5 * m + 16.05)) ^ ((-1 : ℝ) / 3)
      / (4.9e6 * 3.2) + 0.805 * (if soil then 1 else 0) + 0.063 * max (r - 10) 0)
      + (calcLnDurIncr 0.75).val := by
  simp only [lnDur, seismicMoment, fsimp]

/-- the increment on the covered range -/
theorem calcLnDurIncr_ok_iff (x : ℝ) :
    (calcLnDurIncr (F.ofReal x)).ok ↔ 0.1 ≤ x ∧ x ≤ 0.95 := by
  have e : (0.10 : ℝ) = 0.1 := by norm_num
  simp only [calcLnDurIncr, incr, fsimp, e]
  constructor
  · intro h
    split at h
    · exact h.elim
    · rename_i h1
      split at h
      · exact h.elim
      · rename_i h2; exact ⟨not_lt.1 h1, not_lt.1 h2⟩
  · rintro ⟨h1, h2⟩
    rw [if_neg (not_lt.2 h1), if_neg (not_lt.2 h2)]
    have : 0 < (x - 0.05) / (1 - x) := div_pos (by norm_num at *; linarith) (by norm_num at *; linarith)
    have h1 : 1 - x ≠ 0 := by intro h0; rw [h0] at this; simp at this
    exact ⟨h1, this⟩

theorem calcLnDurIncr_mono {x y : ℝ} (hx : 0.1 ≤ x) (hxy : x < y) (hy : y ≤ 0.95) :
    (calcLnDurIncr (F.ofReal x)).val < (calcLnDurIncr (F.ofReal y)).val := by
  have e : (0.10 : ℝ) = 0.1 := by norm_num
  simp only [calcLnDurIncr, incr, fsimp, e]
  rw [if_neg (not_lt.2 hx), if_neg (by linarith), if_neg (by linarith), if_neg (not_lt.2 hy)]
  have hx1 : 0 < 1 - x := by norm_num at *; linarith
  have hy1 : 0 < 1 - y := by norm_num at *; linarith
  have hx0 : 0 < x - 0.05 := by norm_num at *; linarith
  have lt : (x - 0.05) / (1 - x) < (y - 0.05) / (1 - y) := by
    rw [div_lt_div_iff₀ hx1 hy1]; nlinarith
  have hp : 0 < (x - 0.05) / (1 - x) := div_pos hx0 hx1
  have hl := Real.log_lt_log hp lt
  have up : Real.log ((y - 0.05) / (1 - y)) ≤ 3 := by
    have h18 : (y - 0.05) / (1 - y) ≤ 18 := by
      rw [div_le_iff₀ hy1]; norm_num at *; linarith
    have := log_le_of (x := (y - 0.05) / (1 - y)) (q := 3) (hp.trans lt) (by norm_num)
      (h18.trans (by
        have : (18 : ℚ) ≤ expLo 3 := by decide +kernel
        exact_mod_cast this))
    exact_mod_cast this
  nlinarith

end AS96

/-- AbrahamsonSilva1996: for every magnitude, distance and site condition the duration is
defined and positive. -/
theorem C31_defined (s : Scenario) (m r : ℝ) (site : String)
    (hm : s.get "mag" = .num m) (hr : s.get "dist_rup" = .num r) (ht : s.get "site_cond" = .str site) :
    ∃ o d, Gives AS96.cls s o ∧ o.duration = [d] ∧ d.ok ∧ 0 < d.val := by
  refine ⟨_, _, AS96.gives s hm hr ht, rfl, ?_, ?_⟩
  · simp only [fsimp]; exact AS96.lnDur_ok _ _ _
  · simp only [fsimp]; exact Real.exp_pos _

/-- Of two scenarios, the one that is not smaller, not closer and not on rock where the
other is on soil, and is strictly larger, strictly farther (and farther than 10 km), or
soil instead of rock, has the strictly longer duration. -/
theorem C31_increases (s t : Scenario) (m m' r r' : ℝ) (site site' : String)
    (hsm : s.get "mag" = .num m) (htm : t.get "mag" = .num m')
    (hsr : s.get "dist_rup" = .num r) (htr : t.get "dist_rup" = .num r')
    (hst : s.get "site_cond" = .str site) (htt : t.get "site_cond" = .str site')
    (hmm : m ≤ m') (hrr : r ≤ r') (hss : site = "soil" → site' = "soil")
    (hne : m < m' ∨ (r < r' ∧ 10 < r') ∨ (site = "rock" ∧ site' = "soil")) :
    ∃ o p d e, Gives AS96.cls s o ∧ Gives AS96.cls t p ∧ o.duration = [d] ∧ p.duration = [e] ∧
      F.Drops e d := by
  refine ⟨_, _, _, _, AS96.gives s hsm hsr hst, AS96.gives t htm htr htt, rfl, rfl, ?_, ?_, ?_⟩
  · simp only [fsimp]; exact AS96.lnDur_ok _ _ _
  · simp only [fsimp]; exact AS96.lnDur_ok _ _ _
  · simp only [F.val_exp, Real.exp_lt_exp, AS96.lnDur_val]
    have hp := AS96.arg_pos m r (decide (site = "soil"))
    rw [add_lt_add_iff_right]
    apply Real.log_lt_log hp
    have e1 : m < m' → _ := fun h => source_mono (a := 5.204) (b := 0.851) (by norm_num) h
    have e1' : (Real.exp (5.204 + 0.851 * (m - 6)) / (10 : ℝ) ^ (1.5 * m + 16.05)) ^ ((-1 : ℝ) / 3) ≤
      (Real.exp (5.204 + 0.851 * (m' - 6)) / (10 : ℝ) ^ (1.5 * m' + 16.05)) ^ ((-1 : ℝ) / 3) := by
      rcases eq_or_lt_of_le hmm with rfl | h
      · exact le_refl _
      · exact (e1 h).le
    have e2 : max (r - 10) 0 ≤ max (r' - 10) 0 := max_le_max (by linarith) le_rfl
    have e3 : (if decide (site = "soil") = true then (1 : ℝ) else 0) ≤
        if decide (site' = "soil") = true then 1 else 0 := by
      simp only [decide_eq_true_eq]
      split
      · rw [if_pos (hss ‹_›)]
      · split <;> norm_num
    have d1 := div_le_div_of_nonneg_right e1' (by norm_num : (0 : ℝ) ≤ 4.9e6 * 3.2)
    rcases hne with h | ⟨h, h10⟩ | ⟨rfl, rfl⟩
    · have := div_lt_div_of_pos_right (e1 h) (by norm_num : (0 : ℝ) < 4.9e6 * 3.2)
      linarith
    · have : max (r - 10) 0 < max (r' - 10) 0 := by
        rw [max_eq_left (by linarith : (0 : ℝ) ≤ r' - 10)]
        exact max_lt (by linarith) (by linarith)
      linarith
    · have : (if decide ("rock" = "soil") = true then (1 : ℝ) else 0) = 0 := by simp
      rw [this]
      simp only [decide_true, if_true]
      linarith

/-- Within 10 km the distance does not matter. -/
theorem C31_near (s t : Scenario) (m r r' : ℝ) (site : String)
    (hsm : s.get "mag" = .num m) (htm : t.get "mag" = .num m)
    (hsr : s.get "dist_rup" = .num r) (htr : t.get "dist_rup" = .num r')
    (hst : s.get "site_cond" = .str site) (htt : t.get "site_cond" = .str site)
    (hr : r ≤ 10) (hr' : r' ≤ 10) :
    ∃ o p d e, Gives AS96.cls s o ∧ Gives AS96.cls t p ∧ o.duration = [d] ∧ p.duration = [e] ∧
      d.val = e.val := by
  refine ⟨_, _, _, _, AS96.gives s hsm hsr hst, AS96.gives t htm htr htt, rfl, rfl, ?_⟩
  simp only [F.val_exp, AS96.lnDur_val]
  rw [max_eq_right (by linarith : r - 10 ≤ 0), max_eq_right (by linarith : r' - 10 ≤ 0)]

/-- `interp` of a model: defined exactly on [0.1, 0.95], positive and strictly increasing
there. -/
theorem C31_interp (s : Scenario) (m r : ℝ) (site : String)
    (hm : s.get "mag" = .num m) (hr : s.get "dist_rup" = .num r) (ht : s.get "site_cond" = .str site) :
    ∃ o ld, Gives AS96.cls s o ∧ o.lnDur = [ld] ∧
      (∀ x : ℝ, (AS96.interp ld (F.ofReal x)).ok ↔ 0.1 ≤ x ∧ x ≤ 0.95) ∧
      (∀ x y : ℝ, 0.1 ≤ x → x < y → y ≤ 0.95 →
        0 < (AS96.interp ld (F.ofReal x)).val ∧
        (AS96.interp ld (F.ofReal x)).val < (AS96.interp ld (F.ofReal y)).val) := by
  refine ⟨_, _, AS96.gives s hm hr ht, rfl, ?_, ?_⟩
  · intro x
    simp only [AS96.interp, F.ok_exp, F.ok_add, AS96.calcLnDurIncr_ok_iff]
    exact ⟨fun h => h.2, fun h => ⟨AS96.lnDur_ok _ _ _, h⟩⟩
  · intro x y hx hxy hy
    simp only [AS96.interp, F.val_exp, F.val_add, Real.exp_lt_exp, add_lt_add_iff_left]
    exact ⟨Real.exp_pos _, AS96.calcLnDurIncr_mono hx hxy hy⟩

/-- Although `duration` is the 5-75 % duration, `interp(0.75)` is not equal to it: the
constructor already contains the 0.75 increment and `interp` adds it again.  For every
scenario the ratio is the same, between 0.8 and 0.9 percent above one. -/
theorem C63_interp_not_duration (s : Scenario) (m r : ℝ) (site : String)
    (hm : s.get "mag" = .num m) (hr : s.get "dist_rup" = .num r) (ht : s.get "site_cond" = .str site) :
    ∃ o ld d, Gives AS96.cls s o ∧ o.lnDur = [ld] ∧ o.duration = [d] ∧
      1.008 * d.val < (AS96.interp ld (F.ofReal 0.75)).val ∧
      (AS96.interp ld (F.ofReal 0.75)).val < 1.009 * d.val := by
  refine ⟨_, _, _, AS96.gives s hm hr ht, rfl, rfl, ?_⟩
  simp only [AS96.interp, F.val_exp, F.val_add, Real.exp_add]
  set E := Real.exp (AS96.lnDur (F.ofReal m) (F.ofReal r) (decide (site = "soil"))).val with hE
  have hpos : 0 < E := Real.exp_pos _
  have hL : (AS96.calcLnDurIncr (F.ofReal 0.75)).val =
      -0.532 + 0.552 * Real.log 2.8 - 0.0262 * Real.log 2.8 ^ 2 := by
    simp only [AS96.calcLnDurIncr, AS96.incr, fsimp]
    norm_num
  have l1 : (1.0296 : ℝ) ≤ Real.log 2.8 := by
    have := le_log_of (x := 2.8) (q := 1.0296) (by norm_num) (by norm_num) (by norm_num)
      (by
        have : expHi 1.0296 ≤ (2.8 : ℚ) := by decide +kernel
        have h : ((expHi 1.0296 : ℚ) : ℝ) ≤ ((2.8 : ℚ) : ℝ) := by exact_mod_cast this
        push_cast at h; exact h)
    push_cast at this; exact this
  have l2 : Real.log 2.8 ≤ (1.0297 : ℝ) := by
    have := log_le_of (x := 2.8) (q := 1.0297) (by norm_num) (by norm_num)
      (by
        have : (2.8 : ℚ) ≤ expLo 1.0297 := by decide +kernel
        have h : ((2.8 : ℚ) : ℝ) ≤ ((expLo 1.0297 : ℚ) : ℝ) := by exact_mod_cast this
        push_cast at h; exact h)
    push_cast at this; exact this
  have b1 : (0.008 : ℝ) < (AS96.calcLnDurIncr (F.ofReal 0.75)).val := by
    rw [hL]; nlinarith
  have b2 : (AS96.calcLnDurIncr (F.ofReal 0.75)).val < 0.0088 := by
    rw [hL]; nlinarith
  have x1 : (1.008 : ℝ) < Real.exp (AS96.calcLnDurIncr (F.ofReal 0.75)).val := by
    have := Real.add_one_lt_exp (x := (AS96.calcLnDurIncr (F.ofReal 0.75)).val) (by linarith)
    linarith
  have x2 : Real.exp (AS96.calcLnDurIncr (F.ofReal 0.75)).val < 1.009 := by
    refine (Real.exp_lt_exp.2 b2).trans_le ?_
    have := le_expHi (q := 0.0088) (by norm_num) (by norm_num)
    have h : expHi 0.0088 ≤ (1.009 : ℚ) := by decide +kernel
    have h' : ((expHi 0.0088 : ℚ) : ℝ) ≤ ((1.009 : ℚ) : ℝ) := by exact_mod_cast h
    push_cast at this h'
    linarith
  constructor <;> nlinarith

example : ∃ o p d e, Gives AS96.cls ⟨[("mag", .num 6), ("dist_rup", .num 20),
      ("site_cond", .str "rock")], []⟩ o ∧
    Gives AS96.cls ⟨[("mag", .num 7), ("dist_rup", .num 20), ("site_cond", .str "rock")], []⟩ p ∧
    o.duration = [d] ∧ p.duration = [e] ∧ F.Drops e d :=
  C31_increases _ _ 6 7 20 20 "rock" "rock"
    (by simp [Scenario.get, Dict.get?]) (by simp [Scenario.get, Dict.get?])
    (by simp [Scenario.get, Dict.get?]) (by simp [Scenario.get, Dict.get?])
    (by simp [Scenario.get, Dict.get?]) (by simp [Scenario.get, Dict.get?])
    (by norm_num) le_rfl (by simp) (Or.inl (by norm_num))

/-! ### AS96.interp on the caller's arrays -/

/-- specification: what an entry of `nias` looks like after a call -/
def Spec.Masked (x y : Option ℝ) : Prop :=
  (∀ v, x = some v → (0.1 ≤ v ∧ v ≤ 0.95 → y = some v) ∧ (v < 0.1 ∨ 0.95 < v → y = none)) ∧
  (x = none → y = none)

namespace AS96

theorem masked_maskCell (x : Cell) : Spec.Masked x (maskCell x) := by
  have e : (0.10 : ℝ) = 0.1 := by norm_num
  refine ⟨?_, ?_⟩
  · rintro v rfl
    simp only [maskCell, e]
    constructor
    · rintro ⟨h1, h2⟩
      rw [if_neg]; rintro (h | h) <;> linarith
    · intro h; rw [if_pos h]
  · rintro rfl; rfl

theorem masked_unique {x y : Cell} (h : Spec.Masked x y) : y = maskCell x := by
  cases x with
  | none => exact h.2 rfl
  | some v =>
    obtain ⟨h1, h2⟩ := h.1 v rfl
    have := (masked_maskCell (some v)).1 v rfl
    by_cases hv : 0.1 ≤ v ∧ v ≤ 0.95
    · rw [h1 hv, this.1 hv]
    · have hv' : v < 0.1 ∨ 0.95 < v := by
        rcases not_and_or.1 hv with h | h
        · exact Or.inl (not_le.1 h)
        · exact Or.inr (not_le.1 h)
      rw [h2 hv', this.2 hv']

theorem maskCell_idem (x : Cell) : maskCell (maskCell x) = maskCell x := by
  cases x with
  | none => rfl
  | some v =>
    by_cases h : v < 0.10 ∨ 0.95 < v
    · simp only [maskCell, if_pos h]
    · simp only [maskCell, if_neg h]

theorem map_maskCell_idem (l : List Cell) :
    (l.map maskCell).map maskCell = l.map maskCell := by
  rw [List.map_map]
  congr 1
  funext x; exact maskCell_idem x

theorem maskArr_idem (mem : Arrays) (ref : ℕ) : maskArr (maskArr mem ref) ref = maskArr mem ref := by
  unfold maskArr
  apply List.ext_getElem?
  intro i
  simp only [List.getElem?_modify]
  by_cases h : ref = i
  · subst h
    cases mem[ref]? with
    | none => simp
    | some l =>
      simp only [if_true]
      change some ((l.map maskCell).map maskCell) = some (l.map maskCell)
      rw [map_maskCell_idem]
  · simp [h]

theorem interpArr_mem (ld : F) (mem : Arrays) (a : NiasArg) :
    (interpArr ld mem a).1 = maskArr (asarray mem a).1 (asarray mem a).2 := by
  simp only [interpArr, calcIncrArr, maskArr_idem]

theorem interpArr_res (ld : F) (mem : Arrays) (a : NiasArg) :
    (interpArr ld mem a).2 = (((asarray mem a).1.getD (asarray mem a).2 []).map maskCell).map
      fun c => F.exp (ld + incr c.toF) := by
  simp only [interpArr, calcIncrArr, maskArr_idem, List.map_map]
  unfold maskArr
  simp only [List.getD_eq_getElem?_getD, List.getElem?_modify_eq]
  cases (asarray mem a).1[(asarray mem a).2]? <;> simp

open Classical in
/-- memory seen through one existing array -/
theorem interpArr_get (ld : F) (mem : Arrays) (a : NiasArg) (i : ℕ) (hi : i < mem.length) :
    (interpArr ld mem a).1[i]? =
      if a = .arr i then (mem[i]?).map (List.map maskCell) else mem[i]? := by
  rw [interpArr_mem]
  unfold maskArr
  rw [List.getElem?_modify]
  cases a with
  | arr ref =>
    by_cases h : ref = i
    · subst h; simp [asarray]
    · simp [asarray, h]
  | list l =>
    have : mem.length ≠ i := by omega
    simp [asarray, this, List.getElem?_append, hi]
  | scalar x =>
    have : mem.length ≠ i := by omega
    simp [asarray, this, List.getElem?_append, hi]

theorem interpArr_length (ld : F) (mem : Arrays) (a : NiasArg) :
    mem.length ≤ (interpArr ld mem a).1.length := by
  rw [interpArr_mem]; unfold maskArr
  cases a <;> simp [asarray]

end AS96

/-- `interp(a)` with the caller's own array `a`: afterwards, in that array, entries in
[0.1, 0.95] are what they were and all others are `nan`; no other array changes. -/
theorem C32_array_overwritten (ld : F) (mem : AS96.Arrays) (ref i : ℕ) (l : List (Option ℝ))
    (h : mem[i]? = some l) :
    ∃ l', (AS96.interpArr ld mem (.arr ref)).1[i]? = some l' ∧
      (i ≠ ref → l' = l) ∧ (i = ref → List.Forall₂ Spec.Masked l l') := by
  have hi : i < mem.length := by
    by_contra hh; simp [List.getElem?_eq_none (not_lt.1 hh)] at h
  rw [AS96.interpArr_get ld mem _ i hi, h]
  by_cases e : i = ref
  · subst e
    refine ⟨l.map AS96.maskCell, by simp, fun h => absurd rfl h, fun _ => ?_⟩
    clear h
    induction l with
    | nil => exact List.Forall₂.nil
    | cons a l ih => exact List.Forall₂.cons (AS96.masked_maskCell a) ih
  · refine ⟨l, ?_, fun _ => rfl, fun h => absurd h e⟩
    have : ¬ AS96.NiasArg.arr ref = AS96.NiasArg.arr i := by
      intro hh; cases hh; exact e rfl
    rw [if_neg this]

/-- A list or a number is copied: no array of the caller changes. -/
theorem C32_list_untouched (ld : F) (mem : AS96.Arrays) (a : AS96.NiasArg) (i : ℕ)
    (ha : ∀ ref, a ≠ .arr ref) (hi : i < mem.length) :
    (AS96.interpArr ld mem a).1[i]? = mem[i]? := by
  rw [AS96.interpArr_get ld mem _ i hi, if_neg (ha i)]

/-- The result does not depend on whether the array has been masked before: entries in
[0.1, 0.95] give the interpolated duration, the others are undefined. -/
theorem C32_result (ld : F) (hld : ld.ok) (mem : AS96.Arrays) (ref : ℕ) (l : List (Option ℝ))
    (h : mem[ref]? = some l) :
    List.Forall₂ (fun x y => (y.ok ↔ ∃ v, x = some v ∧ 0.1 ≤ v ∧ v ≤ 0.95) ∧
        ∀ v, x = some v → 0.1 ≤ v → v ≤ 0.95 → y.val = (AS96.interp ld (F.ofReal v)).val)
      l (AS96.interpArr ld mem (.arr ref)).2 := by
  rw [AS96.interpArr_res]
  have e : (AS96.asarray mem (.arr ref)).1.getD (AS96.asarray mem (.arr ref)).2 [] = l := by
    simp [AS96.asarray, List.getD_eq_getElem?_getD, h]
  rw [e]
  clear h e
  induction l with
  | nil => exact List.Forall₂.nil
  | cons x l ih =>
    refine List.Forall₂.cons ⟨?_, ?_⟩ ih
    · cases x with
      | none => simp [AS96.maskCell, AS96.Cell.toF, AS96.incr]
      | some v =>
        have hk := AS96.calcLnDurIncr_ok_iff v
        have hm := (AS96.masked_maskCell (some v)).1 v rfl
        by_cases hv : 0.1 ≤ v ∧ v ≤ 0.95
        · rw [hm.1 hv]
          simp only [AS96.Cell.toF, F.ok_exp, F.ok_add]
          have : (AS96.incr (F.ofReal v)).ok := by
            have hh := hk.2 hv
            have e10 : (0.10 : ℝ) = 0.1 := by norm_num
            simp only [AS96.calcLnDurIncr, F.ok_iteLt, fsimp, e10] at hh
            rw [if_neg (not_lt.2 hv.1), if_neg (not_lt.2 hv.2)] at hh
            exact hh
          exact ⟨fun _ => ⟨v, rfl, hv⟩, fun _ => ⟨hld, this⟩⟩
        · have hv' : v < 0.1 ∨ 0.95 < v := by
            rcases not_and_or.1 hv with h | h
            · exact Or.inl (not_le.1 h)
            · exact Or.inr (not_le.1 h)
          rw [hm.2 hv']
          simp only [AS96.Cell.toF, AS96.incr, fsimp, and_false, false_and, false_iff]
          rintro ⟨w, hw, h1, h2⟩
          cases hw; exact hv ⟨h1, h2⟩
    · rintro v rfl h1 h2
      have e10 : (0.10 : ℝ) = 0.1 := by norm_num
      rw [((AS96.masked_maskCell (some v)).1 v rfl).1 ⟨h1, h2⟩]
      simp only [AS96.Cell.toF, AS96.interp, AS96.calcLnDurIncr, F.val_exp, F.val_add, F.val_iteLt]
      simp only [F.val_ofReal, F.val_ofScientific, e10]
      rw [if_neg (not_lt.2 h1), if_neg (not_lt.2 h2)]

/-- Calling again with the same array gives the same result, whatever `interp` calls of
whatever models came in between. -/
theorem C32_repeat (ld : F) (mem : AS96.Arrays) (ref : ℕ) (href : ref < mem.length)
    (h : List (F × AS96.NiasArg)) :
    (AS96.interpArr ld (AS96.interpRun mem h) (.arr ref)).2 = (AS96.interpArr ld mem (.arr ref)).2 := by
  have key : ∀ (h : List (F × AS96.NiasArg)) (mem : AS96.Arrays), ref < mem.length →
      ((AS96.interpRun mem h).getD ref []).map AS96.maskCell = (mem.getD ref []).map AS96.maskCell := by
    intro h
    induction h with
    | nil => intro mem _; rfl
    | cons p h ih =>
      intro mem hm
      obtain ⟨ld', a⟩ := p
      simp only [AS96.interpRun]
      rw [ih _ (lt_of_lt_of_le hm (AS96.interpArr_length _ _ _))]
      simp only [List.getD_eq_getElem?_getD]
      rw [AS96.interpArr_get ld' mem a ref hm]
      split
      · cases mem[ref]? with
        | none => simp
        | some l => simp only [Option.map_some, Option.getD_some, AS96.map_maskCell_idem]
      · rfl
  rw [AS96.interpArr_res, AS96.interpArr_res]
  simp only [AS96.asarray]
  rw [key h mem href]

example : (AS96.interpArr (F.ofReal 1) [[some 0.5, some 0.05]] (.arr 0)).1 = [[some 0.5, none]] := by
  rw [AS96.interpArr_mem]
  simp only [AS96.asarray, AS96.maskArr, List.modify_zero_cons, List.map_cons, List.map_nil, AS96.maskCell]
  norm_num

/-! ### KS06 -/

namespace KS06

/-- the four measures: the source term at M 5 exceeds the negative part of the site term up
to 960 m/s -/
theorem row_facts : ∀ c ∈ table, c.b < 3 ∧ 0 < c.path ∧ c.site1 < 0 ∧
    0 ≤ (23.55 * 2.3025 - (c.a - c.b)) / 3 ∧
    0 < expLo ((23.55 * 2.3025 - (c.a - c.b)) / 3) / (4.9e6 * 3.2) + c.site0 + c.site1 * 960 := by
  decide +kernel

/-- the number inside the logarithm -/
noncomputable def arg (c : Row) (m r v : ℝ) : ℝ :=
  (Real.exp (c.a + c.b * (m - 6)) / (10 : ℝ) ^ (1.5 * m + 16.05)) ^ ((-1 : ℝ) / 3) / (4.9e6 * 3.2)
    + c.path * r + (c.site0 + c.site1 * v)

theorem lnDur_val (c : Row) (m r v : ℝ) :
    (lnDur c (F.ofReal m) (F.ofReal r) (F.ofReal v)).val = Real.log (arg c m r v) := by
  simp only [lnDur, sourceDur, seismicMoment, arg, fsimp]

theorem lnDur_ok_iff (c : Row) (m r v : ℝ) :
    (lnDur c (F.ofReal m) (F.ofReal r) (F.ofReal v)).ok ↔ 0 < arg c m r v := by
  have h1 := source_pos (c.a + c.b * (m - 6)) m
  simp only [lnDur, sourceDur, seismicMoment, arg, fsimp]
  refine ⟨fun h => h.2, fun h => ⟨⟨⟨?_, ?_⟩, ?_⟩, h⟩⟩
  · exact ⟨Or.inl (by norm_num), moment_ne m⟩
  · exact ⟨by norm_num, Or.inl h1⟩
  · norm_num

theorem source_le {c : Row} (hc : c ∈ table) {m m' : ℝ} (h : m ≤ m') :
    (Real.exp (c.a + c.b * (m - 6)) / (10 : ℝ) ^ (1.5 * m + 16.05)) ^ ((-1 : ℝ) / 3) ≤
    (Real.exp (c.a + c.b * (m' - 6)) / (10 : ℝ) ^ (1.5 * m' + 16.05)) ^ ((-1 : ℝ) / 3) := by
  obtain ⟨hb, -⟩ := row_facts c hc
  have hb' : (c.b : ℝ) < 3 := by exact_mod_cast hb
  rcases eq_or_lt_of_le h with rfl | h
  · exact le_refl _
  · exact (source_mono hb' h).le

theorem arg_pos {c : Row} (hc : c ∈ table) {m r v : ℝ} (hm : 5 ≤ m) (hr : 0 ≤ r) (hv : v ≤ 960) :
    0 < arg c m r v := by
  obtain ⟨-, hp, hs, hq, hf⟩ := row_facts c hc
  have hs' : (c.site1 : ℝ) < 0 := by exact_mod_cast hs
  have hp' : (0 : ℝ) < c.path := by exact_mod_cast hp
  have hf' : (0 : ℝ) < ((expLo ((23.55 * 2.3025 - (c.a - c.b)) / 3) / (4.9e6 * 3.2) + c.site0
    + c.site1 * 960 : ℚ) : ℝ) := by exact_mod_cast hf
  push_cast at hf'
  have h5 := source_le hc hm
  have hx : (expLo ((23.55 * 2.3025 - (c.a - c.b)) / 3) : ℝ) ≤
      (Real.exp (c.a + c.b * (5 - 6)) / (10 : ℝ) ^ (1.5 * 5 + 16.05 : ℝ)) ^ ((-1 : ℝ) / 3) := by
    rw [source_val]
    refine (expLo_le hq).trans (Real.exp_le_exp.2 ?_)
    push_cast
    nlinarith [log_ten_gt]
  unfold arg
  have hd := div_le_div_of_nonneg_right (hx.trans h5) (by norm_num : (0 : ℝ) ≤ 4.9e6 * 3.2)
  nlinarith [mul_nonneg hp'.le hr, mul_le_mul_of_nonpos_left hv hs'.le]

end KS06

/-- KemptonStewart2006: for magnitudes from 5, distances from 0 and v_s30 up to 960 m/s all
four durations are defined and positive. -/
theorem C30_defined (s : Scenario) (m r v : ℝ) (hm : 5 ≤ m) (hr : 0 ≤ r) (hv : v ≤ 960)
    (hsm : s.get "mag" = .num m) (hsr : s.get "dist_rup" = .num r) (hsv : s.get "v_s30" = .num v) :
    ∃ o, Gives KS06.cls s o ∧ o.duration.length = 4 ∧ ∀ d ∈ o.duration, d.ok ∧ 0 < d.val := by
  refine ⟨_, KS06.gives s hsm hsr hsv, rfl, ?_⟩
  intro d hd
  simp only [DurOut.duration, KS06.out, List.map_map, List.mem_map] at hd
  obtain ⟨c, hc, rfl⟩ := hd
  simp only [Function.comp, F.ok_exp, F.val_exp]
  exact ⟨(KS06.lnDur_ok_iff ..).2 (KS06.arg_pos hc hm hr hv), Real.exp_pos _⟩

/-- All four durations grow with magnitude and distance and shrink with v_s30: strictly when
at least one of the three changes strictly. -/
theorem C30_monotone (s t : Scenario) (m m' r r' v v' : ℝ) (hm : 5 ≤ m) (hr : 0 ≤ r)
    (hv : v ≤ 960) (hmm : m ≤ m') (hrr : r ≤ r') (hvv : v' ≤ v)
    (hne : m < m' ∨ r < r' ∨ v' < v)
    (hsm : s.get "mag" = .num m) (hsr : s.get "dist_rup" = .num r) (hsv : s.get "v_s30" = .num v)
    (htm : t.get "mag" = .num m') (htr : t.get "dist_rup" = .num r') (htv : t.get "v_s30" = .num v') :
    ∃ o p, Gives KS06.cls s o ∧ Gives KS06.cls t p ∧ o.duration.length = 4 ∧
      List.Forall₂ F.Drops p.duration o.duration := by
  refine ⟨_, _, KS06.gives s hsm hsr hsv, KS06.gives t htm htr htv, rfl, ?_⟩
  simp only [DurOut.duration, KS06.out, List.map_map]
  refine forall₂_map fun c hc => ?_
  have p1 := KS06.arg_pos hc hm hr hv
  have p2 := KS06.arg_pos hc (hm.trans hmm) (hr.trans hrr) (hvv.trans hv)
  refine ⟨?_, ?_, ?_⟩
  · exact (KS06.lnDur_ok_iff ..).2 p2
  · exact (KS06.lnDur_ok_iff ..).2 p1
  · simp only [Function.comp, F.val_exp, Real.exp_lt_exp, KS06.lnDur_val]
    apply Real.log_lt_log p1
    obtain ⟨hb, hp, hs, -⟩ := KS06.row_facts c hc
    have hb' : (c.b : ℝ) < 3 := by exact_mod_cast hb
    have hs' : (c.site1 : ℝ) < 0 := by exact_mod_cast hs
    have hp' : (0 : ℝ) < c.path := by exact_mod_cast hp
    have d1 := div_le_div_of_nonneg_right (KS06.source_le hc hmm)
      (by norm_num : (0 : ℝ) ≤ 4.9e6 * 3.2)
    have d2 := mul_le_mul_of_nonneg_left hrr hp'.le
    have d3 := mul_le_mul_of_nonpos_left hvv hs'.le
    unfold KS06.arg
    rcases hne with h | h | h
    · have := div_lt_div_of_pos_right (source_mono (a := c.a) hb' h)
        (by norm_num : (0 : ℝ) < 4.9e6 * 3.2)
      linarith
    · have := mul_lt_mul_of_pos_left h hp'
      linarith
    · have := mul_lt_mul_of_neg_left h hs'
      linarith

/-- The scenario M 5, 0 km, v_s30 1000 m/s lies within the declared limits, yet the third
duration (D5-75v) is the logarithm of a negative number; so it is for anything smaller,
closer or stiffer. -/
theorem C30_undefined (s : Scenario) (m r v : ℝ) (hm : m ≤ 5) (hr : r ≤ 0) (hv : 1000 ≤ v)
    (hsm : s.get "mag" = .num m) (hsr : s.get "dist_rup" = .num r) (hsv : s.get "v_s30" = .num v) :
    ∃ o, Gives KS06.cls s o ∧ ¬ (o.duration.getD 2 0).ok := by
  refine ⟨_, KS06.gives s hsm hsr hsv, ?_⟩
  intro h
  have h' : 0 < KS06.arg ⟨5.46, 0, 0.10, 1.40, -0.0022, 0.66⟩ m r v :=
    (KS06.lnDur_ok_iff ..).1 h
  have hc : (⟨5.46, 0, 0.10, 1.40, -0.0022, 0.66⟩ : KS06.Row) ∈ KS06.table := by
    simp [KS06.table]
  have h5 := KS06.source_le hc hm
  have hx : (Real.exp ((5.46 : ℚ) + (0 : ℚ) * (5 - 6)) / (10 : ℝ) ^ (1.5 * 5 + 16.05 : ℝ)) ^ ((-1 : ℝ) / 3)
      ≤ 1.25e7 := by
    rw [source_val]
    have e : Real.exp ((((5.46 : ℚ) : ℝ) + ((0 : ℚ) : ℝ) * (5 - 6) - (1.5 * 5 + 16.05) * Real.log 10) * (-1 / 3))
        ≤ Real.exp ((4.064 : ℚ) : ℝ) ^ 4 := by
      rw [← Real.exp_nat_mul]
      apply Real.exp_le_exp.2
      push_cast
      nlinarith [log_ten_lt]
    refine e.trans ?_
    have h1 := le_expHi (q := 4.064) (by norm_num) (by norm_num)
    refine (pow_le_pow_left₀ (Real.exp_pos _).le h1 4).trans ?_
    have h2 : expHi 4.064 ^ 4 ≤ (1.25e7 : ℚ) := by decide +kernel
    have h3 : ((expHi 4.064 ^ 4 : ℚ) : ℝ) ≤ ((1.25e7 : ℚ) : ℝ) := by exact_mod_cast h2
    push_cast at h3
    exact h3
  unfold KS06.arg at h'
  simp only at h' h5
  have hd := div_le_div_of_nonneg_right (h5.trans hx) (by norm_num : (0 : ℝ) ≤ 4.9e6 * 3.2)
  push_cast at h' hd
  norm_num at h' hd
  linarith

example : ∃ o, Gives KS06.cls ⟨[("mag", .num 5), ("dist_rup", .num 0), ("v_s30", .num 1000)], []⟩ o ∧
    ¬ (o.duration.getD 2 0).ok :=
  C30_undefined _ 5 0 1000 le_rfl le_rfl le_rfl
    (by simp [Scenario.get, Dict.get?]) (by simp [Scenario.get, Dict.get?])
    (by simp [Scenario.get, Dict.get?])
example : ∃ o p, Gives KS06.cls ⟨[("mag", .num 6), ("dist_rup", .num 30), ("v_s30", .num 500)], []⟩ o ∧
    Gives KS06.cls ⟨[("mag", .num 6), ("dist_rup", .num 40), ("v_s30", .num 400)], []⟩ p ∧
    o.duration.length = 4 ∧ List.Forall₂ F.Drops p.duration o.duration :=
  C30_monotone _ _ 6 6 30 40 500 400 (by norm_num) (by norm_num) (by norm_num) le_rfl (by norm_num)
    (by norm_num) (Or.inr (Or.inl (by norm_num)))
    (by simp [Scenario.get, Dict.get?]) (by simp [Scenario.get, Dict.get?])
    (by simp [Scenario.get, Dict.get?]) (by simp [Scenario.get, Dict.get?])
    (by simp [Scenario.get, Dict.get?]) (by simp [Scenario.get, Dict.get?])

/-! ### AS16 -/

namespace AS16

theorem row_facts : ∀ c ∈ table, 0 < c.c1 ∧ 0 < c.c2 ∧ 0 < c.c3 ∧ 0 < c.vRef ∧
    c.tau2 ≤ c.tau1 ∧ c.phi2 ≤ c.phi1 ∧ 0 < c.tau2 ∧ 0 < c.phi2 ∧
    0 < c.b0 .none ∧ 0 < c.b0 .ns ∧ 0 < c.b0 .rs ∧ 0 < c.b0 .ss := by decide +kernel

theorem b0_pos {c : Row} (hc : c ∈ table) (mech : Mech) : (0 : ℝ) < c.b0 mech := by
  obtain ⟨-, -, -, -, -, -, -, -, h1, h2, h3, h4⟩ := row_facts c hc
  cases mech <;> exact_mod_cast ‹_›

theorem source_ok_pos {c : Row} (hc : c ∈ table) (mech : Mech) (m : ℝ) :
    (source c mech (F.ofReal m)).ok ∧ 0 < (source c mech (F.ofReal m)).val := by
  have hb := b0_pos hc mech
  have hs := source_pos (c.b1 mech + c.b2 * (min m c.mag2 - 6) + c.b3 * max (m - c.mag2) 0) m
  have hp := Real.rpow_pos_of_pos hs ((1 : ℝ) / 3)
  have hf : (0 : ℝ) < 4.9e6 * 3.2 * (Real.exp (c.b1 mech + c.b2 * (min m c.mag2 - 6)
      + c.b3 * max (m - c.mag2) 0) / (10 : ℝ) ^ (1.5 * m + 16.05)) ^ ((1 : ℝ) / 3) :=
    mul_pos (by norm_num) hp
  simp only [source, seismicMoment, fsimp]
  refine ⟨?_, ?_⟩
  · repeat' apply And.intro
    all_goals first
      | exact hf.ne'
      | exact moment_ne m
      | exact Or.inl hs
      | exact Or.inl (by norm_num)
      | (split <;> trivial)
      | norm_num
  · rcases le_or_gt m c.mag1 with h | h
    · rw [if_pos h, if_neg (not_lt.2 h)]; linarith
    · rw [if_neg (not_le.2 h), if_pos h]
      have := div_pos one_pos hf
      linarith

theorem path_ok (c : Row) (r : ℝ) : (path c (F.ofReal r)).ok := by simp [path]

theorem path_nonneg {c : Row} (hc : c ∈ table) {r : ℝ} (hr : 0 ≤ r) :
    0 ≤ (path c (F.ofReal r)).val := by
  obtain ⟨h1, h2, h3, -⟩ := row_facts c hc
  have h1' : (0 : ℝ) < c.c1 := by exact_mod_cast h1
  have h2' : (0 : ℝ) < c.c2 := by exact_mod_cast h2
  have h3' : (0 : ℝ) < c.c3 := by exact_mod_cast h3
  simp only [path, fsimp]
  have a1 : 0 ≤ min r 10 := le_min hr (by norm_num)
  have a2 : 0 ≤ max (min r 50 - 10) 0 := le_max_right _ _
  have a3 : 0 ≤ max (r - 50) 0 := le_max_right _ _
  positivity

theorem path_mono {c : Row} (hc : c ∈ table) {r r' : ℝ} (h : r < r') :
    (path c (F.ofReal r)).val < (path c (F.ofReal r')).val := by
  obtain ⟨h1, h2, h3, -⟩ := row_facts c hc
  have h1' : (0 : ℝ) < c.c1 := by exact_mod_cast h1
  have h2' : (0 : ℝ) < c.c2 := by exact_mod_cast h2
  have h3' : (0 : ℝ) < c.c3 := by exact_mod_cast h3
  simp only [path, fsimp]
  have a1 : min r 10 ≤ min r' 10 := min_le_min_right _ h.le
  have a2 : max (min r 50 - 10) 0 ≤ max (min r' 50 - 10) 0 :=
    max_le_max (sub_le_sub_right (min_le_min_right _ h.le) _) le_rfl
  have a3 : max (r - 50) 0 ≤ max (r' - 50) 0 := max_le_max (by linarith) le_rfl
  have m1 := mul_le_mul_of_nonneg_left a1 h1'.le
  have m2 := mul_le_mul_of_nonneg_left a2 h2'.le
  have m3 := mul_le_mul_of_nonneg_left a3 h3'.le
  rcases lt_or_ge r 10 with hr | hr
  · have : min r 10 < min r' 10 := by
      rw [min_eq_left hr.le]; exact lt_min h hr
    have := mul_lt_mul_of_pos_left this h1'
    linarith
  · rcases lt_or_ge r 50 with hr5 | hr5
    · have : max (min r 50 - 10) 0 < max (min r' 50 - 10) 0 := by
        have : r < min r' 50 := lt_min h hr5
        rw [min_eq_left hr5.le, max_eq_left (by linarith), max_eq_left (by linarith)]
        linarith
      have := mul_lt_mul_of_pos_left this h2'
      linarith
    · have : max (r - 50) 0 < max (r' - 50) 0 := by
        rw [max_eq_left (by linarith), max_eq_left (by linarith)]; linarith
      have := mul_lt_mul_of_pos_left this h3'
      linarith

theorem site_ok {c : Row} (hc : c ∈ table) {v : ℝ} (hv : 0 < v) (z : Option ℝ) (j : Bool) :
    (site c (F.ofReal v) (z.map F.ofReal) j).ok := by
  obtain ⟨-, -, -, h4, -⟩ := row_facts c hc
  have h4' : (0 : ℝ) < c.vRef := by exact_mod_cast h4
  have hm : 0 < min v 600 / c.vRef := div_pos (lt_min hv (by norm_num)) h4'
  have e2 : 0 < (v ^ 2 + 412.39 ^ 2) / (1360 ^ 2 + 412.39 ^ 2 : ℝ) := by positivity
  have e4 : 0 < (v ^ 4 + 570.94 ^ 4) / (1360 ^ 4 + 570.94 ^ 4 : ℝ) := by positivity
  have n2 : (1360 ^ 2 + 412.39 ^ 2 : ℝ) ≠ 0 := by positivity
  have n4 : (1360 ^ 4 + 570.94 ^ 4 : ℝ) ≠ 0 := by positivity
  cases z <;> cases j <;> simp only [site, calcDepth10, Option.map_none, Option.map_some, fsimp,
    Bool.false_eq_true] <;> (repeat' apply And.intro) <;>
    first
      | exact hm
      | exact h4'.ne'
      | exact e2
      | exact e4
      | exact n2
      | exact n4
      | (split <;> norm_num <;> positivity)
      | norm_num

theorem lnDur_ok {c : Row} (hc : c ∈ table) (mech : Mech) (m : ℝ) {r v : ℝ} (hr : 0 ≤ r)
    (hv : 0 < v) (z : Option ℝ) (j : Bool) :
    (lnDur c mech (F.ofReal m) (F.ofReal r) (F.ofReal v) (z.map F.ofReal) j).ok := by
  obtain ⟨h1, h2⟩ := source_ok_pos hc mech m
  have h3 := path_nonneg hc hr
  simp only [lnDur, F.ok_add, F.ok_log, F.val_add]
  exact ⟨⟨⟨h1, path_ok c r⟩, by linarith⟩, site_ok hc hv z j⟩

/-- the two clipped magnitudes -/
theorem stdErr_val (c : Row) (m : ℝ) : (stdErr c (F.ofReal m)).val =
    Real.sqrt ((c.tau1 + (c.tau2 - c.tau1) * (min (max m 6.5) 7 - 6.5) / (7 - 6.5)) ^ 2 +
      (c.phi1 + (c.phi2 - c.phi1) * (min (max m 5.5) 5.75 - 5.5) / (5.75 - 5.5)) ^ 2) := by
  simp only [stdErr, fsimp]

theorem stdErr_ok (c : Row) (m : ℝ) : (stdErr c (F.ofReal m)).ok := by
  simp only [stdErr, fsimp]
  refine ⟨⟨by norm_num, by norm_num⟩, by positivity⟩

/-- a ramp from `a` down to `b` -/
theorem ramp {a b lo hi m m' : ℝ} (hl : lo < hi) (hab : b ≤ a) (h : m ≤ m') :
    a + (b - a) * (min (max m' lo) hi - lo) / (hi - lo)
      ≤ a + (b - a) * (min (max m lo) hi - lo) / (hi - lo) ∧
    b ≤ a + (b - a) * (min (max m lo) hi - lo) / (hi - lo) ∧
    a + (b - a) * (min (max m lo) hi - lo) / (hi - lo) ≤ a := by
  have hd : 0 < hi - lo := sub_pos.2 hl
  have e1 : min (max m lo) hi ≤ min (max m' lo) hi := min_le_min_right _ (max_le_max h le_rfl)
  have e2 : lo ≤ min (max m lo) hi := le_min (le_max_right _ _) hl.le
  have e3 : min (max m lo) hi ≤ hi := min_le_right _ _
  refine ⟨?_, ?_, ?_⟩
  · have : (b - a) * (min (max m' lo) hi - lo) ≤ (b - a) * (min (max m lo) hi - lo) :=
      mul_le_mul_of_nonpos_left (by linarith) (by linarith)
    have := div_le_div_of_nonneg_right this hd.le
    linarith
  · rw [← sub_le_iff_le_add', le_div_iff₀ hd]
    nlinarith
  · have : (b - a) * (min (max m lo) hi - lo) / (hi - lo) ≤ 0 :=
      div_nonpos_of_nonpos_of_nonneg (by nlinarith) hd.le
    linarith

end AS16

/-- AfshariStewart2016: for every magnitude, every distance from 0 km, every positive v_s30,
with or without depth_1_0 and whatever the mechanism, the three durations are defined and
positive and the three standard deviations are defined. -/
theorem C33_defined (s : Scenario) (m r v : ℝ) (z : Option ℝ) (mech : String) (hr : 0 ≤ r)
    (hv : 0 < v) (hsm : s.get "mag" = .num m) (hsr : s.get "dist_rup" = .num r)
    (hsv : s.get "v_s30" = .num v) (hsz : s.get "depth_1_0" = Val.ofOpt z)
    (hst : s.get "mechanism" = .str mech) :
    ∃ o, Gives AS16.cls s o ∧ o.duration.length = 3 ∧ (∀ d ∈ o.duration, d.ok ∧ 0 < d.val) ∧
      o.stdErr.length = 3 ∧ ∀ e ∈ o.stdErr, e.ok := by
  refine ⟨_, AS16.gives s hsm hsr hsv hsz hst, rfl, ?_, rfl, ?_⟩
  · intro d hd
    simp only [DurOut.duration, AS16.out, List.map_map, List.mem_map] at hd
    obtain ⟨c, hc, rfl⟩ := hd
    simp only [Function.comp, F.ok_exp, F.val_exp]
    exact ⟨AS16.lnDur_ok hc _ _ hr hv _ _, Real.exp_pos _⟩
  · intro e he
    simp only [AS16.out, List.mem_map] at he
    obtain ⟨c, hc, rfl⟩ := he
    exact AS16.stdErr_ok c m

/-- The durations strictly increase with distance. -/
theorem C33_distance (s t : Scenario) (m r r' v : ℝ) (z : Option ℝ) (mech : String) (hr : 0 ≤ r)
    (hrr : r < r') (hv : 0 < v)
    (hsm : s.get "mag" = .num m) (hsr : s.get "dist_rup" = .num r)
    (hsv : s.get "v_s30" = .num v) (hsz : s.get "depth_1_0" = Val.ofOpt z)
    (hst : s.get "mechanism" = .str mech)
    (htm : t.get "mag" = .num m) (htr : t.get "dist_rup" = .num r')
    (htv : t.get "v_s30" = .num v) (htz : t.get "depth_1_0" = Val.ofOpt z)
    (htt : t.get "mechanism" = .str mech) :
    ∃ o p, Gives AS16.cls s o ∧ Gives AS16.cls t p ∧ o.duration.length = 3 ∧
      List.Forall₂ F.Drops p.duration o.duration := by
  refine ⟨_, _, AS16.gives s hsm hsr hsv hsz hst, AS16.gives t htm htr htv htz htt, rfl, ?_⟩
  simp only [DurOut.duration, AS16.out, List.map_map]
  refine forall₂_map fun c hc => ?_
  refine ⟨?_, ?_, ?_⟩
  · exact AS16.lnDur_ok hc _ _ (hr.trans hrr.le) hv _ _
  · exact AS16.lnDur_ok hc _ _ hr hv _ _
  · simp only [Function.comp, F.val_exp, Real.exp_lt_exp, AS16.lnDur, F.val_add, F.val_log]
    rw [add_lt_add_iff_right]
    have h1 := (AS16.source_ok_pos hc (AS16.mechFor mech) m).2
    have h2 := AS16.path_nonneg hc hr
    have h3 := AS16.path_mono hc hrr
    exact Real.log_lt_log (by linarith) (by linarith)

/-- The standard deviation does not increase with magnitude. -/
theorem C33_std_magnitude (s t : Scenario) (m m' r r' v v' : ℝ) (z z' : Option ℝ)
    (mech mech' : String) (hmm : m ≤ m')
    (hsm : s.get "mag" = .num m) (hsr : s.get "dist_rup" = .num r)
    (hsv : s.get "v_s30" = .num v) (hsz : s.get "depth_1_0" = Val.ofOpt z)
    (hst : s.get "mechanism" = .str mech)
    (htm : t.get "mag" = .num m') (htr : t.get "dist_rup" = .num r')
    (htv : t.get "v_s30" = .num v') (htz : t.get "depth_1_0" = Val.ofOpt z')
    (htt : t.get "mechanism" = .str mech') :
    ∃ o p, Gives AS16.cls s o ∧ Gives AS16.cls t p ∧ o.stdErr.length = 3 ∧
      List.Forall₂ F.NotAbove o.stdErr p.stdErr := by
  refine ⟨_, _, AS16.gives s hsm hsr hsv hsz hst, AS16.gives t htm htr htv htz htt, rfl, ?_⟩
  simp only [AS16.out]
  refine forall₂_map fun c hc => ⟨AS16.stdErr_ok c m, AS16.stdErr_ok c m', ?_⟩
  obtain ⟨-, -, -, -, h5, h6, h7, h8, -⟩ := AS16.row_facts c hc
  have h5' : (c.tau2 : ℝ) ≤ c.tau1 := by exact_mod_cast h5
  have h6' : (c.phi2 : ℝ) ≤ c.phi1 := by exact_mod_cast h6
  have h7' : (0 : ℝ) < c.tau2 := by exact_mod_cast h7
  have h8' : (0 : ℝ) < c.phi2 := by exact_mod_cast h8
  rw [AS16.stdErr_val, AS16.stdErr_val]
  obtain ⟨a1, -, -⟩ := AS16.ramp (lo := 6.5) (hi := 7) (by norm_num) h5' hmm
  obtain ⟨b1, -, -⟩ := AS16.ramp (lo := 5.5) (hi := 5.75) (by norm_num) h6' hmm
  obtain ⟨-, a2, -⟩ := AS16.ramp (lo := 6.5) (hi := 7) (by norm_num) h5' (le_refl m')
  obtain ⟨-, b2, -⟩ := AS16.ramp (lo := 5.5) (hi := 5.75) (by norm_num) h6' (le_refl m')
  apply Real.sqrt_le_sqrt
  apply add_le_add <;> apply pow_le_pow_left₀ <;> linarith

/-- The standard deviations (D5-75, D5-95, D20-80) lie between the combinations of the
smallest and of the largest tabulated tau and phi; the largest is reached for M ≤ 5.5, the
smallest for M ≥ 7. -/
theorem C33_std_range (s : Scenario) (m r v : ℝ) (z : Option ℝ) (mech : String)
    (hsm : s.get "mag" = .num m) (hsr : s.get "dist_rup" = .num r)
    (hsv : s.get "v_s30" = .num v) (hsz : s.get "depth_1_0" = Val.ofOpt z)
    (hst : s.get "mechanism" = .str mech) :
    ∃ o, Gives AS16.cls s o ∧
      List.Forall₂ (fun y (b : ℝ × ℝ) => y.ok ∧ b.1 ≤ y.val ∧ y.val ≤ b.2 ∧
          (7 ≤ m → y.val = b.1) ∧ (m ≤ 5.5 → y.val = b.2)) o.stdErr
        [(√(0.25 ^ 2 + 0.41 ^ 2), √(0.28 ^ 2 + 0.54 ^ 2)),
         (√(0.19 ^ 2 + 0.35 ^ 2), √(0.25 ^ 2 + 0.43 ^ 2)),
         (√(0.19 ^ 2 + 0.45 ^ 2), √(0.30 ^ 2 + 0.56 ^ 2))] := by
  refine ⟨_, AS16.gives s hsm hsr hsv hsz hst, ?_⟩
  have key : ∀ c ∈ AS16.table, ∀ b : ℝ × ℝ,
      b = (√((c.tau2 : ℝ) ^ 2 + c.phi2 ^ 2), √((c.tau1 : ℝ) ^ 2 + c.phi1 ^ 2)) →
      (AS16.stdErr c (F.ofReal m)).ok ∧ b.1 ≤ (AS16.stdErr c (F.ofReal m)).val ∧
      (AS16.stdErr c (F.ofReal m)).val ≤ b.2 ∧ (7 ≤ m → (AS16.stdErr c (F.ofReal m)).val = b.1) ∧
      (m ≤ 5.5 → (AS16.stdErr c (F.ofReal m)).val = b.2) := by
    rintro c hc _ rfl
    refine ⟨AS16.stdErr_ok c m, ?_⟩
    obtain ⟨-, -, -, -, h5, h6, h7, h8, -⟩ := AS16.row_facts c hc
    have h5' : (c.tau2 : ℝ) ≤ c.tau1 := by exact_mod_cast h5
    have h6' : (c.phi2 : ℝ) ≤ c.phi1 := by exact_mod_cast h6
    have h7' : (0 : ℝ) < c.tau2 := by exact_mod_cast h7
    have h8' : (0 : ℝ) < c.phi2 := by exact_mod_cast h8
    rw [AS16.stdErr_val]
    obtain ⟨-, a2, a3⟩ := AS16.ramp (lo := 6.5) (hi := 7) (by norm_num) h5' (le_refl m)
    obtain ⟨-, b2, b3⟩ := AS16.ramp (lo := 5.5) (hi := 5.75) (by norm_num) h6' (le_refl m)
    refine ⟨?_, ?_, ?_, ?_⟩
    · apply Real.sqrt_le_sqrt
      apply add_le_add <;> apply pow_le_pow_left₀ <;> linarith
    · apply Real.sqrt_le_sqrt
      apply add_le_add <;> apply pow_le_pow_left₀ <;> linarith
    · intro hm
      rw [max_eq_left (by norm_num at *; linarith), max_eq_left (by norm_num at *; linarith),
        min_eq_right (by norm_num at *; linarith), min_eq_right (by norm_num at *; linarith)]
      congr 2 <;> norm_num
    · intro hm
      rw [max_eq_right (by norm_num at *; linarith), max_eq_right (by norm_num at *; linarith),
        min_eq_left (by norm_num), min_eq_left (by norm_num)]
      congr 2 <;> norm_num
  simp only [AS16.out, AS16.table, List.map_cons, List.map_nil]
  refine List.Forall₂.cons (key _ (by simp [AS16.table]) _ ?_)
    (List.Forall₂.cons (key _ (by simp [AS16.table]) _ ?_)
      (List.Forall₂.cons (key _ (by simp [AS16.table]) _ ?_) List.Forall₂.nil)) <;>
  · push_cast; rfl

/-- specification: the California/global median of depth_1_0 (km) for a v_s30 (m/s) -/
noncomputable def Spec.globalDepth10 (v : ℝ) : ℝ :=
  Real.exp (-7.15 / 4 * Real.log ((v ^ 4 + 570.94 ^ 4) / (1360 ^ 4 + 570.94 ^ 4))) / 1000

/-- With depth_1_0 given, the log durations (D5-75, D5-95, D20-80) differ from those without
by exactly `c5 * min (depth - global median, 200)`, where the global median is used whatever
the mechanism string (even "japan") and the cap of 200 applies to a difference in km. -/
theorem C20_basin_term (s t : Scenario) (m r v z : ℝ) (mech : String)
    (hsm : s.get "mag" = .num m) (hsr : s.get "dist_rup" = .num r)
    (hsv : s.get "v_s30" = .num v) (hsz : s.get "depth_1_0" = .none)
    (hst : s.get "mechanism" = .str mech)
    (htm : t.get "mag" = .num m) (htr : t.get "dist_rup" = .num r)
    (htv : t.get "v_s30" = .num v) (htz : t.get "depth_1_0" = .num z)
    (htt : t.get "mechanism" = .str mech) :
    ∃ o p, Gives AS16.cls s o ∧ Gives AS16.cls t p ∧ o.lnDur.length = 3 ∧ p.lnDur.length = 3 ∧
      ∀ i c5, [0.0006, 0.0006, 0.0005][i]? = some c5 →
        (p.lnDur.getD i 0).val - (o.lnDur.getD i 0).val =
          c5 * min (z - Spec.globalDepth10 v) 200 := by
  refine ⟨_, _, AS16.gives s (z := none) hsm hsr hsv hsz hst,
    AS16.gives t (z := some z) htm htr htv htz htt, rfl, rfl, ?_⟩
  have key : ∀ c : AS16.Row,
      (AS16.lnDur c (AS16.mechFor mech) (F.ofReal m) (F.ofReal r) (F.ofReal v)
        ((some z).map F.ofReal) false).val -
      (AS16.lnDur c (AS16.mechFor mech) (F.ofReal m) (F.ofReal r) (F.ofReal v)
        (Option.map F.ofReal none) false).val =
      c.c5 * min (z - Spec.globalDepth10 v) 200 := by
    intro c
    simp only [AS16.lnDur, AS16.site, AS16.calcDepth10, Option.map_some, Option.map_none, fsimp,
      Bool.false_eq_true]
    have : (if z - Spec.globalDepth10 v ≤ 200 then z - Spec.globalDepth10 v else 200) =
        min (z - Spec.globalDepth10 v) 200 := by
      rcases le_total (z - Spec.globalDepth10 v) 200 with h | h
      · rw [min_eq_left h, if_pos h]
      · rcases eq_or_lt_of_le h with h' | h'
        · rw [← h']; simp
        · rw [min_eq_right h, if_neg (not_le.2 h')]
    unfold Spec.globalDepth10 at this ⊢
    rw [this]
    ring
  intro i c5 hi
  match i, hi with
  | 0, hi => rw [List.getElem?_cons_zero] at hi; cases hi; have := key AS16.table[0]; push_cast at this ⊢; exact this.trans (by simp [AS16.table])
  | 1, hi => simp at hi; subst hi; have := key AS16.table[1]; exact this.trans (by simp [AS16.table])
  | 2, hi => simp at hi; subst hi; have := key AS16.table[2]; exact this.trans (by simp [AS16.table])
  | (n + 3), hi => simp at hi

/-- The region of the scenario plays no role at all, and a mechanism called "japan" is
treated like any other unknown mechanism. -/
theorem C20_japan_unused (s t : Scenario) (m r v : ℝ) (z : Option ℝ) (mech : String)
    (hsm : s.get "mag" = .num m) (hsr : s.get "dist_rup" = .num r)
    (hsv : s.get "v_s30" = .num v) (hsz : s.get "depth_1_0" = Val.ofOpt z)
    (hst : s.get "mechanism" = .str "japan")
    (htm : t.get "mag" = .num m) (htr : t.get "dist_rup" = .num r)
    (htv : t.get "v_s30" = .num v) (htz : t.get "depth_1_0" = Val.ofOpt z)
    (htt : t.get "mechanism" = .str mech) (hmech : mech ∉ ["SS", "NS", "RS"]) :
    ∃ o, Gives AS16.cls s o ∧ Gives AS16.cls t o := by
  refine ⟨_, AS16.gives s hsm hsr hsv hsz hst, ?_⟩
  have := AS16.gives t htm htr htv htz htt
  simp only [List.mem_cons, List.not_mem_nil, or_false, not_or] at hmech
  have e : AS16.mechFor mech = AS16.mechFor "japan" := by
    simp [AS16.mechFor, hmech]
  rw [e] at this
  exact this

example : ∃ o p, Gives AS16.cls ⟨[("mag", .num 6), ("dist_rup", .num 30), ("v_s30", .num 500),
      ("mechanism", .str "SS")], []⟩ o ∧
    Gives AS16.cls ⟨[("mag", .num 6), ("dist_rup", .num 40), ("v_s30", .num 500),
      ("mechanism", .str "SS")], []⟩ p ∧
    o.duration.length = 3 ∧ List.Forall₂ F.Drops p.duration o.duration :=
  C33_distance _ _ 6 30 40 500 none "SS" (by norm_num) (by norm_num) (by norm_num)
    (by simp [Scenario.get, Dict.get?]) (by simp [Scenario.get, Dict.get?])
    (by simp [Scenario.get, Dict.get?]) (by simp [Scenario.get, Dict.get?, Val.ofOpt])
    (by simp [Scenario.get, Dict.get?]) (by simp [Scenario.get, Dict.get?])
    (by simp [Scenario.get, Dict.get?]) (by simp [Scenario.get, Dict.get?])
    (by simp [Scenario.get, Dict.get?, Val.ofOpt]) (by simp [Scenario.get, Dict.get?])
