import Verif.Props.CB14

/-!
# C92: Campbell & Bozorgnia (2014) and magnitude

Off the hanging wall and with a given hypocentral depth, the prediction before the site term is
piecewise linear in magnitude, with hinges at 4.5, 5.5 and 6.5.
-/

open Bounds

set_option linter.unusedSimpArgs false

namespace CB14

/-- coefficient of the style-of-faulting term -/
def flt (c : Row) : Mech → ℚ
  | .rs => c.c_8
  | .ns => c.c_9
  | .other => 0

/-- the terms that depend on magnitude; `L` is the log of the effective distance, `H` the capped
hypocentral depth below 7 km -/
noncomputable def magR (c : Row) (L H dip : ℝ) (mech : Mech) (m : ℝ) : ℝ :=
  c.c_1 * m + c.c_2 * max (m - 4.5) 0 + c.c_3 * max (m - 5.5) 0 + c.c_4 * max (m - 6.5) 0 +
    c.c_6 * m * L + flt c mech * min (max (m - 4.5) 0) 1 +
    H * ((c.c_18 - c.c_17) * min (max (m - 5.5) 0) 1) + c.c_19 * dip * min (max (5.5 - m) 0) 1

/-- log of the effective distance -/
noncomputable def effL (c : Row) (r : ℝ) : ℝ := Real.log (Real.sqrt (r ^ 2 + (c.c_7 : ℝ) ^ 2))

/-- hypocentral depth below 7 km, at most 13 km -/
noncomputable def capH (h : ℝ) : ℝ := min (max (h - 7) 0) 13

theorem fMag_max (c : Row) (m : ℝ) : (fMag c (F.ofReal m)).val =
    c.c_0 + c.c_1 * m + c.c_2 * max (m - 4.5) 0 + c.c_3 * max (m - 5.5) 0 + c.c_4 * max (m - 6.5) 0 := by
  simp only [fMag, fsimp]
  split_ifs with h1 h2 h3
  · rw [max_eq_left (by linarith), max_eq_left (by linarith), max_eq_left (by linarith)]; ring
  · rw [max_eq_left (by linarith), max_eq_left (by linarith), max_eq_right (by linarith)]; ring
  · rw [max_eq_left (by linarith), max_eq_right (by linarith), max_eq_right (by linarith)]; ring
  · rw [max_eq_right (by linarith), max_eq_right (by linarith), max_eq_right (by linarith)]; ring

theorem rest_mag (c : Row) (g : Given) (hx : g.x < 0) {h : ℝ} (hh : g.hyp = some h) (mech : Mech)
    (reg : Reg) (m' : ℝ) :
    (rest c ({ g with mag := m' }.toIn mech reg)).val - (rest c (g.toIn mech reg)).val =
      magR c (effL c g.rup) (capH h) g.dip mech m' - magR c (effL c g.rup) (capH h) g.dip mech g.mag := by
  have key : ∀ m, (rest c ({ g with mag := m }.toIn mech reg)).val =
      magR c (effL c g.rup) (capH h) g.dip mech m +
        (c.c_0 + c.c_5 * effL c g.rup + capH h * c.c_17 + (fAtn c (F.ofReal g.rup) reg).val) := by
    intro m
    have e1 : (fHng c ({ g with mag := m }.toIn mech reg)).val = 0 := by
      simp only [fHng, fHngRx, Given.toIn, fsimp, hx, if_true]; ring
    have e2 : ({ g with mag := m } : Given).effHyp mech = F.ofReal h := by
      simp only [Given.effHyp, hh, F.orEst_some]
    have e3 : (fFlt c (F.ofReal m) mech).val = flt c mech * min (max (m - 4.5) 0) 1 := by
      cases mech <;> simp [fFlt, flt]
    have e4 : (fHyp c (F.ofReal m) (F.ofReal h)).val =
        capH h * (c.c_17 + (c.c_18 - c.c_17) * min (max (m - 5.5) 0) 1) := by
      simp only [fHyp, fsimp, capH]
    have e5 : (fDip c (F.ofReal m) (F.ofReal g.dip)).val =
        c.c_19 * g.dip * min (max (5.5 - m) 0) 1 := by
      simp only [fDip, fsimp]
    have e6 : (fDis c (F.ofReal m) (F.ofReal g.rup)).val = (c.c_5 + c.c_6 * m) * effL c g.rup := by
      simp only [fDis, fsimp, effL]
    simp only [rest, F.val_add, e1]
    simp only [Given.toIn, e2, fMag_max, e3, e4, e5, e6, magR]
    ring
  have k1 := key m'
  have k2 := key g.mag
  rw [k1]
  have : ({ g with mag := g.mag } : Given) = g := rfl
  rw [this] at k2
  rw [k2]; ring

/-- slopes of the four pieces of a row minus `q` times those of PGA, when the two log distances
contribute `X` -/
structure Slopes (c P : Row) (q X H dip : ℝ) (mech : Mech) : Prop where
  s0 : 0 < (c.c_1 - q * P.c_1) + X
  s1 : 0 < (c.c_1 - q * P.c_1) + (c.c_2 - q * P.c_2) + X + (flt c mech - q * flt P mech)
    - (c.c_19 - q * P.c_19) * dip
  s2 : 0 < (c.c_1 - q * P.c_1) + (c.c_2 - q * P.c_2) + (c.c_3 - q * P.c_3) + X +
    H * ((c.c_18 - c.c_17) - q * (P.c_18 - P.c_17))
  s3 : 0 < (c.c_1 - q * P.c_1) + (c.c_2 - q * P.c_2) + (c.c_3 - q * P.c_3) + (c.c_4 - q * P.c_4) + X

theorem mag_mono {c P : Row} {q L LP H dip : ℝ} {mech : Mech}
    (s : Slopes c P q (c.c_6 * L - q * (P.c_6 * LP)) H dip mech) :
    StrictMono fun m => magR c L H dip mech m - q * magR P LP H dip mech m := by
  obtain ⟨s0, s1, s2, s3⟩ := s
  set f := fun m => magR c L H dip mech m - q * magR P LP H dip mech m with hf
  have p0 : StrictMonoOn f (Set.Iic 4.5) := by
    intro a ha b hb hab
    simp only [Set.mem_Iic] at ha hb
    simp only [hf, magR]
    rw [max_eq_right (a := a - 4.5) (by linarith), max_eq_right (a := a - 5.5) (by linarith),
      max_eq_right (a := a - 6.5) (by linarith), max_eq_right (a := b - 4.5) (by linarith),
      max_eq_right (a := b - 5.5) (by linarith), max_eq_right (a := b - 6.5) (by linarith),
      max_eq_left (a := 5.5 - a) (by linarith), max_eq_left (a := 5.5 - b) (by linarith),
      min_eq_right (a := 5.5 - a) (by linarith), min_eq_right (a := 5.5 - b) (by linarith)]
    have := mul_pos s0 (sub_pos.2 hab)
    norm_num
    linarith
  have p1 : StrictMonoOn f (Set.Icc 4.5 5.5) := by
    rintro a ⟨ha, ha'⟩ b ⟨hb, hb'⟩ hab
    simp only [hf, magR]
    rw [max_eq_left (a := a - 4.5) (by linarith), max_eq_right (a := a - 5.5) (by linarith),
      max_eq_right (a := a - 6.5) (by linarith), max_eq_left (a := b - 4.5) (by linarith),
      max_eq_right (a := b - 5.5) (by linarith), max_eq_right (a := b - 6.5) (by linarith),
      max_eq_left (a := 5.5 - a) (by linarith), max_eq_left (a := 5.5 - b) (by linarith),
      min_eq_left (a := 5.5 - a) (by linarith), min_eq_left (a := 5.5 - b) (by linarith),
      min_eq_left (a := a - 4.5) (by linarith), min_eq_left (a := b - 4.5) (by linarith)]
    have := mul_pos s1 (sub_pos.2 hab)
    norm_num
    linarith
  have p2 : StrictMonoOn f (Set.Icc 5.5 6.5) := by
    rintro a ⟨ha, ha'⟩ b ⟨hb, hb'⟩ hab
    simp only [hf, magR]
    rw [max_eq_left (a := a - 4.5) (by linarith), max_eq_left (a := a - 5.5) (by linarith),
      max_eq_right (a := a - 6.5) (by linarith), max_eq_left (a := b - 4.5) (by linarith),
      max_eq_left (a := b - 5.5) (by linarith), max_eq_right (a := b - 6.5) (by linarith),
      max_eq_right (a := 5.5 - a) (by linarith), max_eq_right (a := 5.5 - b) (by linarith),
      min_eq_right (a := a - 4.5) (by linarith), min_eq_right (a := b - 4.5) (by linarith),
      min_eq_left (a := a - 5.5) (by linarith), min_eq_left (a := b - 5.5) (by linarith)]
    have := mul_pos s2 (sub_pos.2 hab)
    norm_num
    linarith
  have p3 : StrictMonoOn f (Set.Ici 6.5) := by
    intro a ha b hb hab
    simp only [Set.mem_Ici] at ha hb
    simp only [hf, magR]
    rw [max_eq_left (a := a - 4.5) (by linarith), max_eq_left (a := a - 5.5) (by linarith),
      max_eq_left (a := a - 6.5) (by linarith), max_eq_left (a := b - 4.5) (by linarith),
      max_eq_left (a := b - 5.5) (by linarith), max_eq_left (a := b - 6.5) (by linarith),
      max_eq_right (a := 5.5 - a) (by linarith), max_eq_right (a := 5.5 - b) (by linarith),
      min_eq_right (a := a - 4.5) (by linarith), min_eq_right (a := b - 4.5) (by linarith),
      min_eq_right (a := a - 5.5) (by linarith), min_eq_right (a := b - 5.5) (by linarith)]
    have := mul_pos s3 (sub_pos.2 hab)
    norm_num
    linarith
  have u1 := p0.union p1 isGreatest_Iic (isLeast_Icc (by norm_num))
  rw [Set.Iic_union_Icc_eq_Iic (by norm_num)] at u1
  have u2 := u1.union p2 isGreatest_Iic (isLeast_Icc (by norm_num))
  rw [Set.Iic_union_Icc_eq_Iic (by norm_num)] at u2
  have u3 := u2.union p3 isGreatest_Iic isLeast_Ici
  rw [Set.Iic_union_Ici] at u3
  exact strictMonoOn_univ.1 u3

/-- rational version of `Slopes` for all mechanisms, dips 0 to 90 and `H` from 0 to `h` -/
def slopesGood (c P : Row) (q X h : ℚ) : Prop :=
  0 < (c.c_1 - q * P.c_1) + X ∧
  (∀ mech ∈ [Mech.rs, .ns, .other], ∀ dip ∈ [(0 : ℚ), 90],
    0 < (c.c_1 - q * P.c_1) + (c.c_2 - q * P.c_2) + X + (flt c mech - q * flt P mech)
      - (c.c_19 - q * P.c_19) * dip) ∧
  (∀ H ∈ [(0 : ℚ), h], 0 < (c.c_1 - q * P.c_1) + (c.c_2 - q * P.c_2) + (c.c_3 - q * P.c_3) + X +
    H * ((c.c_18 - c.c_17) - q * (P.c_18 - P.c_17))) ∧
  0 < (c.c_1 - q * P.c_1) + (c.c_2 - q * P.c_2) + (c.c_3 - q * P.c_3) + (c.c_4 - q * P.c_4) + X
instance (c P : Row) (q X h : ℚ) : Decidable (slopesGood c P q X h) := by
  unfold slopesGood; infer_instance

theorem slopes_of {c P : Row} {q X h : ℚ} (g : slopesGood c P q X h) {X' H dip : ℝ}
    (hX : (X : ℝ) ≤ X') (hH : H ∈ Set.Icc (0 : ℝ) h) (hd : dip ∈ Set.Icc (0 : ℝ) 90) (mech : Mech) :
    Slopes c P q X' H dip mech := by
  obtain ⟨g0, g1, g2, g3⟩ := g
  constructor
  · have : ((0 : ℚ) : ℝ) < _ := Rat.cast_lt.2 g0
    push_cast at this; linarith
  · have hm : mech ∈ [Mech.rs, .ns, .other] := by cases mech <;> simp
    have a : ((0 : ℚ) : ℝ) < _ := Rat.cast_lt.2 (g1 mech hm 0 (by simp))
    have b : ((0 : ℚ) : ℝ) < _ := Rat.cast_lt.2 (g1 mech hm 90 (by simp))
    push_cast at a b
    have := linear_pos hd (p := (c.c_1 - q * P.c_1) + (c.c_2 - q * P.c_2) + X + (flt c mech - q * flt P mech))
      (q := -((c.c_19 : ℝ) - q * P.c_19)) (by linarith) (by linarith)
    linarith
  · have a : ((0 : ℚ) : ℝ) < _ := Rat.cast_lt.2 (g2 0 (by simp))
    have b : ((0 : ℚ) : ℝ) < _ := Rat.cast_lt.2 (g2 h (by simp))
    push_cast at a b
    have := linear_pos hH (p := (c.c_1 - q * P.c_1) + (c.c_2 - q * P.c_2) + (c.c_3 - q * P.c_3) + X)
      (q := ((c.c_18 : ℝ) - c.c_17) - q * (P.c_18 - P.c_17)) (by linarith) (by linarith)
    linarith
  · have : ((0 : ℚ) : ℝ) < _ := Rat.cast_lt.2 g3
    push_cast at this; linarith

/-- a lower bound of the log distance from `r0` km on -/
theorem effL_ge {c : Row} {q r0 : ℚ} (h0 : 0 ≤ q) (h4 : q ≤ 4) (hr0 : 0 ≤ r0) (h7 : 0 < c.c_7)
    (h : expHi (2 * q) ≤ r0 ^ 2 + c.c_7 ^ 2) {r : ℝ} (hr : (r0 : ℝ) ≤ r) : (q : ℝ) ≤ effL c r := by
  have h7' : (0 : ℝ) < c.c_7 := by exact_mod_cast h7
  have hr0' : (0 : ℝ) ≤ r0 := by exact_mod_cast hr0
  have h' : ((expHi (2 * q) : ℚ) : ℝ) ≤ (r0 : ℝ) ^ 2 + (c.c_7 : ℝ) ^ 2 := by exact_mod_cast h
  have hsq : (r0 : ℝ) ^ 2 ≤ r ^ 2 := by gcongr
  have := le_log_of (x := r ^ 2 + (c.c_7 : ℝ) ^ 2) (q := 2 * q) (by positivity) (by linarith)
    (by linarith) (by linarith)
  rw [effL, half_log h7']
  push_cast at this
  linarith

/-- lower bounds of the log distance at 1 km, in ten-thousandths -/
def at1 : List ℕ := [17248, 17470, 17716, 17786, 18515, 18556, 18837, 18930, 19031, 19208, 19217,
  19230, 19363, 19421, 19546, 19576, 19963, 20281, 20844, 20910, 21335, 21432, 21513]

theorem rock_good : ∀ c ∈ table, ∃ n ∈ at1, expHi (2 * ((n : ℚ) / 10000)) ≤ (1 : ℚ) ^ 2 + c.c_7 ^ 2 ∧
    slopesGood c c 0 (c.c_6 * ((n : ℚ) / 10000)) 6 := by decide +kernel

/-- lower bounds of the log distance at 5 km, in thousandths -/
def at5 : List ℕ := [2008, 2020, 2035, 2039, 2083, 2086, 2104, 2110, 2116, 2128, 2129, 2138, 2142,
  2151, 2153, 2179, 2201, 2242, 2247, 2278, 2285, 2291]

theorem soil_good : ∀ c ∈ table, 400 < c.k_1 →
    ∃ n ∈ [55, 56, 57, 59, 62, 68, 74, 79, 86, 92, 98], goodRow c n ∧
    ∃ l ∈ at5, expHi (2 * ((l : ℚ) / 1000)) ≤ (5 : ℚ) ^ 2 + c.c_7 ^ 2 ∧
    slopesGood c pgaRow (-c.k_2 * ((1 - (n : ℚ) / 100) / (1 + (n : ℚ) / 100)))
      (c.c_6 * ((l : ℚ) / 1000) -
        -c.k_2 * ((1 - (n : ℚ) / 100) / (1 + (n : ℚ) / 100)) * (pgaRow.c_6 * 2.13)) 6 := by
  decide +kernel

theorem row_slopes {c : Row} (hc : c ∈ table) {r H dip : ℝ} (hr : 1 ≤ r) (hH : H ∈ Set.Icc (0 : ℝ) 6)
    (hd : dip ∈ Set.Icc (0 : ℝ) 90) (mech : Mech) : StrictMono (magR c (effL c r) H dip mech) := by
  obtain ⟨n, hn, h1, h2⟩ := rock_good c hc
  obtain ⟨-, -, h7, -, -, -, -, -, -, h6, -⟩ := row_facts c hc
  have h6' : (0 : ℝ) ≤ c.c_6 := by exact_mod_cast h6.le
  have hn' : n ≤ 30000 := by
    have : ∀ n ∈ at1, n ≤ 30000 := by decide
    exact this n hn
  have h4 : (n : ℚ) / 10000 ≤ 4 := by
    rw [div_le_iff₀ (by norm_num)]
    have : (n : ℚ) ≤ 30000 := by exact_mod_cast hn'
    linarith
  have hL := effL_ge (q := (n : ℚ) / 10000) (by positivity) h4 (by norm_num) h7 h1 (r := r)
    (by exact_mod_cast hr)
  have s := slopes_of h2 (X' := c.c_6 * effL c r - ((0 : ℚ) : ℝ) * (c.c_6 * effL c r)) (H := H)
    (dip := dip) (by
      rw [Rat.cast_mul]
      have := mul_le_mul_of_nonneg_left hL h6'
      rw [Rat.cast_zero]; linarith) (by exact_mod_cast hH) hd mech
  have := mag_mono s
  simpa using this

/-- 5 km and more: the row against the amplified reference PGA -/
theorem soil_slopes {c : Row} (hc : c ∈ table) (hk : 400 < c.k_1) {r H dip : ℝ} (hr : 5 ≤ r)
    (hH : H ∈ Set.Icc (0 : ℝ) 6) (hd : dip ∈ Set.Icc (0 : ℝ) 90) (mech : Mech) :
    ∃ n : ℕ, n ≤ 100 ∧ ((n : ℝ) / 100) ^ 100 ≤ (400 / (c.k_1 : ℝ)) ^ 59 ∧
    StrictMono fun m => magR c (effL c r) H dip mech m -
      -(c.k_2 : ℝ) * ((1 - (n / 100 : ℝ)) / (1 + (n / 100 : ℝ))) *
        magR pgaRow (effL pgaRow r) H dip mech m := by
  obtain ⟨n, hn, hg, l, hl, h1, h2⟩ := soil_good c hc hk
  obtain ⟨-, -, h7, -, -, -, -, -, -, h6, -, -, -, hk2⟩ := row_facts c hc
  obtain ⟨-, -, h7p, -⟩ := row_facts _ pgaRow_mem
  have hn1 : n ≤ 100 := by
    simp only [List.mem_cons, List.not_mem_nil, or_false] at hn
    omega
  have hs : ((n : ℝ) / 100) ^ 100 ≤ (400 / (c.k_1 : ℝ)) ^ 59 := by
    have : (((n : ℚ) / 100 : ℚ) : ℝ) ^ 100 ≤ ((400 / c.k_1 : ℚ) : ℝ) ^ 59 := by exact_mod_cast hg.1
    push_cast at this; exact this
  refine ⟨n, hn1, hs, ?_⟩
  obtain ⟨-, g6, -⟩ := hg
  have h6' : (0 : ℝ) ≤ c.c_6 := by exact_mod_cast h6.le
  have h7' : (0 : ℝ) < c.c_7 := by exact_mod_cast h7
  have h7p' : (0 : ℝ) < pgaRow.c_7 := by exact_mod_cast h7p
  have hl' : l ≤ 3000 := by
    have : ∀ n ∈ at5, n ≤ 3000 := by decide
    exact this l hl
  have h4 : (l : ℚ) / 1000 ≤ 4 := by
    rw [div_le_iff₀ (by norm_num)]
    have : (l : ℚ) ≤ 3000 := by exact_mod_cast hl'
    linarith
  have hL := effL_ge (q := (l : ℚ) / 1000) (by positivity) h4 (by norm_num) h7 h1 (r := 5)
    (by norm_num)
  have hLP : effL pgaRow 5 ≤ 2.13 := by
    rw [effL, half_log h7p']
    have q : (5 : ℚ) ^ 2 + pgaRow.c_7 ^ 2 ≤ expLo 4.26 := by decide +kernel
    have := log_le_of (x := 5 ^ 2 + (pgaRow.c_7 : ℝ) ^ 2) (q := 4.26) (by positivity) (by norm_num)
      (by exact_mod_cast q)
    have e : ((4.26 : ℚ) : ℝ) = 4.26 := by norm_num
    rw [e] at this
    rw [div_le_iff₀ (by norm_num)]
    exact this.trans (by norm_num)
  set q : ℚ := -c.k_2 * ((1 - (n : ℚ) / 100) / (1 + (n : ℚ) / 100)) with hq
  have hs1 : (n : ℚ) / 100 ≤ 1 := by
    rw [div_le_one (by norm_num)]
    exact_mod_cast hn1
  have hq0 : 0 ≤ q := by
    rw [hq]
    exact mul_nonneg (by linarith) (div_nonneg (by linarith) (by positivity))
  have eq1 : -(c.k_2 : ℝ) * ((1 - (n / 100 : ℝ)) / (1 + (n / 100 : ℝ))) = (q : ℝ) := by
    rw [hq]; push_cast; ring
  rw [eq1]
  clear_value q
  have hq0' : (0 : ℝ) ≤ q := by exact_mod_cast hq0
  have h6p : (0 : ℝ) ≤ pgaRow.c_6 := by
    obtain ⟨-, -, -, -, -, -, -, -, -, h6p, -⟩ := row_facts _ pgaRow_mem
    exact_mod_cast h6p.le
  have hl1 : ((min 1 (pgaRow.c_7 ^ 2 / c.c_7 ^ 2) : ℚ) : ℝ) ≤ 1 := by
    have : (min 1 (pgaRow.c_7 ^ 2 / c.c_7 ^ 2) : ℚ) ≤ 1 := min_le_left _ _
    exact_mod_cast this
  have hl2 : ((min 1 (pgaRow.c_7 ^ 2 / c.c_7 ^ 2) : ℚ) : ℝ) * (c.c_7 : ℝ) ^ 2 ≤ (pgaRow.c_7 : ℝ) ^ 2 := by
    have : (min 1 (pgaRow.c_7 ^ 2 / c.c_7 ^ 2) : ℚ) * c.c_7 ^ 2 ≤ pgaRow.c_7 ^ 2 := by
      have : (min 1 (pgaRow.c_7 ^ 2 / c.c_7 ^ 2) : ℚ) ≤ pgaRow.c_7 ^ 2 / c.c_7 ^ 2 := min_le_right _ _
      rwa [le_div_iff₀ (by positivity)] at this
    exact_mod_cast this
  have g6' : (q : ℝ) * pgaRow.c_6 ≤ c.c_6 * ((min 1 (pgaRow.c_7 ^ 2 / c.c_7 ^ 2) : ℚ) : ℝ) := by
    exact_mod_cast g6
  set lam : ℝ := ((min 1 (pgaRow.c_7 ^ 2 / c.c_7 ^ 2) : ℚ) : ℝ)
  clear_value lam
  have hlog := log_compare (t := 5 ^ 2) (t' := r ^ 2) (a := (c.c_7 : ℝ) ^ 2)
    (b := (pgaRow.c_7 : ℝ) ^ 2) (l := lam) (by positivity) (by gcongr) (by positivity)
    (by positivity) hl1 hl2
  have hcmp : lam * (effL pgaRow r - effL pgaRow 5) ≤ effL c r - effL c 5 := by
    simp only [effL, half_log h7', half_log h7p']
    generalize Real.log (r ^ 2 + (pgaRow.c_7 : ℝ) ^ 2) = A at *
    generalize Real.log (5 ^ 2 + (pgaRow.c_7 : ℝ) ^ 2) = B at *
    generalize Real.log (r ^ 2 + (c.c_7 : ℝ) ^ 2) = C at *
    generalize Real.log (5 ^ 2 + (c.c_7 : ℝ) ^ 2) = E at *
    linarith
  have hup : effL pgaRow 5 ≤ effL pgaRow r := by
    simp only [effL]
    apply Real.log_le_log (by positivity)
    apply Real.sqrt_le_sqrt
    gcongr
  refine mag_mono (slopes_of h2 ?_ (by exact_mod_cast hH) hd mech)
  have k1 := mul_le_mul_of_nonneg_left hcmp h6'
  have k2 := mul_le_mul_of_nonneg_right g6' (sub_nonneg.2 hup)
  have k3 := mul_le_mul_of_nonneg_left hL h6'
  have k4 := mul_le_mul_of_nonneg_left hLP (mul_nonneg hq0' h6p)
  push_cast
  push_cast at k3
  generalize effL c r = A at *
  generalize effL c 5 = B at *
  generalize effL pgaRow r = E at *
  generalize effL pgaRow 5 = G at *
  norm_num at k4 ⊢
  linarith

theorem capH_mem {h : ℝ} (hh : h ≤ 13) : capH h ∈ Set.Icc (0 : ℝ) 6 := by
  unfold capH
  refine ⟨le_min (le_max_right _ _) (by norm_num), (min_le_left _ _).trans (max_le (by linarith) (by norm_num))⟩

theorem Regular.given {g : Given} {mech : Mech} (hx : g.x < 0) (hd : 0 < g.dip ∧ g.dip ≤ 90) {h : ℝ}
    (hh : g.hyp = some h) : Regular g mech :=
  ⟨fun _ => ⟨hd.1, by linarith [hd.2]⟩, fun e => absurd hx (not_lt.2 e)⟩

end CB14

/-- Off the hanging wall (`dist_x < 0`), with the hypocentral depth given and at most 13 km, on rock
(`v_s30` at least 1100 m/s) and from 1 km on: all 23 ordinates strictly grow with magnitude, at any
magnitudes, for every mechanism, region and dip up to 90 degrees. -/
theorem C92_grows_rock (s s' : Scenario) (g : CB14.Given) (m' h : ℝ) (hs : CB14.Source s g)
    (hs' : CB14.Source s' { g with mag := m' }) (hm : s.get "mechanism" = s'.get "mechanism")
    (hr : s.get "region" = s'.get "region") (hx : g.x < 0) (hd : 0 < g.dip ∧ g.dip ≤ 90)
    (hh : g.hyp = some h) (h13 : h ≤ 13) (hv : 1100 ≤ g.v) (hr1 : 1 ≤ g.rup) (hmm : g.mag < m') :
    ∃ o o', Gives CB14.cls s o ∧ Gives CB14.cls s' o' ∧ o.gmm.lnResp.length = 23 ∧
      List.Forall₂ F.Drops o'.gmm.lnResp o.gmm.lnResp := by
  have hv0 : 0 < g.v := by linarith
  refine ⟨_, _, CB14.gives hs hv0.ne', CB14.gives hs' hv0.ne', by simp [CB14.out, CB14.table_length], ?_⟩
  rw [← hm, ← hr]
  set mech := CB14.mechOf (s.get "mechanism")
  set reg := CB14.regOf (s.get "region")
  have hreg : CB14.Regular g mech := .given hx hd hh
  have hreg' : CB14.Regular { g with mag := m' } mech := .given hx hd hh
  simp only [CB14.out]
  refine forall₂_map fun c hc => ⟨CB14.resp_ok hc hreg' hv0 reg, CB14.resp_ok hc hreg hv0 reg, ?_⟩
  have e1 := CB14.resp_val c g mech reg
  have e2 := CB14.resp_val c { g with mag := m' } mech reg
  refine lt_of_eq_of_lt e1 (lt_of_lt_of_eq ?_ e2.symm)
  have d1 := CB14.rest_mag c g hx hh mech reg m'
  have k1 := CB14.row_slopes hc hr1 (CB14.capH_mem h13) ⟨hd.1.le, hd.2⟩ mech hmm
  have ez : { g with mag := m' }.effZ25 reg = g.effZ25 reg := rfl
  rw [ez]
  have hk : (c.k_1 : ℝ) < g.v := by
    have : (c.k_1 : ℝ) < 1100 := by exact_mod_cast (CB14.row_facts c hc).2.1
    linarith
  have hq : ∀ p, CB14.siteR c g.v p = CB14.siteR c g.v 1 := fun p => CB14.siteR_rock hk p 1
  simp only [CB14.surfR, hq]
  linarith

/-- The same on sites of at least 400 m/s, soil nonlinearity included, from 5 km on. -/
theorem C92_grows (s s' : Scenario) (g : CB14.Given) (m' h : ℝ) (hs : CB14.Source s g)
    (hs' : CB14.Source s' { g with mag := m' }) (hm : s.get "mechanism" = s'.get "mechanism")
    (hr : s.get "region" = s'.get "region") (hx : g.x < 0) (hd : 0 < g.dip ∧ g.dip ≤ 90)
    (hh : g.hyp = some h) (h13 : h ≤ 13) (hv : 400 ≤ g.v) (hr5 : 5 ≤ g.rup) (hmm : g.mag < m') :
    ∃ o o', Gives CB14.cls s o ∧ Gives CB14.cls s' o' ∧ o.gmm.lnResp.length = 23 ∧
      List.Forall₂ F.Drops o'.gmm.lnResp o.gmm.lnResp := by
  have hv0 : 0 < g.v := by linarith
  refine ⟨_, _, CB14.gives hs hv0.ne', CB14.gives hs' hv0.ne', by simp [CB14.out, CB14.table_length], ?_⟩
  rw [← hm, ← hr]
  set mech := CB14.mechOf (s.get "mechanism")
  set reg := CB14.regOf (s.get "region")
  have hreg : CB14.Regular g mech := .given hx hd hh
  have hreg' : CB14.Regular { g with mag := m' } mech := .given hx hd hh
  simp only [CB14.out]
  refine forall₂_map fun c hc => ⟨CB14.resp_ok hc hreg' hv0 reg, CB14.resp_ok hc hreg hv0 reg, ?_⟩
  have e1 := CB14.resp_val c g mech reg
  have e2 := CB14.resp_val c { g with mag := m' } mech reg
  refine lt_of_eq_of_lt e1 (lt_of_lt_of_eq ?_ e2.symm)
  have d1 := CB14.rest_mag c g hx hh mech reg m'
  have d2 := CB14.rest_mag CB14.pgaRow g hx hh mech reg m'
  have hH := CB14.capH_mem h13
  have hdip : g.dip ∈ Set.Icc (0 : ℝ) 90 := ⟨hd.1.le, hd.2⟩
  have k1 := CB14.row_slopes hc (by linarith) hH hdip mech hmm (r := g.rup)
  have k2 := CB14.row_slopes CB14.pgaRow_mem (by linarith) hH hdip mech hmm (r := g.rup)
  rw [CB14.pgaRef_rest, CB14.pgaRef_rest]
  have ez : { g with mag := m' }.effZ25 reg = g.effZ25 reg := rfl
  rw [ez]
  have hk' : (0 : ℝ) < c.k_1 := by exact_mod_cast (CB14.row_facts c hc).1
  by_cases hk4 : 400 < c.k_1
  · obtain ⟨n, hn1, hsn, k3⟩ := CB14.soil_slopes hc hk4 hr5 hH hdip mech
    have k3 := k3 hmm
    simp only at k3
    refine CB14.surf_drop hc (s := (n : ℝ) / 100) (by norm_num) hv (by positivity) ?_ hsn ?_ _ ?_
    · rw [div_le_one (by norm_num)]; exact_mod_cast hn1
    · linarith
    · generalize (CB14.siteTerm CB14.pgaRow none 1100 0 (reg = .japan)).val = S at *
      generalize (CB14.rest CB14.pgaRow ({ g with mag := m' }.toIn mech reg)).val = A at *
      generalize (CB14.rest CB14.pgaRow (g.toIn mech reg)).val = B at *
      have d2' : A + S - (B + S) = _ := (add_sub_add_right_eq_sub A B S).trans d2
      rw [d2']
      linarith
  · have hk4' : (c.k_1 : ℝ) ≤ g.v := by
      have : (c.k_1 : ℝ) ≤ 400 := by exact_mod_cast not_lt.1 hk4
      linarith
    refine CB14.surf_drop hc (s := 1) (v0 := c.k_1) hk' hk4' (by norm_num) (by norm_num)
      (by rw [div_self hk'.ne']; norm_num) ?_ _ ?_
    · linarith
    · norm_num; linarith

/-- PGA (the ordinate of period 0) strictly grows with magnitude on any site of at least 150 m/s
from 1 km on. -/
theorem C92_grows_pga (s s' : Scenario) (g : CB14.Given) (m' h : ℝ) (hs : CB14.Source s g)
    (hs' : CB14.Source s' { g with mag := m' }) (hm : s.get "mechanism" = s'.get "mechanism")
    (hr : s.get "region" = s'.get "region") (hx : g.x < 0) (hd : 0 < g.dip ∧ g.dip ≤ 90)
    (hh : g.hyp = some h) (h13 : h ≤ 13) (hv : 150 ≤ g.v) (hr1 : 1 ≤ g.rup) (hmm : g.mag < m') :
    ∃ o o', Gives CB14.cls s o ∧ Gives CB14.cls s' o' ∧
      F.Drops (o'.gmm.lnResp.getD 21 F.nan) (o.gmm.lnResp.getD 21 F.nan) := by
  have hv0 : 0 < g.v := by linarith
  refine ⟨_, _, CB14.gives hs hv0.ne', CB14.gives hs' hv0.ne', ?_⟩
  rw [← hm, ← hr]
  set mech := CB14.mechOf (s.get "mechanism")
  set reg := CB14.regOf (s.get "region")
  have hreg : CB14.Regular g mech := .given hx hd hh
  have hreg' : CB14.Regular { g with mag := m' } mech := .given hx hd hh
  have hc := CB14.pgaRow_mem
  refine ⟨CB14.resp_ok hc hreg' hv0 reg, CB14.resp_ok hc hreg hv0 reg, ?_⟩
  have e1 := CB14.resp_val CB14.pgaRow g mech reg
  have e2 := CB14.resp_val CB14.pgaRow { g with mag := m' } mech reg
  refine lt_of_eq_of_lt e1 (lt_of_lt_of_eq ?_ e2.symm)
  have d2 := CB14.rest_mag CB14.pgaRow g hx hh mech reg m'
  have k2 := CB14.row_slopes hc hr1 (CB14.capH_mem h13) ⟨hd.1.le, hd.2⟩ mech hmm
  rw [CB14.pgaRef_rest, CB14.pgaRef_rest]
  have ez : { g with mag := m' }.effZ25 reg = g.effZ25 reg := rfl
  rw [ez]
  obtain ⟨p1, p2⟩ := CB14.pgaRow_facts
  refine CB14.surf_drop hc (s := 0.35) (by norm_num) hv (by norm_num) (by norm_num)
    (by rw [p1]; norm_num) (by linarith) _ ?_
  rw [p2]
  push_cast
  linarith

namespace CB14

theorem deep_slope {r dip : ℝ} (hr0 : 0 ≤ r) (hr : r ≤ 10) (mech : Mech) :
    StrictAntiOn (magR pgaRow (effL pgaRow r) 13 dip mech) (Set.Icc 5.5 6.5) := by
  obtain ⟨-, -, h7, -, -, -, -, -, -, h6, -⟩ := row_facts _ pgaRow_mem
  have h7' : (0 : ℝ) < pgaRow.c_7 := by exact_mod_cast h7
  have h6' : (0 : ℝ) < pgaRow.c_6 := by exact_mod_cast h6
  have hL : effL pgaRow r ≤ 2.5 := by
    rw [effL, half_log h7']
    have q : (10 : ℚ) ^ 2 + pgaRow.c_7 ^ 2 ≤ expLo 5 := by decide +kernel
    have h2 : r ^ 2 ≤ 10 ^ 2 := by gcongr
    have q' : (10 : ℝ) ^ 2 + (pgaRow.c_7 : ℝ) ^ 2 ≤ (expLo 5 : ℚ) := by exact_mod_cast q
    have := log_le_of (x := r ^ 2 + (pgaRow.c_7 : ℝ) ^ 2) (q := 5) (by positivity) (by norm_num)
      (by linarith)
    norm_num at this ⊢
    linarith
  have q : (pgaRow.c_1 + pgaRow.c_2 + pgaRow.c_3 + pgaRow.c_6 * 2.5 +
      13 * (pgaRow.c_18 - pgaRow.c_17) : ℚ) < 0 := by decide +kernel
  have q' : ((pgaRow.c_1 + pgaRow.c_2 + pgaRow.c_3 + pgaRow.c_6 * 2.5 +
      13 * (pgaRow.c_18 - pgaRow.c_17) : ℚ) : ℝ) < 0 := by exact_mod_cast q
  push_cast at q'
  have k := mul_le_mul_of_nonneg_left hL h6'.le
  rintro a ⟨ha, ha'⟩ b ⟨hb, hb'⟩ hab
  simp only [magR]
  rw [max_eq_left (a := a - 4.5) (by linarith), max_eq_left (a := a - 5.5) (by linarith),
    max_eq_right (a := a - 6.5) (by linarith), max_eq_left (a := b - 4.5) (by linarith),
    max_eq_left (a := b - 5.5) (by linarith), max_eq_right (a := b - 6.5) (by linarith),
    max_eq_right (a := 5.5 - a) (by linarith), max_eq_right (a := 5.5 - b) (by linarith),
    min_eq_right (a := a - 4.5) (by linarith), min_eq_right (a := b - 4.5) (by linarith),
    min_eq_left (a := a - 5.5) (by linarith), min_eq_left (a := b - 5.5) (by linarith)]
  have s2 : 0 < -((pgaRow.c_1 : ℝ) + pgaRow.c_2 + pgaRow.c_3 + pgaRow.c_6 * effL pgaRow r +
      13 * (pgaRow.c_18 - pgaRow.c_17)) := by linarith
  have := mul_pos s2 (sub_pos.2 hab)
  norm_num
  linarith

end CB14

/-- The depth limit is needed: for a hypocentre 20 km deep or more, PGA within 10 km strictly falls
as the magnitude goes from 5.5 to 6.5. -/
theorem C92_deep_falls (s s' : Scenario) (g : CB14.Given) (m' h : ℝ) (hs : CB14.Source s g)
    (hs' : CB14.Source s' { g with mag := m' }) (hm : s.get "mechanism" = s'.get "mechanism")
    (hr : s.get "region" = s'.get "region") (hx : g.x < 0) (hd : 0 < g.dip ∧ g.dip ≤ 90)
    (hh : g.hyp = some h) (h20 : 20 ≤ h) (hv : 150 ≤ g.v) (hr0 : 0 ≤ g.rup) (hr10 : g.rup ≤ 10)
    (h5 : 5.5 ≤ g.mag) (hmm : g.mag < m') (h6 : m' ≤ 6.5) :
    ∃ o o', Gives CB14.cls s o ∧ Gives CB14.cls s' o' ∧
      F.Drops (o.gmm.lnResp.getD 21 F.nan) (o'.gmm.lnResp.getD 21 F.nan) := by
  have hv0 : 0 < g.v := by linarith
  refine ⟨_, _, CB14.gives hs hv0.ne', CB14.gives hs' hv0.ne', ?_⟩
  rw [← hm, ← hr]
  set mech := CB14.mechOf (s.get "mechanism")
  set reg := CB14.regOf (s.get "region")
  have hreg : CB14.Regular g mech := .given hx hd hh
  have hreg' : CB14.Regular { g with mag := m' } mech := .given hx hd hh
  have hc := CB14.pgaRow_mem
  refine ⟨CB14.resp_ok hc hreg hv0 reg, CB14.resp_ok hc hreg' hv0 reg, ?_⟩
  have e1 := CB14.resp_val CB14.pgaRow g mech reg
  have e2 := CB14.resp_val CB14.pgaRow { g with mag := m' } mech reg
  refine lt_of_eq_of_lt e2 (lt_of_lt_of_eq ?_ e1.symm)
  have d2 := CB14.rest_mag CB14.pgaRow g hx hh mech reg m'
  have hH : CB14.capH h = 13 := by
    unfold CB14.capH
    rw [max_eq_left (by linarith), min_eq_right (by linarith)]
  rw [hH] at d2
  have k2 := CB14.deep_slope hr0 hr10 mech (dip := g.dip) ⟨h5, by linarith⟩ ⟨by linarith, h6⟩ hmm
  rw [CB14.pgaRef_rest, CB14.pgaRef_rest]
  have ez : { g with mag := m' }.effZ25 reg = g.effZ25 reg := rfl
  rw [ez]
  obtain ⟨p1, p2⟩ := CB14.pgaRow_facts
  refine CB14.surf_drop hc (s := 0.35) (by norm_num) hv (by norm_num) (by norm_num)
    (by rw [p1]; norm_num) (by linarith) _ ?_
  rw [p2]
  push_cast
  linarith

/-! ### The hypotheses are met -/

namespace CB14

/-- a reverse-faulting scenario with given hypocentral depth -/
noncomputable def exM (m r h : ℝ) : Scenario :=
  ⟨[("mag", .num m), ("dist_rup", .num r), ("dist_jb", .num 8), ("dist_x", .num (-8)),
    ("dip", .num 45), ("v_s30", .num 1200), ("depth_hyp", .num h), ("mechanism", .str "RS"),
    ("region", .str "japan")], []⟩
@[inherit_doc exM]
noncomputable def exMG (m r h : ℝ) : Given :=
  { mag := m, rup := r, jb := 8, x := -8, dip := 45, v := 1200, hyp := some h }

theorem exM_source (m r h : ℝ) : Source (exM m r h) (exMG m r h) := by
  constructor <;> simp [exM, exMG, Scenario.get, Dict.get?, Val.ofOpt]

end CB14

example := C92_grows_rock (CB14.exM 5 10 9) (CB14.exM 7.5 10 9) (CB14.exMG 5 10 9) 7.5 9
  (CB14.exM_source 5 10 9) (CB14.exM_source 7.5 10 9) rfl rfl (by norm_num [CB14.exMG])
  (by norm_num [CB14.exMG]) rfl (by norm_num) (by norm_num [CB14.exMG]) (by norm_num [CB14.exMG])
  (by norm_num [CB14.exMG])
example := C92_grows (CB14.exM 5 10 9) (CB14.exM 7.5 10 9) (CB14.exMG 5 10 9) 7.5 9
  (CB14.exM_source 5 10 9) (CB14.exM_source 7.5 10 9) rfl rfl (by norm_num [CB14.exMG])
  (by norm_num [CB14.exMG]) rfl (by norm_num) (by norm_num [CB14.exMG]) (by norm_num [CB14.exMG])
  (by norm_num [CB14.exMG])
example := C92_grows_pga (CB14.exM 5 2 9) (CB14.exM 7.5 2 9) (CB14.exMG 5 2 9) 7.5 9
  (CB14.exM_source 5 2 9) (CB14.exM_source 7.5 2 9) rfl rfl (by norm_num [CB14.exMG])
  (by norm_num [CB14.exMG]) rfl (by norm_num) (by norm_num [CB14.exMG]) (by norm_num [CB14.exMG])
  (by norm_num [CB14.exMG])
example := C92_deep_falls (CB14.exM 5.5 8 25) (CB14.exM 6.5 8 25) (CB14.exMG 5.5 8 25) 6.5 25
  (CB14.exM_source 5.5 8 25) (CB14.exM_source 6.5 8 25) rfl rfl (by norm_num [CB14.exMG])
  (by norm_num [CB14.exMG]) rfl (by norm_num) (by norm_num [CB14.exMG]) (by norm_num [CB14.exMG])
  (by norm_num [CB14.exMG]) (by norm_num [CB14.exMG]) (by norm_num [CB14.exMG]) (by norm_num)
