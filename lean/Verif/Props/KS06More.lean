import Verif.Props.AS16More

/-! # C101: Kempton & Stewart (2006) in seconds -/

open Bounds

set_option linter.unusedSimpArgs false

namespace KS06
noncomputable section

/-- log of the source duration -/
def srcLn (c : Row) (m : ℝ) : ℝ :=
  -Real.log 1.568 + (0.5 * m - 1.65) * Real.log 10 - (c.a + c.b * (m - 6)) / 3

end

theorem arg_eq (c : Row) (m r v : ℝ) :
    arg c m r v = Real.exp (srcLn c m) + c.path * r + (c.site0 + c.site1 * v) := by
  have e : (4.9e6 * 3.2 : ℝ) = Real.exp (Real.log 1.568 + 7 * Real.log 10) := by
    rw [Real.exp_add, Real.exp_log (by norm_num), mul_comm (7 : ℝ), Real.exp_mul, Real.exp_log (by norm_num)]
    norm_num
  simp only [arg]
  rw [source_val, e, ← Real.exp_sub]
  congr 3
  simp only [srcLn]; ring

theorem dur_val {c : Row} (hc : c ∈ table) {m r v : ℝ} (hm : 5 ≤ m) (hr : 0 ≤ r) (hv : v ≤ 960) :
    (F.exp (lnDur c (F.ofReal m) (F.ofReal r) (F.ofReal v))).val =
      Real.exp (srcLn c m) + c.path * r + (c.site0 + c.site1 * v) := by
  rw [F.val_exp, lnDur_val, Real.exp_log (arg_pos hc hm hr hv), arg_eq]

theorem dur_ok {c : Row} (hc : c ∈ table) {m r v : ℝ} (hm : 5 ≤ m) (hr : 0 ≤ r) (hv : v ≤ 960) :
    (F.exp (lnDur c (F.ofReal m) (F.ofReal r) (F.ofReal v))).ok := by
  rw [F.ok_exp]; exact (lnDur_ok_iff ..).2 (arg_pos hc hm hr hv)

theorem srcLn_succ (c : Row) (m : ℝ) : srcLn c (m + 1) = srcLn c m + (0.5 * Real.log 10 - c.b / 3) := by
  simp only [srcLn]; ring

theorem srcLn_add (c : Row) (m d : ℝ) : srcLn c (m + d) = srcLn c m + (0.5 * Real.log 10 - c.b / 3) * d := by
  simp only [srcLn]; ring

/-- bounds of the source duration at one magnitude -/
theorem src_bounds {c : Row} {m lo hi : ℚ} (hm : 1.65 ≤ 0.5 * m)
    (q1 : 0 ≤ 1 - 0.44981 + (0.5 * m - 1.65) * 2.302585 - (c.a + c.b * (m - 6)) / 3)
    (q2 : 1 - 0.4498 + (0.5 * m - 1.65) * 2.302586 - (c.a + c.b * (m - 6)) / 3 ≤ 8)
    (h1 : lo * expHi 1 < expLo (1 - 0.44981 + (0.5 * m - 1.65) * 2.302585 - (c.a + c.b * (m - 6)) / 3))
    (h2 : expHi (1 - 0.4498 + (0.5 * m - 1.65) * 2.302586 - (c.a + c.b * (m - 6)) / 3) < hi * expLo 1)
    (hl : 0 ≤ lo) (hh : 0 ≤ hi) :
    lo < Real.exp (srcLn c m) ∧ Real.exp (srcLn c m) < hi := by
  have hm' : ((1.65 : ℚ) : ℝ) ≤ ((0.5 * m : ℚ) : ℝ) := by exact_mod_cast hm
  push_cast at hm'
  have e : Real.exp (srcLn c m) * Real.exp 1 = Real.exp (1 - Real.log 1.568
      + (0.5 * m - 1.65) * Real.log 10 - (c.a + c.b * (m - 6)) / 3) := by
    rw [← Real.exp_add]; congr 1
    simp only [srcLn]; ring
  have a1 := mul_le_mul_of_nonneg_left AS16.log10_lo (show 0 ≤ 0.5 * (m : ℝ) - 1.65 by linarith)
  have a2 := mul_le_mul_of_nonneg_left AS16.log10_hi (show 0 ≤ 0.5 * (m : ℝ) - 1.65 by linarith)
  have l1 := AS16.log1568_lo
  have l2 := AS16.log1568_hi
  have x1 := expLo_le q1
  have x2 := le_expHi (q1.trans (by linarith)) q2
  push_cast at x1 x2
  have y1 := x1.trans (Real.exp_le_exp.2 (show _ ≤ 1 - Real.log 1.568
      + (0.5 * m - 1.65) * Real.log 10 - (c.a + c.b * (m - 6)) / 3 by linarith))
  have y2 := (Real.exp_le_exp.2 (show 1 - Real.log 1.568
      + (0.5 * m - 1.65) * Real.log 10 - (c.a + c.b * (m - 6)) / 3 ≤ _ by linarith)).trans x2
  rw [← e] at y1 y2
  have g1 : ((lo * expHi 1 : ℚ) : ℝ) < _ := Rat.cast_lt.2 h1
  have g2 : _ < ((hi * expLo 1 : ℚ) : ℝ) := Rat.cast_lt.2 h2
  push_cast at g1 g2
  have z1 := le_expHi (q := 1) (by norm_num) (by norm_num)
  have z2 := expLo_le (q := 1) (by norm_num)
  push_cast at z1 z2
  have hb1 : (0 : ℝ) ≤ lo := by exact_mod_cast hl
  have hb2 : (0 : ℝ) ≤ hi := by exact_mod_cast hh
  have p := Real.exp_pos 1
  constructor
  · have := mul_le_mul_of_nonneg_left z1 hb1
    exact lt_of_mul_lt_mul_right (by linarith) p.le
  · have := mul_le_mul_of_nonneg_left z2 hb2
    exact lt_of_mul_lt_mul_right (by linarith) p.le

theorem mem0 : (⟨6.02, 0, 0.07, 0.82, -0.0013, 0.57⟩ : Row) ∈ table := by simp [table]
theorem mem1 : (⟨2.79, 0.82, 0.15, 3.00, -0.0041, 0.47⟩ : Row) ∈ table := by simp [table]
theorem mem2 : (⟨5.46, 0, 0.10, 1.40, -0.0022, 0.66⟩ : Row) ∈ table := by simp [table]
theorem mem3 : (⟨1.53, 1.34, 0.15, 3.99, -0.0062, 0.52⟩ : Row) ∈ table := by simp [table]

end KS06

/-- **C101.** The durations of two scenarios of the same magnitude differ by exactly 0.07, 0.15, 0.10
and 0.15 s per kilometre and by exactly 0.13, 0.41, 0.22 and 0.62 s per 100 m/s; the standard errors
are 0.57, 0.47, 0.66 and 0.52 for every scenario. -/
theorem C101_additive (s t : Scenario) (m r r' v v' : ℝ) (hm : 5 ≤ m) (hr : 0 ≤ r) (hr' : 0 ≤ r')
    (hv : v ≤ 960) (hv' : v' ≤ 960)
    (hsm : s.get "mag" = .num m) (hsr : s.get "dist_rup" = .num r) (hsv : s.get "v_s30" = .num v)
    (htm : t.get "mag" = .num m) (htr : t.get "dist_rup" = .num r') (htv : t.get "v_s30" = .num v') :
    ∃ o p, Gives KS06.cls s o ∧ Gives KS06.cls t p ∧
      List.Forall₂ (fun (y : F × F) (g : ℝ × ℝ) => y.1.ok ∧ y.2.ok ∧
          y.2.val - y.1.val = g.1 * (r' - r) - g.2 * ((v' - v) / 100)) (o.duration.zip p.duration)
        [(0.07, 0.13), (0.15, 0.41), (0.10, 0.22), (0.15, 0.62)] ∧
      List.Forall₂ (fun (y : F) (e : ℝ) => y.ok ∧ y.val = e) o.stdErr [0.57, 0.47, 0.66, 0.52] := by
  refine ⟨_, _, KS06.gives s hsm hsr hsv, KS06.gives t htm htr htv, ?_, ?_⟩
  · have K : ∀ c ∈ KS06.table, ∀ g : ℝ × ℝ, (c.path : ℝ) = g.1 → (c.site1 : ℝ) = -g.2 / 100 →
        (F.exp (KS06.lnDur c (F.ofReal m) (F.ofReal r) (F.ofReal v))).ok ∧
        (F.exp (KS06.lnDur c (F.ofReal m) (F.ofReal r') (F.ofReal v'))).ok ∧
        (F.exp (KS06.lnDur c (F.ofReal m) (F.ofReal r') (F.ofReal v'))).val -
          (F.exp (KS06.lnDur c (F.ofReal m) (F.ofReal r) (F.ofReal v))).val
          = g.1 * (r' - r) - g.2 * ((v' - v) / 100) := by
      intro c hc g h1 h2
      refine ⟨KS06.dur_ok hc hm hr hv, KS06.dur_ok hc hm hr' hv', ?_⟩
      rw [KS06.dur_val hc hm hr hv, KS06.dur_val hc hm hr' hv', h1, h2]; ring
    exact .cons (K _ KS06.mem0 _ (by norm_num) (by norm_num)) (.cons (K _ KS06.mem1 _ (by norm_num) (by norm_num))
      (.cons (K _ KS06.mem2 _ (by norm_num) (by norm_num)) (.cons (K _ KS06.mem3 _ (by norm_num) (by norm_num)) .nil)))
  · simp only [KS06.out, KS06.table, List.map_cons, List.map_nil]
    refine .cons ⟨?_, ?_⟩ (.cons ⟨?_, ?_⟩ (.cons ⟨?_, ?_⟩ (.cons ⟨?_, ?_⟩ .nil))) <;> simp only [fsimp] <;> norm_num

/-- **C101.** Each further magnitude unit multiplies the gain of the unit before: by the square root of
10 for D5-75 (acceleration and velocity), by 2.40 to 2.41 for D5-95a and by 2.02 to 2.03 for D5-95v. -/
theorem C101_magnitude (s t u : Scenario) (m r v : ℝ) (hm : 5 ≤ m) (hr : 0 ≤ r) (hv : v ≤ 960)
    (hsm : s.get "mag" = .num m) (hsr : s.get "dist_rup" = .num r) (hsv : s.get "v_s30" = .num v)
    (htm : t.get "mag" = .num (m + 1)) (htr : t.get "dist_rup" = .num r) (htv : t.get "v_s30" = .num v)
    (hum : u.get "mag" = .num (m + 2)) (hur : u.get "dist_rup" = .num r) (huv : u.get "v_s30" = .num v) :
    ∃ o p q a b c d a' b' c' d' a'' b'' c'' d'', Gives KS06.cls s o ∧ Gives KS06.cls t p ∧ Gives KS06.cls u q ∧
      o.duration = [a, b, c, d] ∧ p.duration = [a', b', c', d'] ∧ q.duration = [a'', b'', c'', d''] ∧
      a''.val - a'.val = √10 * (a'.val - a.val) ∧ c''.val - c'.val = √10 * (c'.val - c.val) ∧
      2.4 * (b'.val - b.val) < b''.val - b'.val ∧ b''.val - b'.val < 2.41 * (b'.val - b.val) ∧
      2.02 * (d'.val - d.val) < d''.val - d'.val ∧ d''.val - d'.val < 2.03 * (d'.val - d.val) := by
  have K : ∀ c ∈ KS06.table, 0 < Real.exp (0.5 * Real.log 10 - (c.b : ℝ) / 3) - 1 → ∃ g : ℝ, 0 < g ∧
      (F.exp (KS06.lnDur c (F.ofReal (m + 1)) (F.ofReal r) (F.ofReal v))).val -
        (F.exp (KS06.lnDur c (F.ofReal m) (F.ofReal r) (F.ofReal v))).val = g ∧
      (F.exp (KS06.lnDur c (F.ofReal (m + 2)) (F.ofReal r) (F.ofReal v))).val -
        (F.exp (KS06.lnDur c (F.ofReal (m + 1)) (F.ofReal r) (F.ofReal v))).val
        = Real.exp (0.5 * Real.log 10 - c.b / 3) * g := by
    intro c hc hx
    refine ⟨Real.exp (KS06.srcLn c m) * (Real.exp (0.5 * Real.log 10 - c.b / 3) - 1),
      mul_pos (Real.exp_pos _) hx, ?_, ?_⟩
    · rw [KS06.dur_val hc hm hr hv, KS06.dur_val hc (by linarith) hr hv, KS06.srcLn_succ, Real.exp_add]; ring
    · rw [KS06.dur_val hc (by linarith) hr hv, KS06.dur_val hc (by linarith) hr hv,
        show m + 2 = (m + 1) + 1 by ring, KS06.srcLn_succ, KS06.srcLn_succ, Real.exp_add, Real.exp_add]; ring
  have l1 := AS16.log10_lo
  have l2 := AS16.log10_hi
  have s10 : Real.exp (0.5 * Real.log 10 - ((0 : ℚ) : ℝ) / 3) = √10 := by
    rw [Real.sqrt_eq_rpow, Real.rpow_def_of_pos (by norm_num)]; congr 1; push_cast; ring
  have B : ∀ (b lo hi : ℚ), 0 ≤ 1.1512925 - b / 3 → 1.151293 - b / 3 ≤ 8 → lo < expLo (1.1512925 - b / 3) →
      expHi (1.151293 - b / 3) < hi → (lo : ℝ) < Real.exp (0.5 * Real.log 10 - b / 3) ∧
        Real.exp (0.5 * Real.log 10 - b / 3) < hi := by
    intro b lo hi q1 q2 h1 h2
    have x1 := expLo_le q1
    have x2 := le_expHi (q1.trans (by linarith)) q2
    have g1 : (lo : ℝ) < _ := Rat.cast_lt.2 h1
    have g2 : _ < (hi : ℝ) := Rat.cast_lt.2 h2
    push_cast at x1 x2
    have y1 := Real.exp_le_exp.2 (show (1.1512925 : ℝ) - b / 3 ≤ 0.5 * Real.log 10 - b / 3 by linarith)
    have y2 := Real.exp_le_exp.2 (show 0.5 * Real.log 10 - b / 3 ≤ (1.151293 : ℝ) - b / 3 by linarith)
    exact ⟨by linarith, by linarith⟩
  have B0 := B 0 3 4 (by decide +kernel) (by decide +kernel) (by decide +kernel) (by decide +kernel)
  have B1 := B 0.82 2.4 2.41 (by decide +kernel) (by decide +kernel) (by decide +kernel) (by decide +kernel)
  have B3 := B 1.34 2.02 2.03 (by decide +kernel) (by decide +kernel) (by decide +kernel) (by decide +kernel)
  obtain ⟨g0, p0, e0, f0⟩ := K _ KS06.mem0 (by push_cast at B0 ⊢; linarith [B0.1])
  obtain ⟨g1, p1, e1, f1⟩ := K _ KS06.mem1 (by push_cast at B1 ⊢; linarith [B1.1])
  obtain ⟨g2, p2, e2, f2⟩ := K _ KS06.mem2 (by push_cast at B0 ⊢; linarith [B0.1])
  obtain ⟨g3, p3, e3, f3⟩ := K _ KS06.mem3 (by push_cast at B3 ⊢; linarith [B3.1])
  refine ⟨_, _, _, _, _, _, _, _, _, _, _, _, _, _, _, KS06.gives s hsm hsr hsv, KS06.gives t htm htr htv,
    KS06.gives u hum hur huv, rfl, rfl, rfl, ?_, ?_, ?_⟩
  · rw [e0, f0, s10]
  · rw [e2, f2, s10]
  · rw [e1, f1, e3, f3]
    push_cast at B1 B3 ⊢
    exact ⟨mul_lt_mul_of_pos_right B1.1 p1, mul_lt_mul_of_pos_right B1.2 p1, mul_lt_mul_of_pos_right B3.1 p3,
      mul_lt_mul_of_pos_right B3.2 p3⟩

namespace KS06

/-- `src m` against `src m0` -/
theorem src_shift (c : Row) (m0 m : ℝ) :
    Real.exp (srcLn c m) = Real.exp (srcLn c m0) * Real.exp ((0.5 * Real.log 10 - c.b / 3) * (m - m0)) := by
  rw [← Real.exp_add, ← srcLn_add]; congr 2; ring

/-- the D5-95 source duration exceeds the D5-75 one on an interval of magnitudes when it does so,
relatively, at the end -/
theorem gap {c d : Row} (hb : (c.b : ℝ) ≤ d.b) (hc3 : (c.b : ℝ) / 3 ≤ 1.15) {a b x ρ : ℝ} (hx : a ≤ x) (hxb : x ≤ b)
    (h : ρ * Real.exp (srcLn c b) ≤ Real.exp (srcLn d b)) (hρ : 1 ≤ ρ) :
    (ρ - 1) * Real.exp (srcLn c a) ≤ Real.exp (srcLn d x) - Real.exp (srcLn c x) := by
  have l := AS16.log10_lo
  have e1 : Real.exp (srcLn c a) ≤ Real.exp (srcLn c x) := by
    rw [Real.exp_le_exp, show x = a + (x - a) by ring, srcLn_add]
    have := mul_nonneg (show 0 ≤ 0.5 * Real.log 10 - (c.b : ℝ) / 3 by linarith) (show 0 ≤ x - a by linarith)
    linarith
  have e2 : ρ * Real.exp (srcLn c x) ≤ Real.exp (srcLn d x) := by
    rw [src_shift c b x, src_shift d b x, ← mul_assoc]
    refine (mul_le_mul_of_nonneg_right h (Real.exp_pos _).le).trans
      (mul_le_mul_of_nonneg_left (Real.exp_le_exp.2 ?_) (Real.exp_pos _).le)
    have := mul_le_mul_of_nonneg_right hb (show 0 ≤ b - x by linarith)
    linarith
  have := mul_le_mul_of_nonneg_left e1 (show 0 ≤ ρ - 1 by linarith)
  linarith

end KS06

/-- **C101.** Within the magnitude limits (5 to 7.6) and for velocities up to 960 m/s both D5-75
durations are shorter than the D5-95 of the same kind. -/
theorem C101_order (s : Scenario) (m r v : ℝ) (hm : 5 ≤ m) (hm' : m ≤ 7.6) (hr : 0 ≤ r) (hv : v ≤ 960)
    (hsm : s.get "mag" = .num m) (hsr : s.get "dist_rup" = .num r) (hsv : s.get "v_s30" = .num v) :
    ∃ o a b c d, Gives KS06.cls s o ∧ o.duration = [a, b, c, d] ∧ F.Drops b a ∧ F.Drops d c := by
  refine ⟨_, _, _, _, _, KS06.gives s hsm hsr hsv, rfl, ⟨KS06.dur_ok KS06.mem1 hm hr hv,
    KS06.dur_ok KS06.mem0 hm hr hv, ?_⟩, ⟨KS06.dur_ok KS06.mem3 hm hr hv, KS06.dur_ok KS06.mem2 hm hr hv, ?_⟩⟩
  · rw [KS06.dur_val KS06.mem0 hm hr hv, KS06.dur_val KS06.mem1 hm hr hv]
    have a := KS06.src_bounds (c := ⟨6.02, 0, 0.07, 0.82, -0.0013, 0.57⟩) (m := 7.6) (lo := 12.1) (hi := 12.12)
      (by decide +kernel) (by decide +kernel) (by decide +kernel) (by decide +kernel) (by decide +kernel)
      (by decide +kernel) (by decide +kernel)
    have b := KS06.src_bounds (c := ⟨2.79, 0.82, 0.15, 3.00, -0.0041, 0.47⟩) (m := 7.6) (lo := 22.95) (hi := 22.96)
      (by decide +kernel) (by decide +kernel) (by decide +kernel) (by decide +kernel) (by decide +kernel)
      (by decide +kernel) (by decide +kernel)
    have c := KS06.src_bounds (c := ⟨6.02, 0, 0.07, 0.82, -0.0013, 0.57⟩) (m := 5) (lo := 0.606) (hi := 0.608)
      (by decide +kernel) (by decide +kernel) (by decide +kernel) (by decide +kernel) (by decide +kernel)
      (by decide +kernel) (by decide +kernel)
    have g := KS06.gap (c := ⟨6.02, 0, 0.07, 0.82, -0.0013, 0.57⟩) (d := ⟨2.79, 0.82, 0.15, 3.00, -0.0041, 0.47⟩)
      (ρ := 1.89) (by norm_num) (by norm_num) hm hm'
      (by push_cast at a b; linarith) (by norm_num)
    push_cast at c g ⊢
    linarith
  · rw [KS06.dur_val KS06.mem2 hm hr hv, KS06.dur_val KS06.mem3 hm hr hv]
    rcases le_total m 6.5 with w | w
    · have a := KS06.src_bounds (c := ⟨5.46, 0, 0.10, 1.40, -0.0022, 0.66⟩) (m := 6.5) (lo := 4.1) (hi := 4.12)
        (by decide +kernel) (by decide +kernel) (by decide +kernel) (by decide +kernel) (by decide +kernel)
        (by decide +kernel) (by decide +kernel)
      have b := KS06.src_bounds (c := ⟨1.53, 1.34, 0.15, 3.99, -0.0062, 0.52⟩) (m := 6.5) (lo := 12.1) (hi := 12.3)
        (by decide +kernel) (by decide +kernel) (by decide +kernel) (by decide +kernel) (by decide +kernel)
        (by decide +kernel) (by decide +kernel)
      have c := KS06.src_bounds (c := ⟨5.46, 0, 0.10, 1.40, -0.0022, 0.66⟩) (m := 5) (lo := 0.73) (hi := 0.735)
        (by decide +kernel) (by decide +kernel) (by decide +kernel) (by decide +kernel) (by decide +kernel)
        (by decide +kernel) (by decide +kernel)
      have g := KS06.gap (c := ⟨5.46, 0, 0.10, 1.40, -0.0022, 0.66⟩) (d := ⟨1.53, 1.34, 0.15, 3.99, -0.0062, 0.52⟩)
        (ρ := 2.9) (by norm_num) (by norm_num) hm w
        (by push_cast at a b; linarith) (by norm_num)
      push_cast at c g ⊢
      linarith
    · have a := KS06.src_bounds (c := ⟨5.46, 0, 0.10, 1.40, -0.0022, 0.66⟩) (m := 7.6) (lo := 14.5) (hi := 14.6)
        (by decide +kernel) (by decide +kernel) (by decide +kernel) (by decide +kernel) (by decide +kernel)
        (by decide +kernel) (by decide +kernel)
      have b := KS06.src_bounds (c := ⟨1.53, 1.34, 0.15, 3.99, -0.0062, 0.52⟩) (m := 7.6) (lo := 26.4) (hi := 26.5)
        (by decide +kernel) (by decide +kernel) (by decide +kernel) (by decide +kernel) (by decide +kernel)
        (by decide +kernel) (by decide +kernel)
      have c := KS06.src_bounds (c := ⟨5.46, 0, 0.10, 1.40, -0.0022, 0.66⟩) (m := 6.5) (lo := 4.1) (hi := 4.12)
        (by decide +kernel) (by decide +kernel) (by decide +kernel) (by decide +kernel) (by decide +kernel)
        (by decide +kernel) (by decide +kernel)
      have g := KS06.gap (c := ⟨5.46, 0, 0.10, 1.40, -0.0022, 0.66⟩) (d := ⟨1.53, 1.34, 0.15, 3.99, -0.0062, 0.52⟩)
        (a := 6.5) (ρ := 1.8) (by norm_num) (by norm_num) w hm'
        (by push_cast at a b; linarith) (by norm_num)
      push_cast at c g ⊢
      linarith

/-- **C101.** A magnitude 6 earthquake at the fault on a 600 m/s site: 1.96, 6.17, 2.39 and 8.84 s. -/
theorem C101_value (s : Scenario)
    (hsm : s.get "mag" = .num 6) (hsr : s.get "dist_rup" = .num 0) (hsv : s.get "v_s30" = .num 600) :
    ∃ o, Gives KS06.cls s o ∧ List.Forall₂ (fun (y : F) (e : ℝ) => y.ok ∧ |y.val - e| < 0.005) o.duration
      [1.96, 6.17, 2.39, 8.84] := by
  refine ⟨_, KS06.gives s hsm hsr hsv, ?_⟩
  have K : ∀ c ∈ KS06.table, ∀ (e lo hi : ℚ),
      1.65 ≤ 0.5 * (6 : ℚ) ∧
      0 ≤ 1 - 0.44981 + (0.5 * (6 : ℚ) - 1.65) * 2.302585 - (c.a + c.b * (6 - 6)) / 3 ∧
      1 - 0.4498 + (0.5 * (6 : ℚ) - 1.65) * 2.302586 - (c.a + c.b * (6 - 6)) / 3 ≤ 8 ∧
      lo * expHi 1 < expLo (1 - 0.44981 + (0.5 * 6 - 1.65) * 2.302585 - (c.a + c.b * (6 - 6)) / 3) ∧
      expHi (1 - 0.4498 + (0.5 * 6 - 1.65) * 2.302586 - (c.a + c.b * (6 - 6)) / 3) < hi * expLo 1 ∧
      0 ≤ lo ∧ 0 ≤ hi ∧ e - 0.005 ≤ lo + c.site0 + c.site1 * 600 ∧ hi + c.site0 + c.site1 * 600 ≤ e + 0.005 →
      (F.exp (KS06.lnDur c (F.ofReal 6) (F.ofReal 0) (F.ofReal 600))).ok ∧
      |(F.exp (KS06.lnDur c (F.ofReal 6) (F.ofReal 0) (F.ofReal 600))).val - e| < 0.005 := by
    rintro c hc e lo hi ⟨h0, h1, h2, h3, h4, h5, h6, h7, h8⟩
    refine ⟨KS06.dur_ok hc (by norm_num) le_rfl (by norm_num), ?_⟩
    rw [KS06.dur_val hc (by norm_num) le_rfl (by norm_num)]
    obtain ⟨a, b⟩ := KS06.src_bounds h0 h1 h2 h3 h4 h5 h6
    have h7' := (Rat.cast_le (K := ℝ)).2 h7
    have h8' := (Rat.cast_le (K := ℝ)).2 h8
    push_cast at a b h7' h8'
    rw [abs_lt]
    constructor <;> linarith
  have K0 := K _ KS06.mem0 1.96 1.918 1.92 (by decide +kernel)
  have K1 := K _ KS06.mem1 6.17 5.632 5.634 (by decide +kernel)
  have K2 := K _ KS06.mem2 2.39 2.312 2.314 (by decide +kernel)
  have K3 := K _ KS06.mem3 8.84 8.572 8.574 (by decide +kernel)
  push_cast at K0 K1 K2 K3
  exact .cons K0 (.cons K1 (.cons K2 (.cons K3 .nil)))

example := C101_additive
  ⟨[("mag", .num 6), ("dist_rup", .num 0), ("v_s30", .num 500)], []⟩
  ⟨[("mag", .num 6), ("dist_rup", .num 10), ("v_s30", .num 700)], []⟩ 6 0 10 500 700
  (by norm_num) le_rfl (by norm_num) (by norm_num) (by norm_num) rfl rfl rfl rfl rfl rfl
example := C101_magnitude
  ⟨[("mag", .num 5), ("dist_rup", .num 0), ("v_s30", .num 500)], []⟩
  ⟨[("mag", .num (5 + 1)), ("dist_rup", .num 0), ("v_s30", .num 500)], []⟩
  ⟨[("mag", .num (5 + 2)), ("dist_rup", .num 0), ("v_s30", .num 500)], []⟩ 5 0 500
  (by norm_num) le_rfl (by norm_num) rfl rfl rfl rfl rfl rfl rfl rfl rfl
example := C101_order ⟨[("mag", .num 7.6), ("dist_rup", .num 0), ("v_s30", .num 960)], []⟩ 7.6 0 960
  (by norm_num) le_rfl le_rfl le_rfl rfl rfl rfl
example := C101_value ⟨[("mag", .num 6), ("dist_rup", .num 0), ("v_s30", .num 600)], []⟩ rfl rfl rfl
