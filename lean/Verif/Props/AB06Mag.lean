import Verif.Props.AB06Dist

/-!
# C91: Atkinson & Boore (2006) grows with magnitude beyond 10 km, and PGA falls near the source
-/

open Bounds

set_option linter.unusedSimpArgs false

namespace AB06

theorem sf_more : ∀ q ∈ sf, (0 : ℚ) ≤ q.delta ∧ q.delta ≤ 0.15 ∧
    q.delta ≤ 0.06 * (q.m_h - q.m_1) := by decide +kernel

/-- the stress ratio, capped -/
noncomputable def stressA (m : ℝ) : ℝ := min 2 ((10 : ℝ) ^ (3.45 - 0.2 * m) / 140)
/-- the row's weight of the stress ratio -/
noncomputable def stressB (q : SfRow) (m : ℝ) : ℝ :=
  min (q.delta + 0.05) (0.05 + q.delta * max (m - q.m_1) 0 / (q.m_h - q.m_1))

theorem specStress_eq (q : SfRow) (m : ℝ) : specStress q m = stressA m * stressB q m := rfl

theorem stressA_bounds (m : ℝ) : 0 ≤ stressA m ∧ stressA m ≤ 2 :=
  ⟨le_min (by norm_num) (by positivity), min_le_left _ _⟩

theorem log10_le : Real.log 10 ≤ 2.304 := by
  have := log_le_of (x := 10) (q := 2.304) (by norm_num) (by norm_num) (by
    exact_mod_cast (by decide +kernel : (10 : ℚ) ≤ expLo 2.304))
  norm_num at this ⊢; exact this

theorem stressA_step {m m' : ℝ} (h : m ≤ m') :
    stressA m' ≤ stressA m ∧ stressA m - 0.461 * stressA m * (m' - m) ≤ stressA m' := by
  have hl : 0 < Real.log 10 := log10_pos
  have hl2 := log10_le
  have e : (10 : ℝ) ^ (3.45 - 0.2 * m') =
      10 ^ (3.45 - 0.2 * m) * Real.exp (-(0.2 * Real.log 10 * (m' - m))) := by
    rw [Real.rpow_def_of_pos (by norm_num), Real.rpow_def_of_pos (by norm_num), ← Real.exp_add]
    congr 1; ring
  have hpos : 0 < (10 : ℝ) ^ (3.45 - 0.2 * m) / 140 := by positivity
  set g := (10 : ℝ) ^ (3.45 - 0.2 * m) / 140 with hg
  set x := 0.2 * Real.log 10 * (m' - m) with hx
  have hx0 : 0 ≤ x := by
    have : 0 ≤ m' - m := by linarith
    positivity
  have hx1 : x ≤ 0.461 * (m' - m) := by
    rw [hx]
    exact mul_le_mul_of_nonneg_right (by linarith) (by linarith)
  have eA : stressA m = min 2 g := rfl
  have eA' : stressA m' = min 2 (g * Real.exp (-x)) := by
    unfold stressA; rw [e, hg]; congr 1; ring
  have h1 : Real.exp (-x) ≤ 1 := Real.exp_le_one_iff.2 (by linarith)
  have h2 : 1 - x ≤ Real.exp (-x) := by linarith [Real.add_one_le_exp (-x)]
  have hA := stressA_bounds m
  constructor
  · rw [eA, eA']
    exact min_le_min_left _ (mul_le_of_le_one_right hpos.le h1)
  · have : stressA m * Real.exp (-x) ≤ stressA m' := by
      rw [eA']
      apply le_min
      · nlinarith [Real.exp_pos (-x)]
      · rw [eA]
        exact mul_le_mul_of_nonneg_right (min_le_right _ _) (Real.exp_pos _).le
    nlinarith

theorem stressB_step {q : SfRow} (hq : q ∈ sf) {m m' : ℝ} (h : m ≤ m') :
    0 ≤ stressB q m ∧ stressB q m' ≤ 0.2 ∧ stressB q m ≤ stressB q m' ∧
      stressB q m' ≤ stressB q m + 0.06 * (m' - m) := by
  obtain ⟨h0, h1, h2⟩ := sf_more q hq
  have h0' : (0 : ℝ) ≤ q.delta := by exact_mod_cast h0
  have h1' : ((q.delta : ℚ) : ℝ) ≤ ((0.15 : ℚ) : ℝ) := by exact_mod_cast h1
  have h2' : ((q.delta : ℚ) : ℝ) ≤ ((0.06 * (q.m_h - q.m_1) : ℚ) : ℝ) := by exact_mod_cast h2
  push_cast at h1' h2'
  have hm : (q.m_1 : ℝ) < q.m_h := by exact_mod_cast sf_facts.2 q hq
  have hd : 0 < (q.m_h : ℝ) - q.m_1 := by linarith
  have hs : (q.delta : ℝ) / (q.m_h - q.m_1) ≤ 0.06 := by
    rw [div_le_iff₀ hd]; exact h2'
  have hs0 : 0 ≤ (q.delta : ℝ) / (q.m_h - q.m_1) := by positivity
  have e : ∀ x : ℝ, (q.delta : ℝ) * max (x - q.m_1) 0 / (q.m_h - q.m_1) =
      q.delta / (q.m_h - q.m_1) * max (x - q.m_1) 0 := fun x => by ring
  have mx : max (m - q.m_1) 0 ≤ max (m' - q.m_1) 0 := max_le_max_right _ (by linarith)
  have mx' : max (m' - (q.m_1 : ℝ)) 0 ≤ max (m - (q.m_1 : ℝ)) 0 + (m' - m) := by
    apply max_le
    · linarith [le_max_left (m - (q.m_1 : ℝ)) 0]
    · linarith [le_max_right (m - (q.m_1 : ℝ)) 0]
  have m0 : 0 ≤ max (m - (q.m_1 : ℝ)) 0 := le_max_right _ _
  simp only [stressB, e]
  set k := (q.delta : ℝ) / (q.m_h - q.m_1)
  refine ⟨le_min (by linarith) (by positivity), (min_le_left _ _).trans (by linarith),
    min_le_min_left _ (by gcongr), ?_⟩
  rw [min_add]
  apply min_le_min
  · linarith
  · have a1 : k * max (m' - q.m_1) 0 ≤ k * (max (m - q.m_1) 0 + (m' - m)) :=
      mul_le_mul_of_nonneg_left mx' hs0
    have a2 : k * (m' - m) ≤ 0.06 * (m' - m) := mul_le_mul_of_nonneg_right hs (by linarith)
    linarith

theorem specStress_step {q : SfRow} (hq : q ∈ sf) {m m' K : ℝ} (h : m ≤ m') (hK : stressA m ≤ K) :
    -(0.0922 * K * (m' - m)) ≤ specStress q m' - specStress q m ∧
      specStress q m' - specStress q m ≤ 0.12 * (m' - m) := by
  obtain ⟨a1, a2⟩ := stressA_step h
  obtain ⟨b0, b1, b2, b3⟩ := stressB_step hq h
  obtain ⟨p0, p1⟩ := stressA_bounds m
  obtain ⟨p0', p1'⟩ := stressA_bounds m'
  rw [specStress_eq, specStress_eq]
  set A := stressA m
  set A' := stressA m'
  set B := stressB q m
  set B' := stressB q m'
  have hd : 0 ≤ m' - m := by linarith
  constructor
  · have e : A' * B' - A * B = A' * (B' - B) - (A - A') * B := by ring
    have u1 : 0 ≤ A' * (B' - B) := mul_nonneg p0' (by linarith)
    have u2 : (A - A') * B ≤ (A - A') * 0.2 := mul_le_mul_of_nonneg_left (by linarith) (by linarith)
    have u3 : A * (m' - m) ≤ K * (m' - m) := mul_le_mul_of_nonneg_right hK hd
    rw [e]; linarith
  · have e : A' * B' - A * B = A * (B' - B) - (A - A') * B' := by ring
    have u1 : 0 ≤ (A - A') * B' := mul_nonneg (by linarith) (by linarith)
    have u2 : A * (B' - B) ≤ 2 * (B' - B) := mul_le_mul_of_nonneg_right p1 (by linarith)
    rw [e]; linarith

/-- the interpolated stress correction -/
noncomputable def stressAt (T : ℝ) (m : ℝ) : ℝ :=
  interpR (sf.map fun q => ((q.period : ℝ), specStress q m)) T

theorem stressAt_step (T : ℝ) {m m' K : ℝ} (h : m ≤ m') (hK : stressA m ≤ K) :
    -(0.0922 * K * (m' - m)) ≤ stressAt T m' - stressAt T m ∧
      stressAt T m' - stressAt T m ≤ 0.12 * (m' - m) := by
  unfold stressAt
  rw [Interp.sub]
  constructor
  · apply Interp.ge_of (nodes_sorted sf_facts.1 _) (by simp [sf])
    intro p hp
    obtain ⟨q, hq, rfl⟩ := List.mem_map.1 hp
    exact (specStress_step hq h hK).1
  · apply Interp.le_of (nodes_sorted sf_facts.1 _) (by simp [sf])
    intro p hp
    obtain ⟨q, hq, rfl⟩ := List.mem_map.1 hp
    exact (specStress_step hq h hK).2

theorem stressA_anti {m m' : ℝ} (h : m ≤ m') : stressA m' ≤ stressA m := (stressA_step h).1

theorem stressA_6 : stressA 6 ≤ 1.28 := by
  refine (min_le_right _ _).trans ?_
  rw [div_le_iff₀ (by norm_num)]
  have : ((10 : ℝ) ^ (3.45 - 0.2 * 6 : ℝ)) ^ (4 : ℕ) ≤ (1.28 * 140 : ℝ) ^ (4 : ℕ) := by
    rw [← Real.rpow_natCast, ← Real.rpow_mul (by norm_num),
      show (3.45 - 0.2 * 6 : ℝ) * ((4 : ℕ) : ℝ) = ((9 : ℕ) : ℝ) by norm_num, Real.rpow_natCast]
    norm_num
  exact le_of_pow_le_pow_left₀ (by norm_num) (by norm_num) this

theorem stressA_7 : stressA 7 ≤ 0.81 := by
  refine (min_le_right _ _).trans ?_
  rw [div_le_iff₀ (by norm_num)]
  have : ((10 : ℝ) ^ (3.45 - 0.2 * 7 : ℝ)) ^ (20 : ℕ) ≤ (0.81 * 140 : ℝ) ^ (20 : ℕ) := by
    rw [← Real.rpow_natCast, ← Real.rpow_mul (by norm_num),
      show (3.45 - 0.2 * 7 : ℝ) * ((20 : ℕ) : ℝ) = ((41 : ℕ) : ℝ) by norm_num, Real.rpow_natCast]
    norm_num
  exact le_of_pow_le_pow_left₀ (by norm_num) (by norm_num) this

/-- magnitude slope at 10 km of a row minus `k` times that of PGA on B/C, at magnitude `M`, exceeds
what the stress correction can take back -/
def magAt (P c : Row) (k K M : ℚ) : Prop :=
  0 < c.c_2 - k * P.c_2 + 2 * (c.c_3 - k * P.c_3) * M + (c.c_5 - k * P.c_5) - 0.0922 * K - k * 0.12
instance (P c : Row) (k K M : ℚ) : Decidable (magAt P c k K M) := by unfold magAt; infer_instance

/-- the same over four magnitude intervals, and slopes not decreasing with distance -/
def magGood (P c : Row) (k : ℚ) : Prop :=
  0 ≤ c.c_5 - k * P.c_5 ∧ 0 ≤ c.c_7 - k * P.c_7 ∧
  (magAt P c k 2 3.5 ∧ magAt P c k 2 6) ∧
  (magAt P c k 1.28 6 ∧ magAt P c k 1.28 7) ∧
  (magAt P c k 0.81 7 ∧ magAt P c k 0.81 7.5)
instance (P c : Row) (k : ℚ) : Decidable (magGood P c k) := by unfold magGood; infer_instance

theorem rock_mag : ∀ c ∈ rock, magGood pgaRow c 0 := by decide +kernel
theorem bc_mag : ∀ c ∈ bc, magGood pgaRow c 0 ∧ magGood pgaRow c bMax := by decide +kernel

theorem near_one {R : ℝ} (h : 10 ≤ R) : near R = 1 := by
  unfold near
  apply min_eq_right
  rw [Real.le_logb_iff_rpow_le (by norm_num) (by linarith)]; simpa using h

theorem specRef_mag (c : Row) (m m' : ℝ) {R : ℝ} (hR : 10 ≤ R) : specRef c m' R - specRef c m R =
    (m' - m) * (c.c_2 + c.c_3 * (m + m') + c.c_5 * (1 + mid R) + c.c_7 * far R) := by
  rw [specRef_eq c m (by linarith), specRef_eq c m' (by linarith), near_one hR]; ring

theorem specLnRef_mag (c : Row) (m m' : ℝ) (R : ℝ) : specLnRef c m' R - specLnRef c m R =
    Real.log 10 * ((specRef c m' R - specRef c m R) + (stressAt c.period m' - stressAt c.period m)) := by
  unfold specLnRef stressAt; ring

theorem grow_piece {P c : Row} {k K a b : ℚ} (hk : 0 ≤ k) (h5 : 0 ≤ c.c_5 - k * P.c_5)
    (h7 : 0 ≤ c.c_7 - k * P.c_7) (ha : magAt P c k K a) (hb : magAt P c k K b)
    (hK : stressA a ≤ K) {m m' R : ℝ} (hR : 10 ≤ R) (hm : (a : ℝ) ≤ m) (h : m < m') (hm' : m' ≤ b) :
    0 < (specLnRef c m' R - specLnRef c m R) - k * (specLnRef P m' R - specLnRef P m R) := by
  obtain ⟨s1, -⟩ := stressAt_step c.period h.le ((stressA_anti hm).trans hK)
  obtain ⟨-, s2⟩ := stressAt_step P.period h.le ((stressA_anti hm).trans hK)
  rw [specLnRef_mag, specLnRef_mag, specRef_mag _ _ _ hR, specRef_mag _ _ _ hR]
  have hk' : (0 : ℝ) ≤ k := by exact_mod_cast hk
  have h5' : ((0 : ℚ) : ℝ) ≤ ((c.c_5 - k * P.c_5 : ℚ) : ℝ) := by exact_mod_cast h5
  have h7' : ((0 : ℚ) : ℝ) ≤ ((c.c_7 - k * P.c_7 : ℚ) : ℝ) := by exact_mod_cast h7
  push_cast at h5' h7'
  have lin : ∀ p q : ℚ, 0 < p + q * a → 0 < p + q * b → (0 : ℝ) < p + q * ((m + m') / 2) := by
    intro p q h1 h2
    apply linear_pos (a := (a : ℝ)) (b := (b : ℝ)) ⟨by linarith, by linarith⟩
    · exact_mod_cast h1
    · exact_mod_cast h2
  unfold magAt at ha hb
  have l := lin (c.c_2 - k * P.c_2 + (c.c_5 - k * P.c_5) - 0.0922 * K - k * 0.12)
    (2 * (c.c_3 - k * P.c_3)) (by linarith) (by linarith)
  push_cast at l
  have m0 : 0 ≤ mid R := le_max_right _ _
  have f0 : 0 ≤ far R := le_max_right _ _
  have d : 0 < m' - m := by linarith
  have u5 : 0 ≤ ((c.c_5 : ℝ) - k * P.c_5) * mid R := mul_nonneg h5' m0
  have u7 : 0 ≤ ((c.c_7 : ℝ) - k * P.c_7) * far R := mul_nonneg h7' f0
  have uk : (k : ℝ) * (stressAt P.period m' - stressAt P.period m) ≤ k * (0.12 * (m' - m)) :=
    mul_le_mul_of_nonneg_left s2 hk'
  set S := stressAt c.period m' - stressAt c.period m
  set S' := stressAt P.period m' - stressAt P.period m
  have e : Real.log 10 * ((m' - m) * (c.c_2 + c.c_3 * (m + m') + c.c_5 * (1 + mid R) + c.c_7 * far R) + S)
      - k * (Real.log 10 * ((m' - m) * (P.c_2 + P.c_3 * (m + m') + P.c_5 * (1 + mid R) + P.c_7 * far R) + S'))
      = Real.log 10 * ((m' - m) * (c.c_2 - k * P.c_2 + (c.c_5 - k * P.c_5) +
          2 * (c.c_3 - k * P.c_3) * ((m + m') / 2) + (c.c_5 - k * P.c_5) * mid R +
          (c.c_7 - k * P.c_7) * far R) + S - k * S') := by ring
  rw [e]
  apply mul_pos log10_pos
  have : 0 < (m' - m) * (c.c_2 - k * P.c_2 + (c.c_5 - k * P.c_5) +
          2 * (c.c_3 - k * P.c_3) * ((m + m') / 2) + (c.c_5 - k * P.c_5) * mid R +
          (c.c_7 - k * P.c_7) * far R - 0.0922 * K - k * 0.12) := mul_pos d (by linarith)
  linarith

theorem grow_lin {P c : Row} {k : ℚ} (hk : 0 ≤ k) (g : magGood P c k) {m m' R : ℝ} (hR : 10 ≤ R)
    (hm : 3.5 ≤ m) (h : m < m') (hm' : m' ≤ 7.5) :
    0 < (specLnRef c m' R - specLnRef c m R) - k * (specLnRef P m' R - specLnRef P m R) := by
  obtain ⟨h5, h7, ⟨a1, a2⟩, ⟨b1, b2⟩, c1, c2⟩ := g
  have A : StrictMonoOn (fun x => specLnRef c x R - k * specLnRef P x R) (Set.Icc 3.5 7.5) := by
    have p1 : StrictMonoOn (fun x => specLnRef c x R - k * specLnRef P x R) (Set.Icc 3.5 6) := by
      intro x hx y hy hxy
      have := grow_piece hk h5 h7 a1 a2 (by push_cast; exact (stressA_bounds _).2) hR
        (by push_cast; exact hx.1) hxy (by push_cast; exact hy.2)
      simp only; linarith
    have p2 : StrictMonoOn (fun x => specLnRef c x R - k * specLnRef P x R) (Set.Icc 6 7) := by
      intro x hx y hy hxy
      have := grow_piece hk h5 h7 b1 b2 (by push_cast; exact stressA_6) hR
        (by push_cast; exact hx.1) hxy (by push_cast; exact hy.2)
      simp only; linarith
    have p3 : StrictMonoOn (fun x => specLnRef c x R - k * specLnRef P x R) (Set.Icc 7 7.5) := by
      intro x hx y hy hxy
      have := grow_piece hk h5 h7 c1 c2 (by push_cast; exact stressA_7) hR
        (by push_cast; exact hx.1) hxy (by push_cast; exact hy.2)
      simp only; linarith
    have q := (p1.union p2 (isGreatest_Icc (by norm_num)) (isLeast_Icc (by norm_num)))
    rw [Set.Icc_union_Icc_eq_Icc (by norm_num) (by norm_num)] at q
    have q := (q.union p3 (isGreatest_Icc (by norm_num)) (isLeast_Icc (by norm_num)))
    rwa [Set.Icc_union_Icc_eq_Icc (by norm_num) (by norm_num)] at q
  have := A ⟨hm, by linarith⟩ ⟨by linarith, hm'⟩ h
  simp only at this; linarith

/-- growth of the log of the capped reference acceleration -/
theorem log_cap {x y : ℝ} (h : x ≤ y) :
    0 ≤ Real.log (max (980.665 * Real.exp y) 60 / 100) - Real.log (max (980.665 * Real.exp x) 60 / 100) ∧
    Real.log (max (980.665 * Real.exp y) 60 / 100) - Real.log (max (980.665 * Real.exp x) 60 / 100) ≤ y - x := by
  have hpos : ∀ r : ℝ, 0 < max (980.665 * Real.exp r) 60 / 100 :=
    fun r => div_pos (lt_max_of_lt_right (by norm_num)) (by norm_num)
  constructor
  · rw [sub_nonneg]
    exact Real.log_le_log (hpos x) (by gcongr)
  · have : max (980.665 * Real.exp y) 60 / 100 ≤ max (980.665 * Real.exp x) 60 / 100 * Real.exp (y - x) := by
      have e1 : 1 ≤ Real.exp (y - x) := Real.one_le_exp (by linarith)
      rw [div_mul_eq_mul_div]
      gcongr
      apply max_le
      · have : 980.665 * Real.exp y = 980.665 * Real.exp x * Real.exp (y - x) := by
          rw [mul_assoc, ← Real.exp_add]; congr 2; ring
        rw [this]
        exact mul_le_mul_of_nonneg_right (le_max_left _ _) (by positivity)
      · calc (60 : ℝ) ≤ max (980.665 * Real.exp x) 60 := le_max_right _ _
          _ ≤ _ := le_mul_of_one_le_right (by positivity) e1
    have h2 := Real.log_le_log (hpos y) this
    rw [Real.log_mul (hpos _).ne' (Real.exp_pos _).ne', Real.log_exp] at h2
    linarith

theorem site_sub' (T : ℚ) (v p p' : ℝ) :
    interpR (site.map fun q => ((q.period : ℝ), specSite q v p')) T -
      interpR (site.map fun q => ((q.period : ℝ), specSite q v p)) T =
    (Real.log (max p' 60 / 100) - Real.log (max p 60 / 100)) *
      interpR (site.map fun q => ((q.period : ℝ), specBnl q v)) T := by
  rw [Interp.sub, ← Interp.smul]
  congr 1
  apply List.map_congr_left
  intro c _
  simp only [specSite]
  congr 1; ring

theorem grow_bc {c : Row} (hc : c ∈ bc) {m m' R v : ℝ} (hR : 10 ≤ R)
    (hm : 3.5 ≤ m) (h : m < m') (hm' : m' ≤ 7.5) (hv : 250 ≤ v) :
    specLnRef c m R + interpR (site.map fun q => ((q.period : ℝ), specSite q v (specPga m R))) c.period <
    specLnRef c m' R + interpR (site.map fun q => ((q.period : ℝ), specSite q v (specPga m' R))) c.period := by
  obtain ⟨-, kc⟩ := bc_mag c hc
  obtain ⟨p0, -⟩ := bc_mag pgaRow (by unfold pgaRow; exact List.getElem_mem _)
  have hP := grow_lin le_rfl p0 hR hm h hm'
  have hC := grow_lin (by norm_num [bMax]) kc hR hm h hm'
  have hS := site_sub' c.period v (specPga m R) (specPga m' R)
  have hb0 : interpR (site.map fun q => ((q.period : ℝ), specBnl q v)) c.period ≤ 0 := by
    apply Interp.le_of (nodes_sorted site_sorted _) (by simp [site])
    intro p hp
    obtain ⟨q, hq, rfl⟩ := List.mem_map.1 hp
    exact (specBnl_bounds hq hv).2
  have hb1 : -(bMax : ℝ) ≤ interpR (site.map fun q => ((q.period : ℝ), specBnl q v)) c.period := by
    apply Interp.ge_of (nodes_sorted site_sorted _) (by simp [site])
    intro p hp
    obtain ⟨q, hq, rfl⟩ := List.mem_map.1 hp
    exact (specBnl_bounds hq hv).1
  simp only [Rat.cast_zero, zero_mul, sub_zero] at hP
  obtain ⟨hd0, hd1⟩ := log_cap (x := specLnRef pgaRow m R) (y := specLnRef pgaRow m' R) (by linarith)
  change 0 ≤ Real.log (max (specPga m' R) 60 / 100) - Real.log (max (specPga m R) 60 / 100) at hd0
  change Real.log (max (specPga m' R) 60 / 100) - Real.log (max (specPga m R) 60 / 100) ≤ _ at hd1
  set d := Real.log (max (specPga m' R) 60 / 100) - Real.log (max (specPga m R) 60 / 100)
  set b := interpR (site.map fun q => ((q.period : ℝ), specBnl q v)) c.period
  have hbm : (0 : ℝ) ≤ bMax := by norm_num [bMax]
  have u1 : d * -(bMax : ℝ) ≤ d * b := mul_le_mul_of_nonneg_left hb1 hd0
  have u2 : d * (bMax : ℝ) ≤ (specLnRef pgaRow m' R - specLnRef pgaRow m R) * bMax :=
    mul_le_mul_of_nonneg_right hd1 hbm
  linarith

/-- the PGA rows of the two tables at 1 km -/
theorem pga_rows : ∀ c, (c = pgaRow ∨ c = rock[2]'(by decide)) →
    c.period = 0 ∧ c.c_2 + c.c_9 + 2 * c.c_3 * 7.2 < 0 ∧ c.c_3 < 0 ∧ 0 < c.c_5 - c.c_9 := by
  rintro c (rfl | rfl) <;> decide +kernel

theorem stress_pga_falls {m m' : ℝ} (hm : 5.5 ≤ m) (h : m ≤ m') : stressAt 0 m' ≤ stressAt 0 m := by
  obtain ⟨q, r, t, hq⟩ : ∃ q r t, sf = q :: r :: t := ⟨_, _, _, rfl⟩
  have hq0 : q = sf[0]'(by decide) := (List.getElem_of_eq hq (i := 0) (by decide)).symm
  have hr0 : r = sf[1]'(by decide) := (List.getElem_of_eq hq (i := 1) (by decide)).symm
  have hqv : (q.period, q.delta, q.m_1, q.m_h) = (-1, 0.11, 2, 5.5) := by rw [hq0]; decide +kernel
  have hrv : (r.period, r.delta, r.m_1, r.m_h) = (0.0101, 0.15, 0.5, 5.5) := by rw [hr0]; decide +kernel
  simp only [Prod.mk.injEq] at hqv hrv
  obtain ⟨q1, q2, q3, q4⟩ := hqv
  obtain ⟨r1, r2, r3, r4⟩ := hrv
  have eq : ∀ x : ℝ, 5.5 ≤ x → specStress q x = stressA x * 0.16 := by
    intro x hx
    rw [specStress_eq, stressB, q2, q3, q4]
    push_cast
    rw [min_eq_left]
    · norm_num
    · rw [max_eq_left (by linarith)]; norm_num; linarith
  have er : ∀ x : ℝ, 5.5 ≤ x → specStress r x = stressA x * 0.2 := by
    intro x hx
    rw [specStress_eq, stressB, r2, r3, r4]
    push_cast
    rw [min_eq_left]
    · norm_num
    · rw [max_eq_left (by linarith)]; norm_num; linarith
  have ev : ∀ x : ℝ, 5.5 ≤ x → stressAt 0 x = stressA x * (0.04 / 1.0101 + 0.16) := by
    intro x hx
    unfold stressAt
    rw [hq]
    simp only [List.map_cons, interpR]
    rw [if_neg (by rw [q1]; norm_num), if_pos (by rw [r1]; norm_num), eq x hx, er x hx, q1, r1]
    push_cast; norm_num; ring
  rw [ev m hm, ev m' (hm.trans h)]
  exact mul_le_mul_of_nonneg_right (stressA_anti h) (by norm_num)

theorem pga_falls {c : Row} (hc : c = pgaRow ∨ c = rock[2]'(by decide)) {m m' R : ℝ} (hR : 0 < R)
    (hR1 : R ≤ 1) (hm : 7.2 ≤ m) (h : m < m') : specLnRef c m' R < specLnRef c m R := by
  obtain ⟨h0, h1, h2, h3⟩ := pga_rows c hc
  have h1' : ((c.c_2 + c.c_9 + 2 * c.c_3 * 7.2 : ℚ) : ℝ) < 0 := by exact_mod_cast h1
  have h2' : (c.c_3 : ℝ) < 0 := by exact_mod_cast h2
  have h3' : (0 : ℝ) < ((c.c_5 - c.c_9 : ℚ) : ℝ) := by exact_mod_cast h3
  push_cast at h1' h3'
  have hn : near R ≤ 0 := (min_le_left _ _).trans (Real.logb_nonpos (by norm_num) hR.le hR1)
  have hmid : mid R = 0 := by
    unfold mid
    apply max_eq_right
    have := (min_le_left (Real.logb 10 R) (Real.logb 10 70)).trans
      (Real.logb_nonpos (by norm_num) hR.le hR1)
    linarith
  have hs := stress_pga_falls (m := m) (m' := m') (by linarith) h.le
  have d := specLnRef_mag c m m' R
  have e : specRef c m' R - specRef c m R =
      (m' - m) * (c.c_2 + c.c_9 + c.c_3 * (m + m') + (c.c_5 - c.c_9) * near R) := by
    rw [specRef_eq c m hR, specRef_eq c m' hR, hmid, far_of hR (by linarith)]; ring
  rw [e, h0, Rat.cast_zero] at d
  have u1 : ((c.c_5 : ℝ) - c.c_9) * near R ≤ 0 := mul_nonpos_of_nonneg_of_nonpos h3'.le hn
  have u2 : (c.c_3 : ℝ) * (m + m') ≤ c.c_3 * (2 * 7.2) :=
    mul_le_mul_of_nonpos_left (by linarith) h2'.le
  have u3 : (m' - m) * (c.c_2 + c.c_9 + c.c_3 * (m + m') + (c.c_5 - c.c_9) * near R) < 0 :=
    mul_neg_of_pos_of_neg (by linarith) (by linarith)
  have u4 : Real.log 10 * ((m' - m) * (c.c_2 + c.c_9 + c.c_3 * (m + m') + (c.c_5 - c.c_9) * near R) +
      (stressAt 0 m' - stressAt 0 m)) < 0 := mul_neg_of_pos_of_neg log10_pos (by linarith)
  linarith

end AB06

open AB06

/-- On hard rock (`v_s30` given as 0) and on every site of 250 m/s or more, all 27 ordinates strictly
grow with magnitude from 3.5 to 7.5, at every distance of 10 km or more. -/
theorem C91_grows (s s' : Scenario) (m m' R v : ℝ) (hm : s.get "mag" = .num m)
    (hr : s.get "dist_rup" = .num R) (hv : s.get "v_s30" = .num v) (hm' : s'.get "mag" = .num m')
    (hr' : s'.get "dist_rup" = .num R) (hv' : s'.get "v_s30" = .num v)
    (h3 : 3.5 ≤ m) (h : m < m') (h7 : m' ≤ 7.5) (hR : 10 ≤ R) (hsite : v = 0 ∨ 250 ≤ v) :
    ∃ o o', Gives cls s o ∧ Gives cls s' o' ∧ o.lnResp.length = 27 ∧
      List.Forall₂ F.Drops o'.lnResp o.lnResp := by
  have hR0 : 0 < R := by linarith
  rcases hsite with rfl | hsite
  · obtain ⟨o, ho, h1⟩ := C21_rock s m R hR0 hm hr hv
    obtain ⟨o', ho', h2⟩ := C21_rock s' m' R hR0 hm' hr' hv'
    refine ⟨o, o', ho, ho', h1.length_eq.symm.trans (by decide +kernel), ?_⟩
    rw [List.forall₂_iff_get] at h1 h2 ⊢
    refine ⟨h2.1.symm.trans h1.1, fun i hi' hi => ?_⟩
    have hi0 : i < rock.length := h1.1 ▸ hi
    obtain ⟨a1, a2⟩ := h1.2 i hi0 hi
    obtain ⟨b1, b2⟩ := h2.2 i hi0 hi'
    refine ⟨b1, a1, ?_⟩
    have := grow_lin le_rfl (rock_mag _ (List.get_mem rock ⟨i, hi0⟩)) hR h3 h h7
    simp only [Rat.cast_zero, zero_mul, sub_zero] at this
    rw [a2, b2]; linarith
  · obtain ⟨o, ho, h1⟩ := C21_bc s m R v hR0 (by linarith) hm hr hv
    obtain ⟨o', ho', h2⟩ := C21_bc s' m' R v hR0 (by linarith) hm' hr' hv'
    refine ⟨o, o', ho, ho', h1.length_eq.symm.trans (by decide +kernel), ?_⟩
    rw [List.forall₂_iff_get] at h1 h2 ⊢
    refine ⟨h2.1.symm.trans h1.1, fun i hi' hi => ?_⟩
    have hi0 : i < bc.length := h1.1 ▸ hi
    obtain ⟨a1, a2⟩ := h1.2 i hi0 hi
    obtain ⟨b1, b2⟩ := h2.2 i hi0 hi'
    refine ⟨b1, a1, ?_⟩
    rw [a2, b2]
    exact grow_bc (List.get_mem bc ⟨i, hi0⟩) hR h3 h h7 hsite

example := C91_grows
  ⟨[("mag", .num 5), ("dist_rup", .num 20), ("v_s30", .num 400)], []⟩
  ⟨[("mag", .num 7), ("dist_rup", .num 20), ("v_s30", .num 400)], []⟩ 5 7 20 400
  (by simp [Scenario.get, Dict.get?]) (by simp [Scenario.get, Dict.get?]) (by simp [Scenario.get, Dict.get?])
  (by simp [Scenario.get, Dict.get?]) (by simp [Scenario.get, Dict.get?]) (by simp [Scenario.get, Dict.get?])
  (by norm_num) (by norm_num) (by norm_num) (by norm_num) (Or.inr (by norm_num))

/-- Within 1 km of the rupture the peak ground acceleration (the third ordinate) instead strictly
falls with magnitude from 7.2 on, on hard rock and on the B/C reference site of 760 m/s. -/
theorem C91_pga_falls_near (s s' : Scenario) (m m' R v : ℝ) (hm : s.get "mag" = .num m)
    (hr : s.get "dist_rup" = .num R) (hv : s.get "v_s30" = .num v) (hm' : s'.get "mag" = .num m')
    (hr' : s'.get "dist_rup" = .num R) (hv' : s'.get "v_s30" = .num v)
    (h3 : 7.2 ≤ m) (h : m < m') (hR : 0 < R) (hR1 : R ≤ 1) (hsite : v = 0 ∨ v = 760) :
    ∃ o o', Gives cls s o ∧ Gives cls s' o' ∧
      F.Drops (o.lnResp.getD 2 F.nan) (o'.lnResp.getD 2 F.nan) := by
  have key : ∀ (l : List Row) (hl : 2 < l.length) (y y' : List F), (l[2] = pgaRow ∨ l[2] = rock[2]'(by decide)) →
      List.Forall₂ (fun c (y : F) => y.ok ∧ y.val = specLnRef c m R) l y →
      List.Forall₂ (fun c (y : F) => y.ok ∧ y.val = specLnRef c m' R) l y' →
      F.Drops (y.getD 2 F.nan) (y'.getD 2 F.nan) := by
    intro l hl y y' hc h1 h2
    rw [List.forall₂_iff_get] at h1 h2
    have hi : 2 < y.length := h1.1 ▸ hl
    have hi' : 2 < y'.length := h2.1 ▸ hl
    obtain ⟨a1, a2⟩ := h1.2 2 hl hi
    obtain ⟨b1, b2⟩ := h2.2 2 hl hi'
    rw [List.getD_eq_getElem?_getD, List.getD_eq_getElem?_getD, List.getElem?_eq_getElem hi,
      List.getElem?_eq_getElem hi', Option.getD_some, Option.getD_some]
    simp only [List.get_eq_getElem] at a1 a2 b1 b2
    refine ⟨a1, b1, ?_⟩
    rw [a2, b2]
    exact pga_falls hc hR hR1 h3 h
  rcases hsite with rfl | rfl
  · obtain ⟨o, ho, h1⟩ := C21_rock s m R hR hm hr hv
    obtain ⟨o', ho', h2⟩ := C21_rock s' m' R hR hm' hr' hv'
    exact ⟨o, o', ho, ho', key rock (by decide) _ _ (Or.inr rfl) h1 h2⟩
  · obtain ⟨-, o, ho, h1⟩ := C21_760 s m R hR hm hr hv
    obtain ⟨-, o', ho', h2⟩ := C21_760 s' m' R hR hm' hr' hv'
    exact ⟨o, o', ho, ho', key bc (by decide) _ _ (Or.inl rfl) h1 h2⟩

example := C91_pga_falls_near
  ⟨[("mag", .num 7.3), ("dist_rup", .num 1), ("v_s30", .num 0)], []⟩
  ⟨[("mag", .num 8), ("dist_rup", .num 1), ("v_s30", .num 0)], []⟩ 7.3 8 1 0
  (by simp [Scenario.get, Dict.get?]) (by simp [Scenario.get, Dict.get?]) (by simp [Scenario.get, Dict.get?])
  (by simp [Scenario.get, Dict.get?]) (by simp [Scenario.get, Dict.get?]) (by simp [Scenario.get, Dict.get?])
  (by norm_num) (by norm_num) (by norm_num) (by norm_num) (Or.inl rfl)
