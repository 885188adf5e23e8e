import Verif.Models.BA18
import Verif.Bounds
import Mathlib.Data.Fin.VecNotation
import Mathlib.Tactic.FinCases

/-! # C40: Bayless & Abrahamson (2018) -/

open Bounds

set_option linter.unusedSimpArgs false

namespace BA18

theorem rows : ∀ c ∈ table, 1 ≤ c.A ∧ c.A < 2 ∧ c.B < 0 ∧ 0 < c.C ∧ c.D < 0 ∧ c.A + c.C < 3 ∧ 0 < c.tau ∧
    0 < c.phi_s2s ∧ 0 < c.phi_s ∧ 0 < c.sigma ∧ 0 < c.freq_hz := by decide +kernel

theorem sorted : (table.map (·.freq_hz)).Pairwise (· < ·) := by decide +kernel

theorem nodes_sorted (col : Row → ℚ) :
    Interp.Sorted (table.map fun c => ((c.freq_hz : ℝ), F.ofRat (col c))) := by
  have := sorted
  rw [List.pairwise_map] at this
  unfold Interp.Sorted
  rw [List.pairwise_map]
  exact this.imp fun {a b} h => show (a.freq_hz : ℝ) < b.freq_hz by exact_mod_cast h

theorem nodes_sorted' (col : Row → ℚ) :
    Interp.Sorted ((table.map fun c => ((c.freq_hz : ℝ), F.ofRat (col c))).map fun p => (p.1, p.2.val)) := by
  rw [List.map_map]
  have := nodes_sorted col
  unfold Interp.Sorted at *
  rw [List.pairwise_map] at *
  exact this

theorem ne_nil (col : Row → ℚ) :
    (table.map fun c => ((c.freq_hz : ℝ), F.ofRat (col c))) ≠ [] := by
  simp [table, table0]

theorem interp_ok (col : Row → ℚ) {x : F} (h : x.ok) : (interp col x).ok := by
  refine ⟨h, Interp.ok_of _ _ (nodes_sorted col) (ne_nil col) ?_⟩
  intro p hp
  obtain ⟨c, -, rfl⟩ := List.mem_map.1 hp
  simp

theorem interp_pos (col : Row → ℚ) (hc : ∀ c ∈ table, 0 < col c) (x : F) : 0 < (interp col x).val := by
  unfold interp npInterpF
  simp only
  rw [Interp.val_eq]
  refine Interp.pos_of (nodes_sorted' col) (by simp [table, table0]) ?_
  intro p hp
  simp only [List.map_map, List.mem_map, Function.comp_apply] at hp
  obtain ⟨c, h, rfl⟩ := hp
  simpa using hc c h

theorem interp_neg (col : Row → ℚ) (hc : ∀ c ∈ table, col c < 0) (x : F) : (interp col x).val < 0 := by
  unfold interp npInterpF
  simp only
  rw [Interp.val_eq]
  refine Interp.mem_of (fun y => y < 0) ?_ _ _ (nodes_sorted' col) (by simp [table, table0]) ?_
  · intro a b t ha hb h0 h1
    rcases eq_or_lt_of_le h1 with rfl | h1
    · linarith
    · nlinarith [mul_pos (sub_pos.2 h1) (neg_pos.2 ha), mul_nonneg h0 (neg_pos.2 hb).le]
  · intro p hp
    simp only [List.map_map, List.mem_map, Function.comp_apply] at hp
    obtain ⟨c, h, rfl⟩ := hp
    simpa using hc c h

-- otherwise tactics evaluate the table
attribute [local irreducible] interp

/-- the argument of the hyperbolic tangent, for a lower frequency `f` and a log-separation `d` -/
noncomputable def arg (f d : ℝ) : ℝ :=
  (interp Row.A (F.ofReal f)).val * Real.exp ((interp Row.B (F.ofReal f)).val * d)
    + (interp Row.C (F.ofReal f)).val * Real.exp ((interp Row.D (F.ofReal f)).val * d)

theorem raw_val (f g : ℝ) :
    (raw (F.ofReal f) (F.ofReal g)).val = Real.tanh (arg (min f g) |Real.log (f / g)|) := by
  have e : ∀ col, (interp col (F.min (F.ofReal f) (F.ofReal g))) = interp col (F.ofReal (min f g)) := by
    intro col
    congr 1
    ext <;> simp
  simp only [raw, fsimp, arg, e]

theorem raw_ok {f g : ℝ} (hf : 0 < f) (hg : 0 < g) : (raw (F.ofReal f) (F.ofReal g)).ok := by
  have h : ∀ col, (interp col (F.min (F.ofReal f) (F.ofReal g))).ok := fun col => interp_ok col (by simp)
  have : 0 < f / g := div_pos hf hg
  simp only [raw, fsimp, h, this, hg.ne']
  simpa using hg.ne'

theorem raw_comm {f g : ℝ} (_ : 0 < f) (_ : 0 < g) :
    (raw (F.ofReal f) (F.ofReal g)).val = (raw (F.ofReal g) (F.ofReal f)).val := by
  rw [raw_val, raw_val, min_comm]
  congr 2
  rw [← abs_neg, ← Real.log_inv, inv_div]

theorem arg_pos (f d : ℝ) : 0 < arg f d := by
  have h1 := interp_pos Row.A (fun c hc => by linarith [(rows c hc).1]) (F.ofReal f)
  have h2 := interp_pos Row.C (fun c hc => (rows c hc).2.2.2.1) (F.ofReal f)
  unfold arg
  positivity

theorem arg_anti (f : ℝ) : StrictAnti (arg f) := by
  have h1 := interp_pos Row.A (fun c hc => by linarith [(rows c hc).1]) (F.ofReal f)
  have h2 := interp_pos Row.C (fun c hc => (rows c hc).2.2.2.1) (F.ofReal f)
  have h3 := interp_neg Row.B (fun c hc => (rows c hc).2.2.1) (F.ofReal f)
  have h4 := interp_neg Row.D (fun c hc => (rows c hc).2.2.2.2.1) (F.ofReal f)
  intro d d' h
  unfold arg
  gcongr ?_ * Real.exp ?_ + ?_ * Real.exp ?_
  · exact mul_lt_mul_of_neg_left h h3
  · exact mul_lt_mul_of_neg_left h h4

theorem tanh_strictMono : StrictMono Real.tanh := by
  intro x y h
  rw [Real.tanh_eq_sinh_div_cosh, Real.tanh_eq_sinh_div_cosh,
    div_lt_div_iff₀ (Real.cosh_pos x) (Real.cosh_pos y)]
  have h1 := Real.sinh_sub y x
  have h2 : 0 < Real.sinh (y - x) := Real.sinh_pos_iff.2 (by linarith)
  linarith [mul_comm (Real.cosh y) (Real.sinh x)]
theorem tanh_pos {x : ℝ} (h : 0 < x) : 0 < Real.tanh x := by
  have := tanh_strictMono h
  rwa [Real.tanh_zero] at this

/-- the correlation of two positive frequencies at different places of the list -/
theorem corr_val {n : ℕ} (f : Fin n → ℝ) (hf : ∀ i, 0 < f i) {i j : Fin n} (h : i ≠ j) :
    (corr (fun i => F.ofReal (f i)) i j).val =
      Real.tanh (arg (min (f i) (f j)) |Real.log (f i / f j)|) := by
  simp only [corr, filled, if_neg h, if_neg (Ne.symm h), fsimp]
  rw [raw_comm (hf j) (hf i), raw_val]
  ring

end BA18

/-- The correlation matrix is defined and symmetric with unit diagonal for every list of
positive frequencies; every other entry lies strictly between 0 and 1 — also for two equal
frequencies. -/
theorem C40_corr {n : ℕ} (f : Fin n → ℝ) (hf : ∀ i, 0 < f i) (i j : Fin n) :
    (BA18.corr (fun i => F.ofReal (f i)) i j).ok ∧
    (BA18.corr (fun i => F.ofReal (f i)) i j).val = (BA18.corr (fun i => F.ofReal (f i)) j i).val ∧
    (i = j → (BA18.corr (fun i => F.ofReal (f i)) i j).val = 1) ∧
    (i ≠ j → 0 < (BA18.corr (fun i => F.ofReal (f i)) i j).val ∧
      (BA18.corr (fun i => F.ofReal (f i)) i j).val < 1) := by
  refine ⟨?_, ?_, ?_, ?_⟩
  · have h1 := BA18.raw_ok (hf i) (hf j)
    have h2 := BA18.raw_ok (hf j) (hf i)
    by_cases h : i = j
    · simp [BA18.corr, BA18.filled, h]
    · simp [BA18.corr, BA18.filled, h, Ne.symm h, h1, h2]
  · simp only [BA18.corr, fsimp]; ring
  · rintro rfl
    simp [BA18.corr, BA18.filled]
  · intro h
    rw [BA18.corr_val f hf h]
    exact ⟨BA18.tanh_pos (BA18.arg_pos _ _), Real.tanh_lt_one _⟩

/-- The further apart two frequencies are, the less they are correlated: at a fixed lower
frequency the correlation strictly decreases with the higher one. -/
theorem C40_decays {n : ℕ} (f : Fin n → ℝ) (hf : ∀ i, 0 < f i) (i j k : Fin n) (hij : i ≠ j)
    (hik : i ≠ k) (h1 : f i ≤ f j) (h2 : f j < f k) :
    (BA18.corr (fun i => F.ofReal (f i)) i k).val < (BA18.corr (fun i => F.ofReal (f i)) i j).val := by
  rw [BA18.corr_val f hf hij, BA18.corr_val f hf hik, min_eq_left h1, min_eq_left (h1.trans h2.le)]
  apply BA18.tanh_strictMono
  apply BA18.arg_anti
  have hi := hf i; have hj := hf j; have hk := hf k
  rw [abs_of_nonpos, abs_of_nonpos]
  · have : Real.log (f i / f k) < Real.log (f i / f j) :=
      Real.log_lt_log (by positivity) (by gcongr)
    linarith
  · exact Real.log_nonpos (by positivity) ((div_le_one (by positivity)).2 (by linarith))
  · exact Real.log_nonpos (by positivity) ((div_le_one (by positivity)).2 (by linarith))

/-- The covariance for given standard deviations: entry `(i, j)` is the correlation times the
two standard deviations; it is symmetric with the variances on the diagonal.  The component is
then ignored. -/
theorem C40_cov_std {n : ℕ} (f σ : Fin n → ℝ) (hf : ∀ i, 0 < f i) (component : Option String) :
    ∃ V, BA18.cov (fun i => F.ofReal (f i)) (some fun i => F.ofReal (σ i)) component = pure V ∧
      ∀ i j, (V i j).ok ∧
        (V i j).val = (BA18.corr (fun i => F.ofReal (f i)) i j).val * σ i * σ j ∧
        (V i j).val = (V j i).val ∧ (V i i).val = σ i ^ 2 := by
  refine ⟨_, rfl, fun i j => ?_⟩
  obtain ⟨h1, h2, -⟩ := C40_corr f hf i j
  obtain ⟨-, -, h3, -⟩ := C40_corr f hf i i
  simp only [fsimp, h1, h2, h3 rfl]
  exact ⟨by ring, by ring, by ring⟩

/-- The covariance for one of the published components: as with the interpolated standard
deviations, which are positive; so every entry is positive. -/
theorem C40_cov_component {n : ℕ} (f : Fin n → ℝ) (hf : ∀ i, 0 < f i) (k : String)
    (hk : k ∈ ["tau", "phi_s2s", "phi_s", "sigma"]) :
    ∃ V, BA18.cov (fun i => F.ofReal (f i)) none (some k) = pure V ∧
      ∃ σ : Fin n → ℝ, (∀ i, 0 < σ i) ∧ (∀ i j, f i = f j → σ i = σ j) ∧
      ∀ i j, (V i j).ok ∧ 0 < (V i j).val ∧
        (V i j).val = (BA18.corr (fun i => F.ofReal (f i)) i j).val * σ i * σ j := by
  have key : ∀ col : BA18.Row → ℚ, (∀ c ∈ BA18.table, 0 < col c) → BA18.column k = pure col →
      ∃ V, BA18.cov (fun i => F.ofReal (f i)) none (some k) = pure V ∧
      ∃ σ : Fin n → ℝ, (∀ i, 0 < σ i) ∧ (∀ i j, f i = f j → σ i = σ j) ∧
      ∀ i j, (V i j).ok ∧ 0 < (V i j).val ∧
        (V i j).val = (BA18.corr (fun i => F.ofReal (f i)) i j).val * σ i * σ j := by
    intro col hcol he
    refine ⟨fun i j => BA18.corr (fun i => F.ofReal (f i)) i j * BA18.interp col (F.ofReal (f j)) *
      BA18.interp col (F.ofReal (f i)), by simp [BA18.cov, BA18.stdOf, he],
      fun i => (BA18.interp col (F.ofReal (f i))).val, fun i => BA18.interp_pos col hcol _,
      fun i j h => by simp only [h], fun i j => ?_⟩
    obtain ⟨h1, -, h3, h4⟩ := C40_corr f hf i j
    have hp : 0 < (BA18.corr (fun i => F.ofReal (f i)) i j).val := by
      by_cases h : i = j
      · rw [h3 h]; norm_num
      · exact (h4 h).1
    have p1 := BA18.interp_pos col hcol (F.ofReal (f i))
    have p2 := BA18.interp_pos col hcol (F.ofReal (f j))
    have o1 := BA18.interp_ok col (x := F.ofReal (f i)) (by simp)
    have o2 := BA18.interp_ok col (x := F.ofReal (f j)) (by simp)
    simp only [fsimp, h1, o1, o2]
    exact ⟨by positivity, by ring⟩
  simp only [List.mem_cons, List.not_mem_nil, or_false] at hk
  rcases hk with rfl | rfl | rfl | rfl
  · exact key _ (fun c hc => (BA18.rows c hc).2.2.2.2.2.2.1) rfl
  · exact key _ (fun c hc => (BA18.rows c hc).2.2.2.2.2.2.2.1) rfl
  · exact key _ (fun c hc => (BA18.rows c hc).2.2.2.2.2.2.2.2.1) rfl
  · exact key _ (fun c hc => (BA18.rows c hc).2.2.2.2.2.2.2.2.2.1) rfl

/-- Neither standard deviations nor component: `NotImplementedError`, for every frequency list. -/
theorem C40_cov_neither {n : ℕ} (f : Fin n → F) :
    (BA18.cov f none none).res = .error .notImplemented := rfl

example : ∃ V, BA18.cov (n := 3) (fun i => F.ofReal (![0.5, 5, 5] i)) (some fun i => F.ofReal (![0.6, 0.7, 0.8] i))
    none = pure V ∧ ∀ i j, (V i j).ok ∧
      (V i j).val = (BA18.corr (fun i => F.ofReal (![0.5, 5, 5] i)) i j).val * ![0.6, 0.7, 0.8] i * ![0.6, 0.7, 0.8] j ∧
      (V i j).val = (V j i).val ∧ (V i i).val = (![0.6, 0.7, 0.8] : Fin 3 → ℝ) i ^ 2 :=
  C40_cov_std ![0.5, 5, 5] ![0.6, 0.7, 0.8] (by intro i; fin_cases i <;> norm_num) none

example : (BA18.corr (fun i => F.ofReal ((![0.5, 5, 6] : Fin 3 → ℝ) i)) 0 2).val <
    (BA18.corr (fun i => F.ofReal ((![0.5, 5, 6] : Fin 3 → ℝ) i)) 0 1).val :=
  C40_decays _ (by intro i; fin_cases i <;> norm_num) 0 1 2 (by decide) (by decide)
    (by norm_num) (show (5 : ℝ) < 6 by norm_num)

example : 0 < (BA18.corr (fun i => F.ofReal ((![5, 5] : Fin 2 → ℝ) i)) 0 1).val ∧
    (BA18.corr (fun i => F.ofReal ((![5, 5] : Fin 2 → ℝ) i)) 0 1).val < 1 :=
  (C40_corr ![5, 5] (by intro i; fin_cases i <;> norm_num) 0 1).2.2.2 (by decide)
