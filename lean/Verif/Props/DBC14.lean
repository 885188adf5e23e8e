import Verif.Models.DBC14

/-! # C57: Derras, Bard & Cotton (2014) -/

set_option linter.unusedSimpArgs false

namespace DBC14

/-- `Σ |w|`, computed in the rationals -/
def l1 : List ℚ → ℚ
  | [] => 0
  | q :: qs => |q| + l1 qs

/-- the largest and smallest `log10_resp` (line 78) a tanh layer can produce -/
def hi (c : Row) : ℚ := 0.5 * (c.b2 + l1 c.w2 + 1) * (c.respMax - c.respMin) + c.respMin
def lo (c : Row) : ℚ := 0.5 * (c.b2 - l1 c.w2 + 1) * (c.respMax - c.respMin) + c.respMin

theorem row_facts : ∀ c ∈ table, c.respMin ≤ c.respMax := by decide +kernel

/-- PGV in m/s -/
theorem head_facts : ∀ c ∈ table.take 1, hi c ≤ 0.064 ∧ -4.28 ≤ lo c := by decide +kernel

/-- accelerations in m/s² -/
theorem tail_facts : ∀ c ∈ table.drop 1, hi c ≤ 1.42 ∧ -5.04 ≤ lo c := by decide +kernel

theorem dot_bound (q : List ℚ) (x : List F) (hx : ∀ y ∈ x, |y.val| ≤ 1) :
    |(dot q x).val| ≤ l1 q := by
  induction q generalizing x with
  | nil => simp [dot, l1]
  | cons a q ih =>
    cases x with
    | nil =>
      simp only [dot, fsimp, abs_zero]
      have : ∀ l : List ℚ, 0 ≤ l1 l := by
        intro l; induction l with
        | nil => simp [l1]
        | cons a l ih => simp only [l1]; positivity
      exact_mod_cast this _
    | cons y x =>
      simp only [dot, l1, fsimp]
      push_cast
      have h1 := ih x (fun z hz => hx z (by simp [hz]))
      have h2 := hx y (by simp)
      calc |(a : ℝ) * y.val + (dot q x).val| ≤ |(a : ℝ) * y.val| + |(dot q x).val| := abs_add_le _ _
        _ ≤ |(a : ℝ)| * 1 + l1 q := by
          rw [abs_mul]
          exact add_le_add (mul_le_mul_of_nonneg_left h2 (abs_nonneg _)) h1
        _ = |(a : ℝ)| + l1 q := by ring

theorem dot_ok (q : List ℚ) (x : List F) (hx : ∀ y ∈ x, y.ok) : (dot q x).ok := by
  induction q generalizing x with
  | nil => simp [dot]
  | cons a q ih =>
    cases x with
    | nil => simp [dot]
    | cons y x =>
      simp only [dot, fsimp]
      exact ⟨hx y (by simp), ih x fun z hz => hx z (by simp [hz])⟩

theorem hidden_mem {p : List F} {y : F} (hy : y ∈ hidden p) :
    ∃ (b : ℚ) (w : List ℚ), y = F.tanh (b + dot w p) := by
  unfold hidden at hy
  rw [List.mem_iff_getElem] at hy
  obtain ⟨i, hi, rfl⟩ := hy
  rw [List.getElem_zipWith]
  exact ⟨_, _, rfl⟩

theorem hidden_bound {p : List F} {y : F} (hy : y ∈ hidden p) : |y.val| ≤ 1 := by
  obtain ⟨b, w, rfl⟩ := hidden_mem hy
  simp only [fsimp]
  exact (Real.abs_tanh_lt_one _).le

theorem inputs_ok {r m v z x : ℝ} (hr : 0 < r) (hv : 0 < v) :
    ∀ y ∈ inputs (F.ofReal r) (F.ofReal m) (F.ofReal v) (F.ofReal z) (F.ofReal x), y.ok := by
  intro y hy
  simp only [inputs, inputLimits, List.zipWith_cons_cons, List.zipWith_nil_left,
    List.mem_cons, List.not_mem_nil, or_false] at hy
  rcases hy with rfl | rfl | rfl | rfl | rfl <;> simp only [normalise, fsimp] <;>
    norm_num [hr, hv]

theorem hidden_ok {p : List F} (hp : ∀ y ∈ p, y.ok) {y : F} (hy : y ∈ hidden p) : y.ok := by
  obtain ⟨b, w, rfl⟩ := hidden_mem hy
  simp only [fsimp]
  exact dot_ok w p hp

theorem scale_pos (i : ℕ) : 0 < (scale i).val := by
  unfold scale; split <;> simp <;> norm_num

theorem scale_ok (i : ℕ) : (scale i).ok := by
  unfold scale; split <;> simp

theorem lnResp_ok (c : Row) (i : ℕ) {h : List F} (hh : ∀ y ∈ h, y.ok) : (lnResp c i h).ok := by
  simp only [lnResp, fsimp]
  exact ⟨⟨⟨dot_ok _ _ hh, scale_ok i, scale_pos i⟩, Or.inl (by norm_num)⟩, Real.rpow_pos_of_pos (by norm_num) _⟩

/-- the response in physical units, between the two powers of ten -/
theorem exp_lnResp_bounds {c : Row} (hc : c ∈ table) (i : ℕ) {h : List F}
    (hh : ∀ y ∈ h, |y.val| ≤ 1) :
    (10 : ℝ) ^ (lo c : ℝ) / (scale i).val ≤ Real.exp (lnResp c i h).val ∧
    Real.exp (lnResp c i h).val ≤ (10 : ℝ) ^ (hi c : ℝ) / (scale i).val := by
  have hs := scale_pos i
  have hr : (c.respMin : ℝ) ≤ c.respMax := by exact_mod_cast row_facts c hc
  have hd := abs_le.1 (dot_bound c.w2 h hh)
  set X : ℝ := 0.5 * (c.b2 + (dot c.w2 h).val + 1) * (c.respMax - c.respMin) + c.respMin with hX
  have e : Real.exp (lnResp c i h).val = (10 : ℝ) ^ X / (scale i).val := by
    simp only [lnResp, fsimp, ← hX]
    rw [Real.exp_log (Real.rpow_pos_of_pos (by norm_num) _), Real.rpow_sub (by norm_num),
      Real.rpow_logb (by norm_num) (by norm_num) hs]
  rw [e]
  have h1 : (lo c : ℝ) ≤ X := by
    rw [hX]; simp only [lo]; push_cast
    nlinarith [mul_nonneg (sub_nonneg.2 hr) (by linarith [hd.1] : 0 ≤ (dot c.w2 h).val + l1 c.w2)]
  have h2 : X ≤ (hi c : ℝ) := by
    rw [hX]; simp only [hi]; push_cast
    nlinarith [mul_nonneg (sub_nonneg.2 hr) (by linarith [hd.2] : 0 ≤ l1 c.w2 - (dot c.w2 h).val)]
  exact ⟨div_le_div_of_nonneg_right (Real.rpow_le_rpow_of_exponent_le (by norm_num) h1) hs.le,
    div_le_div_of_nonneg_right (Real.rpow_le_rpow_of_exponent_le (by norm_num) h2) hs.le⟩

/-- `10 ^ (a/b) ≤ x` from whole powers -/
theorem ten_rpow_le {a b : ℕ} (hb : b ≠ 0) {x : ℝ} (hx : 0 ≤ x) (h : (10 : ℝ) ^ a ≤ x ^ b) :
    (10 : ℝ) ^ ((a : ℝ) / b) ≤ x := by
  have h0 : (0 : ℝ) ≤ (10 : ℝ) ^ ((a : ℝ) / b) := (Real.rpow_pos_of_pos (by norm_num) _).le
  apply le_of_pow_le_pow_left₀ hb hx
  rw [← Real.rpow_natCast, ← Real.rpow_mul (by norm_num)]
  rw [div_mul_cancel₀ _ (by exact_mod_cast hb), Real.rpow_natCast]
  exact h

end DBC14

/-- DerrasBardCotton2014: whatever magnitude, depth and known mechanism, and whatever
positive distance and v_s30, the 64 responses are defined; the first one (PGV) lies between
0.005 and 117 cm/s and every acceleration (PGA and PSA) between 9e-7 and 2.7 g. -/
theorem C57_bounded (s : Scenario) (m r v z : ℝ) (t : String) (hr : 0 < r) (hv : 0 < v)
    (hsm : s.get "mag" = .num m) (hsr : s.get "dist_jb" = .num r) (hsv : s.get "v_s30" = .num v)
    (hsz : s.get "depth_hyp" = .num z) (hst : s.get "mechanism" = .str t)
    (hmem : t ∈ ["SS", "NS", "RS"]) :
    ∃ o, Gives DBC14.cls s o ∧ o.lnResp.length = 64 ∧ (∀ y ∈ o.lnResp, y.ok) ∧
      (0.005 ≤ Real.exp (o.resp 0) ∧ Real.exp (o.resp 0) ≤ 117) ∧
      ∀ i, 1 ≤ i → i < 64 → 9e-7 ≤ Real.exp (o.resp i) ∧ Real.exp (o.resp i) ≤ 2.7 := by
  obtain ⟨x, hg⟩ := DBC14.gives s hsm hsr hsv hsz hst hmem
  refine ⟨_, hg, by simp [DBC14.out, DBC14.table], ?_, ?_, ?_⟩
  · intro y hy
    simp only [DBC14.out, List.mem_mapIdx] at hy
    obtain ⟨i, hi, rfl⟩ := hy
    exact DBC14.lnResp_ok _ _ fun y hy => DBC14.hidden_ok (DBC14.inputs_ok hr hv) hy
  all_goals
    have key : ∀ i (hi : i < DBC14.table.length),
        (DBC14.out (F.ofReal r) (F.ofReal m) (F.ofReal v) (F.ofReal z) (F.ofReal x)).resp i =
        (DBC14.lnResp (DBC14.table[i]) i (DBC14.hidden (DBC14.inputs (F.ofReal r) (F.ofReal m)
          (F.ofReal v) (F.ofReal z) (F.ofReal x)))).val := by
      intro i hi
      simp [GmmOut.resp, DBC14.out, hi]
  · have hlen : 0 < DBC14.table.length := by simp [DBC14.table]
    rw [key 0 hlen]
    have hb := DBC14.exp_lnResp_bounds (List.getElem_mem hlen) 0
      (fun y hy => DBC14.hidden_bound (p := DBC14.inputs (F.ofReal r) (F.ofReal m)
          (F.ofReal v) (F.ofReal z) (F.ofReal x)) hy)
    have hf := DBC14.head_facts DBC14.table[0] (by simp [DBC14.table])
    have f1 : (DBC14.hi DBC14.table[0] : ℝ) ≤ ((0.064 : ℚ) : ℝ) := by exact_mod_cast hf.1
    have f2 : ((-4.28 : ℚ) : ℝ) ≤ (DBC14.lo DBC14.table[0] : ℝ) := by exact_mod_cast hf.2
    push_cast at f1 f2
    have hs : (DBC14.scale 0).val = 0.01 := by simp [DBC14.scale]
    rw [hs] at hb
    have u : (10 : ℝ) ^ (DBC14.hi DBC14.table[0] : ℝ) ≤ 1.17 :=
      (Real.rpow_le_rpow_of_exponent_le (by norm_num) f1).trans (by
        have := DBC14.ten_rpow_le (a := 8) (b := 125) (x := 1.17) (by norm_num) (by norm_num)
          (by norm_num)
        norm_num at this ⊢; exact this)
    have l : (0.00005 : ℝ) ≤ (10 : ℝ) ^ (DBC14.lo DBC14.table[0] : ℝ) := by
      refine le_trans ?_ (Real.rpow_le_rpow_of_exponent_le (by norm_num) f2)
      have := DBC14.ten_rpow_le (a := 107) (b := 25) (x := 20000) (by norm_num) (by norm_num)
          (by norm_num)
      rw [Real.rpow_neg (by norm_num), le_inv_comm₀ (by norm_num)
        (Real.rpow_pos_of_pos (by norm_num) _)]
      norm_num at this ⊢; exact this
    constructor
    · refine le_trans ?_ hb.1
      rw [le_div_iff₀ (by norm_num)]; norm_num at l ⊢; exact l
    · refine hb.2.trans ?_
      rw [div_le_iff₀ (by norm_num)]; norm_num at u ⊢; exact u
  · intro i h1 h64
    have hlen : i < DBC14.table.length := by
      rw [show DBC14.table.length = 64 from rfl]; exact h64
    rw [key i hlen]
    have hb := DBC14.exp_lnResp_bounds (List.getElem_mem hlen) i
      (fun y hy => DBC14.hidden_bound (p := DBC14.inputs (F.ofReal r) (F.ofReal m)
          (F.ofReal v) (F.ofReal z) (F.ofReal x)) hy)
    have hmemd : DBC14.table[i] ∈ DBC14.table.drop 1 := by
      rw [List.mem_iff_getElem]
      refine ⟨i - 1, by simp; omega, ?_⟩
      rw [List.getElem_drop]; congr 1; omega
    have hf := DBC14.tail_facts _ hmemd
    have f1 : (DBC14.hi DBC14.table[i] : ℝ) ≤ ((1.42 : ℚ) : ℝ) := by exact_mod_cast hf.1
    have f2 : ((-5.04 : ℚ) : ℝ) ≤ (DBC14.lo DBC14.table[i] : ℝ) := by exact_mod_cast hf.2
    push_cast at f1 f2
    have hs : (DBC14.scale i).val = 9.80665 := by
      simp only [DBC14.scale]; rw [if_neg (by omega)]; simp
    rw [hs] at hb
    have u : (10 : ℝ) ^ (DBC14.hi DBC14.table[i] : ℝ) ≤ 26.4 :=
      (Real.rpow_le_rpow_of_exponent_le (by norm_num) f1).trans (by
        have := DBC14.ten_rpow_le (a := 71) (b := 50) (x := 26.4) (by norm_num) (by norm_num)
          (by norm_num)
        norm_num at this ⊢; exact this)
    have l : (1 / 110000 : ℝ) ≤ (10 : ℝ) ^ (DBC14.lo DBC14.table[i] : ℝ) := by
      refine le_trans ?_ (Real.rpow_le_rpow_of_exponent_le (by norm_num) f2)
      have := DBC14.ten_rpow_le (a := 126) (b := 25) (x := 110000) (by norm_num) (by norm_num)
          (by norm_num)
      rw [Real.rpow_neg (by norm_num), le_inv_comm₀ (by norm_num)
        (Real.rpow_pos_of_pos (by norm_num) _)]
      norm_num at this ⊢; exact this
    constructor
    · refine le_trans ?_ hb.1
      rw [le_div_iff₀ (by norm_num)]; linarith
    · refine hb.2.trans ?_
      rw [div_le_iff₀ (by norm_num)]; linarith

/-- An unrecognised mechanism string is an error: `KeyError`, never a default. -/
theorem C57_unknown_mechanism (s : Scenario) (m r v z : ℝ) (t : String)
    (hsm : s.get "mag" = .num m) (hsr : s.get "dist_jb" = .num r) (hsv : s.get "v_s30" = .num v)
    (hsz : s.get "depth_hyp" = .num z) (hst : s.get "mechanism" = .str t)
    (hmem : t ∉ ["SS", "NS", "RS"]) :
    (DBC14.cls.new s).res = .error (.keyError "mechanism") := by
  apply fails_of (by decide +kernel) rfl
  · simp only [DBC14.cls, Decls.dbc14, List.forall_mem_cons]
    exact ⟨pass_num hsr, pass_num hsm, pass_num hsv, pass_num hsz, pass_cat hst,
      fun _ h => by simp at h⟩
  · intro d hd
    have hn : (Decls.dbc14.map Param.name).Nodup := by decide +kernel
    have h2 := Checked.num hd hn (name := "dist_jb") (by mem_tac) hsr
    have h3 := Checked.num hd hn (name := "v_s30") (by mem_tac) hsv
    have h5 := Checked.cat_other hd hn (name := "mechanism") (by mem_tac) hmem hst
    simp only [DBC14.cls, Py.pure_bind', Scenario.num_of h2, Scenario.num_of h3,
      Scenario.getAttr_of h5, Lit.toVal, DBC14.mechNumber, Val.isStr_none]
    rfl

example : ∃ o, Gives DBC14.cls ⟨[("mag", .num 6), ("dist_jb", .num 20), ("v_s30", .num 500),
    ("depth_hyp", .num 10), ("mechanism", .str "NS")], []⟩ o ∧ ∀ y ∈ o.lnResp, y.ok := by
  obtain ⟨o, h1, -, h2, -⟩ := C57_bounded ⟨[("mag", .num 6), ("dist_jb", .num 20),
    ("v_s30", .num 500), ("depth_hyp", .num 10), ("mechanism", .str "NS")], []⟩ 6 20 500 10 "NS"
    (by norm_num) (by norm_num)
    (by simp [Scenario.get, Dict.get?]) (by simp [Scenario.get, Dict.get?])
    (by simp [Scenario.get, Dict.get?]) (by simp [Scenario.get, Dict.get?])
    (by simp [Scenario.get, Dict.get?]) (by simp)
  exact ⟨o, h1, h2⟩
example : (DBC14.cls.new ⟨[("mag", .num 6), ("dist_jb", .num 20), ("v_s30", .num 500),
    ("depth_hyp", .num 10), ("mechanism", .str "U")], []⟩).res = .error (.keyError "mechanism") :=
  C57_unknown_mechanism _ 6 20 500 10 "U"
    (by simp [Scenario.get, Dict.get?]) (by simp [Scenario.get, Dict.get?])
    (by simp [Scenario.get, Dict.get?]) (by simp [Scenario.get, Dict.get?])
    (by simp [Scenario.get, Dict.get?]) (by simp)
