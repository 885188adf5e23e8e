import Mathlib.Analysis.Convex.Deriv
import Verif.Props.CY14

/-!
# C95: Chiou & Youngs (2014) and magnitude

The reference motion depends on magnitude through the magnitude scaling, the fictitious depth, the
style of faulting, the depth of the rupture relative to its average, the dip and the anelastic
term.  The slope of the first four is bounded from below, row by row, on a list of intervals.
-/

open Bounds

set_option linter.unusedSimpArgs false

namespace CY14

/-! ### Rational bounds of the slope on an interval of magnitudes -/

/-- a piece `[a, b]` on which the average depth of the rupture is `(p - q m)²` -/
structure Piece where
  a : ℚ
  b : ℚ
  p : ℚ
  q : ℚ

/-- lower bound of `sinh (2 (a - 4.5))` -/
def sinhLo (a : ℚ) : ℚ := (expLo (2 * (a - 4.5)) - 1 / expLo (2 * (a - 4.5))) / 2
/-- upper bound of `2 sinh x / cosh² x` with `x = 2 (m - 4.5)`, from `a` on -/
def bump (a : ℚ) : ℚ := if 1 ≤ sinhLo a then 2 * sinhLo a / (1 + sinhLo a ^ 2) else 1
/-- upper bound of `1 / cosh (2 (m - 4.5))` from `a` on -/
def sechHi (a : ℚ) : ℚ := 2 / (expLo (2 * (a - 4.5)) + 1 / expLo (2 * (a - 4.5)))
/-- lower bound of `1 / cosh (2 (m - 4.5))` up to `b` -/
def sechLo (b : ℚ) : ℚ := 2 / (expHi (2 * (b - 4.5)) + 1 / expHi (2 * (b - 4.5)))
/-- lower bound of `1 / (1 + exp z)` -/
def logistic (z : ℚ) : ℚ :=
  if z ≤ 0 then 1 / (1 + 1 / expLo (-z)) else if z ≤ 8 then 1 / (1 + expHi z) else 0
/-- upper bound of `c_5 sinh y / (t + c_5 cosh y)` -/
def thHi (c5 t y : ℚ) : ℚ := c5 * (expHi y ^ 2 - 1) / (2 * t * expHi y + c5 * (expHi y ^ 2 + 1))

/-- lower bound of the slope of the reference motion on a piece -/
def slopeLo (c : Row) (d c7 c7b t : ℚ) (P : Piece) : ℚ :=
  let ea := P.p - P.q * P.a
  let eb := P.p - P.q * P.b
  let w := c7 + c7b * (if 0 ≤ c7b then sechLo P.b else sechHi P.a)
  1.06 + (c.c_3 - 1.06) * logistic (c.c_n * (P.b - c.c_m)) -
    2.1 * c.c_6 * thHi c.c_5 t (c.c_6 * (P.b - c.c_hm)) - d * bump P.a -
    max c7b 0 * bump P.a * max (t - eb ^ 2) 0 - max (-c7b) 0 * bump P.a * max (ea ^ 2 - t) 0 +
    2 * P.q * (max w 0 * eb - max (-w) 0 * ea)

/-- the style-of-faulting coefficient that can fall with magnitude -/
def dOf (c : Row) (rs : Bool) : ℚ := if rs then 0 else c.c_1d

def piecesDef (rs : Bool) : List Piece :=
  if rs then [⟨4.5, 8.5, 0, 0⟩]
  else [⟨4.5, 5, 0, 0⟩, ⟨5, 5.15, 0, 0⟩, ⟨5.15, 5.25, 0, 0⟩, ⟨5.25, 5.35, 0, 0⟩, ⟨5.35, 5.5, 0, 0⟩,
    ⟨5.5, 5.75, 0, 0⟩, ⟨5.75, 6.25, 0, 0⟩, ⟨6.25, 7.15, 0, 0⟩, ⟨7.15, 8.5, 0, 0⟩]

/-- where the average depth of the rupture reaches zero -/
def surf (rs : Bool) : ℚ := if rs then 5.849 + 2.704 / 1.226 else 4.97 + 2.673 / 1.136

def piecesTor (rs : Bool) : List Piece :=
  if rs then [⟨4.5, 5.05, 2.704, 0⟩, ⟨5.05, 5.25, 2.704, 0⟩, ⟨5.25, 5.849, 2.704, 0⟩,
      ⟨5.849, surf true, 2.704 + 1.226 * 5.849, 1.226⟩, ⟨surf true, 8.5, 0, 0⟩]
  else [⟨4.5, 4.97, 2.673, 0⟩, ⟨4.97, 5.12, 2.673 + 1.136 * 4.97, 1.136⟩,
      ⟨5.12, 5.26, 2.673 + 1.136 * 4.97, 1.136⟩, ⟨5.26, 5.45, 2.673 + 1.136 * 4.97, 1.136⟩,
      ⟨5.45, 5.8, 2.673 + 1.136 * 4.97, 1.136⟩, ⟨5.8, 6.6, 2.673 + 1.136 * 4.97, 1.136⟩,
      ⟨6.6, surf false, 2.673 + 1.136 * 4.97, 1.136⟩, ⟨surf false, 8.5, 0, 0⟩]

/-- a piece is in order -/
def Piece.Ok (P : Piece) : Prop :=
  4.5 ≤ P.a ∧ P.a < P.b ∧ P.b ≤ 8.5 ∧ 0 ≤ P.q ∧ 0 ≤ P.p - P.q * P.b

instance (P : Piece) : Decidable P.Ok := by unfold Piece.Ok; infer_instance

theorem pieces_ok : ∀ rs, (∀ P ∈ piecesDef rs, P.Ok) ∧ ∀ P ∈ piecesTor rs, P.Ok := by decide +kernel

theorem slope_def : ∀ c ∈ table, ∀ rs, ∀ P ∈ piecesDef rs, 0 < slopeLo c (dOf c rs) 0 0 0 P := by
  decide +kernel
theorem slope_shallow : ∀ c ∈ table, ∀ rs, ∀ P ∈ piecesTor rs, 0 < slopeLo c (dOf c rs) c.c_7 c.c_7b 0 P := by
  decide +kernel
theorem slope_deep : ∀ c ∈ table, ∀ rs, ∀ P ∈ piecesTor rs, 0 < slopeLo c (dOf c rs) c.c_7 c.c_7b 20 P := by
  decide +kernel

/-! ### What the bounds say -/

theorem expLo_pos {q : ℚ} (h : 0 ≤ q) : (1 : ℝ) ≤ expLo q := by
  have : (1 : ℚ) ≤ expLo q := by
    unfold expLo
    apply one_le_pow₀
    simp only [taylor]
    have : (0 : ℚ) ≤ q / 8 := by positivity
    have h1 : ∀ x k : ℚ, 0 ≤ x → 0 < k → ∀ y : ℚ, 1 ≤ y → 1 ≤ 1 + x / k * y := by
      intro x k hx hk y hy
      have : 0 ≤ x / k * y := mul_nonneg (div_nonneg hx hk.le) (by linarith)
      linarith
    repeat' (first | exact le_refl _ | apply h1 _ _ this (by norm_num))
  exact_mod_cast this

section
variable {m : ℝ} {a b : ℚ}

theorem cast_arg (a : ℚ) : ((2 * (a - 4.5) : ℚ) : ℝ) = 2 * ((a : ℝ) - 4.5) := by push_cast; norm_num

theorem expLo_m (ha : 4.5 ≤ a) (hm : (a : ℝ) ≤ m) : (expLo (2 * (a - 4.5)) : ℝ) ≤ Real.exp (2 * (m - 4.5)) := by
  have h := expLo_le (q := 2 * (a - 4.5)) (by linarith)
  rw [cast_arg] at h
  exact h.trans (Real.exp_le_exp.2 (by linarith))

theorem m_expHi (hb : b ≤ 8.5) (hb' : 4.5 ≤ b) (hm : m ≤ b) :
    Real.exp (2 * (m - 4.5)) ≤ expHi (2 * (b - 4.5)) := by
  have h := le_expHi (q := 2 * (b - 4.5)) (by linarith) (by linarith)
  rw [cast_arg] at h
  exact (Real.exp_le_exp.2 (by linarith)).trans h

theorem inv_sub_mono {x y : ℝ} (hx : 0 < x) (h : x ≤ y) : x - 1 / x ≤ y - 1 / y := by
  have := one_div_le_one_div_of_le hx h
  linarith

theorem inv_add_mono {x y : ℝ} (hx : 1 ≤ x) (h : x ≤ y) : x + 1 / x ≤ y + 1 / y := by
  have h0 : 0 < x := by linarith
  have h1 : 0 < y := by linarith
  rw [← sub_nonneg]
  have : y + 1 / y - (x + 1 / x) = (y - x) * (1 - 1 / (x * y)) := by field_simp; ring
  rw [this]
  apply mul_nonneg (by linarith)
  rw [sub_nonneg, div_le_one (by positivity)]
  nlinarith

theorem sinhLo_le (ha : 4.5 ≤ a) (hm : (a : ℝ) ≤ m) : (sinhLo a : ℝ) ≤ Real.sinh (2 * (m - 4.5)) := by
  have h1 := expLo_pos (q := 2 * (a - 4.5)) (by linarith)
  have := inv_sub_mono (by linarith) (expLo_m ha hm)
  rw [Real.sinh_eq, Real.exp_neg, ← one_div]
  unfold sinhLo
  push_cast
  push_cast at this
  linarith

theorem cosh_sq (x : ℝ) : Real.cosh x ^ 2 = 1 + Real.sinh x ^ 2 := by rw [Real.cosh_sq]; ring

theorem bump_ge (ha : 4.5 ≤ a) (hm : (a : ℝ) ≤ m) :
    2 * Real.sinh (2 * (m - 4.5)) / Real.cosh (2 * (m - 4.5)) ^ 2 ≤ bump a := by
  rw [cosh_sq]
  have hs := sinhLo_le ha hm
  set S := Real.sinh (2 * (m - 4.5))
  have hp : 0 < 1 + S ^ 2 := by positivity
  unfold bump
  split
  · rename_i h1
    have h1' : (1 : ℝ) ≤ sinhLo a := by exact_mod_cast h1
    push_cast
    set s : ℝ := (sinhLo a : ℝ)
    rw [div_le_div_iff₀ hp (by positivity)]
    have : 0 ≤ (S - s) * (S * s - 1) := mul_nonneg (by linarith) (by nlinarith)
    nlinarith
  · push_cast
    rw [div_le_one hp]
    nlinarith [sq_nonneg (S - 1)]

theorem bump_nonneg (ha : 4.5 ≤ a) (hm : (a : ℝ) ≤ m) :
    0 ≤ 2 * Real.sinh (2 * (m - 4.5)) / Real.cosh (2 * (m - 4.5)) ^ 2 := by
  have ha' : (4.5 : ℝ) ≤ a := by
    have : ((4.5 : ℚ) : ℝ) ≤ (a : ℝ) := by exact_mod_cast ha
    norm_num at this ⊢; exact this
  have : 0 ≤ Real.sinh (2 * (m - 4.5)) := Real.sinh_nonneg_iff.2 (by linarith)
  positivity

theorem sech_le (ha : 4.5 ≤ a) (hm : (a : ℝ) ≤ m) : 1 / Real.cosh (2 * (m - 4.5)) ≤ sechHi a := by
  have h1 := expLo_pos (q := 2 * (a - 4.5)) (by linarith)
  have := inv_add_mono h1 (expLo_m ha hm)
  unfold sechHi
  rw [Real.cosh_eq, Real.exp_neg, ← one_div (Real.exp _)]
  push_cast
  push_cast at this h1
  rw [one_div_div]
  apply div_le_div_of_nonneg_left (by norm_num) _ this
  positivity

theorem sech_ge (hb : b ≤ 8.5) (hb' : 4.5 ≤ b) (h45 : 4.5 ≤ m) (hm : m ≤ b) :
    (sechLo b : ℝ) ≤ 1 / Real.cosh (2 * (m - 4.5)) := by
  have h1 : 1 ≤ Real.exp (2 * (m - 4.5)) := Real.one_le_exp (by linarith)
  have := inv_add_mono h1 (m_expHi hb hb' hm)
  unfold sechLo
  rw [Real.cosh_eq, Real.exp_neg, ← one_div (Real.exp _)]
  push_cast
  push_cast at this
  rw [one_div_div]
  apply div_le_div_of_nonneg_left (by norm_num) _ this
  positivity

end

theorem logistic_le {z : ℚ} {x : ℝ} (hx : x ≤ z) : (logistic z : ℝ) ≤ 1 / (1 + Real.exp x) := by
  have hp : 0 < 1 + Real.exp x := by positivity
  unfold logistic
  split
  · rename_i hz
    have h0 : 0 ≤ -z := by linarith
    have h1 := expLo_pos h0
    have h2 := expLo_le h0
    push_cast at h2 ⊢
    apply one_div_le_one_div_of_le hp
    have : Real.exp x ≤ 1 / Real.exp (-z) := by
      rw [one_div, ← Real.exp_neg, neg_neg]; exact Real.exp_le_exp.2 hx
    have := this.trans (one_div_le_one_div_of_le (by linarith) h2)
    linarith
  · rename_i hz
    split
    · rename_i h8
      have h2 := le_expHi (not_le.1 hz).le h8
      push_cast
      apply one_div_le_one_div_of_le hp
      have := (Real.exp_le_exp.2 hx).trans h2
      linarith
    · push_cast; positivity

theorem thHi_ge {c5 t y : ℚ} {x : ℝ} (h5 : 0 < c5) (ht : 0 ≤ t) (hx0 : 0 ≤ x) (hx : x ≤ y) (h8 : y ≤ 8) :
    c5 * Real.sinh x / (t + c5 * Real.cosh x) ≤ thHi c5 t y := by
  have h5' : (0 : ℝ) < c5 := by exact_mod_cast h5
  have ht' : (0 : ℝ) ≤ t := by exact_mod_cast ht
  have hy0 : 0 ≤ y := by
    have : (0 : ℝ) ≤ y := hx0.trans hx
    exact_mod_cast this
  have hu : Real.exp x ≤ expHi y := (Real.exp_le_exp.2 hx).trans (le_expHi hy0 h8)
  have hu1 : 1 ≤ Real.exp x := Real.one_le_exp hx0
  unfold thHi
  push_cast
  have e : c5 * Real.sinh x / (t + c5 * Real.cosh x) =
      c5 * (Real.exp x ^ 2 - 1) / (2 * t * Real.exp x + c5 * (Real.exp x ^ 2 + 1)) := by
    rw [Real.sinh_eq, Real.cosh_eq, Real.exp_neg]
    have := Real.exp_pos x
    field_simp
  rw [e]
  set u := Real.exp x
  set X : ℝ := (expHi y : ℝ)
  have hX : 0 < X := by linarith
  rw [div_le_div_iff₀ (by positivity) (by positivity)]
  have k1 : 0 ≤ (X - u) * (X * u + 1) := mul_nonneg (by linarith) (by nlinarith)
  have k2 : 0 ≤ X ^ 2 - u ^ 2 := by nlinarith
  have : 0 ≤ c5 * (2 * t * ((X - u) * (X * u + 1)) + 2 * c5 * (X ^ 2 - u ^ 2)) := by positivity
  nlinarith

/-! ### The slope -/

/-- the terms whose slope is bounded, on a piece -/
noncomputable def pieceF (c : Row) (d c7 c7b t p q m : ℝ) : ℝ :=
  1.06 * m + (1.06 - (c.c_3 : ℝ)) / c.c_n * Real.log (1 + Real.exp (c.c_n * (c.c_m - m))) -
    2.1 * Real.log (t + c.c_5 * Real.cosh (c.c_6 * (m - c.c_hm))) + d * (Real.cosh (2 * (m - 4.5)))⁻¹ +
    (c7 + c7b * (Real.cosh (2 * (m - 4.5)))⁻¹) * (t - (p - q * m) ^ 2)

noncomputable def pieceD (c : Row) (d c7 c7b t p q m : ℝ) : ℝ :=
  1.06 + (c.c_3 - 1.06) * (1 / (1 + Real.exp (c.c_n * (m - c.c_m)))) -
    2.1 * (c.c_6 * (c.c_5 * Real.sinh (c.c_6 * (m - c.c_hm)) / (t + c.c_5 * Real.cosh (c.c_6 * (m - c.c_hm))))) -
    d * (2 * Real.sinh (2 * (m - 4.5)) / Real.cosh (2 * (m - 4.5)) ^ 2) -
    c7b * (2 * Real.sinh (2 * (m - 4.5)) / Real.cosh (2 * (m - 4.5)) ^ 2) * (t - (p - q * m) ^ 2) +
    (c7 + c7b * (1 / Real.cosh (2 * (m - 4.5)))) * (2 * q * (p - q * m))

theorem piece_deriv (c : Row) (hn : (c.c_n : ℝ) ≠ 0) (h5 : (0 : ℝ) < c.c_5) (d c7 c7b p q m : ℝ) {t : ℝ}
    (ht : 0 ≤ t) : HasDerivAt (pieceF c d c7 c7b t p q) (pieceD c d c7 c7b t p q m) m := by
  have hs : HasDerivAt (fun m : ℝ => (Real.cosh (2 * (m - 4.5)))⁻¹)
      (-(2 * Real.sinh (2 * (m - 4.5)) / Real.cosh (2 * (m - 4.5)) ^ 2)) m := by
    have h1 : HasDerivAt (fun m : ℝ => 2 * (m - 4.5)) 2 m := by
      simpa using ((hasDerivAt_id m).sub_const (4.5 : ℝ)).const_mul 2
    exact (h1.cosh.inv (Real.cosh_pos _).ne').congr_deriv (by ring)
  have hl : HasDerivAt (fun m : ℝ => Real.log (1 + Real.exp (c.c_n * (c.c_m - m))))
      (-(c.c_n * (1 / (1 + Real.exp (c.c_n * (m - c.c_m)))))) m := by
    have h1 : HasDerivAt (fun m : ℝ => (c.c_n : ℝ) * (c.c_m - m)) (-c.c_n) m := by
      simpa using ((hasDerivAt_id m).const_sub (c.c_m : ℝ)).const_mul (c.c_n : ℝ)
    have h2 := ((h1.exp.const_add 1).log (by positivity))
    refine h2.congr_deriv ?_
    have e : Real.exp (c.c_n * (m - c.c_m)) = (Real.exp (c.c_n * (c.c_m - m)))⁻¹ := by
      rw [← Real.exp_neg]; congr 1; ring
    rw [e]
    have := Real.exp_pos ((c.c_n : ℝ) * (c.c_m - m))
    field_simp
    ring
  have hd : HasDerivAt (fun m : ℝ => Real.log (t + c.c_5 * Real.cosh (c.c_6 * (m - c.c_hm))))
      (c.c_6 * (c.c_5 * Real.sinh (c.c_6 * (m - c.c_hm)) / (t + c.c_5 * Real.cosh (c.c_6 * (m - c.c_hm))))) m := by
    have h1 : HasDerivAt (fun m : ℝ => (c.c_6 : ℝ) * (m - c.c_hm)) c.c_6 m := by
      simpa using ((hasDerivAt_id m).sub_const (c.c_hm : ℝ)).const_mul (c.c_6 : ℝ)
    have hp : 0 < t + c.c_5 * Real.cosh (c.c_6 * (m - c.c_hm)) := by
      have := mul_pos h5 (Real.cosh_pos ((c.c_6 : ℝ) * (m - c.c_hm)))
      linarith
    exact (((h1.cosh.const_mul (c.c_5 : ℝ)).const_add t).log hp.ne').congr_deriv (by ring)
  have hE : HasDerivAt (fun m : ℝ => t - (p - q * m) ^ 2) (2 * q * (p - q * m)) m := by
    have h1 : HasDerivAt (fun m : ℝ => p - q * m) (-q) m := by
      simpa using ((hasDerivAt_id m).const_mul q).const_sub p
    exact ((h1.pow 2).const_sub t).congr_deriv (by ring)
  have hT := ((hs.const_mul c7b).const_add c7).mul hE
  have := (((((hasDerivAt_id m).const_mul (1.06 : ℝ)).add (hl.const_mul ((1.06 - (c.c_3 : ℝ)) / c.c_n))).sub
    (hd.const_mul 2.1)).add (hs.const_mul d)).add hT
  refine this.congr_deriv ?_
  unfold pieceD
  have e : (1.06 - (c.c_3 : ℝ)) / c.c_n * (-(c.c_n * (1 / (1 + Real.exp (c.c_n * (m - c.c_m)))))) =
      (c.c_3 - 1.06) * (1 / (1 + Real.exp (c.c_n * (m - c.c_m)))) := by
    field_simp
    ring
  rw [e]
  ring

theorem mag_row_facts : ∀ c ∈ table, c.c_2 = 1.06 ∧ 1.06 < c.c_3 ∧ c.c_11 = 0 ∧ c.c_11b ≤ 0 ∧ c.c_1c ≤ 0 ∧
    0 ≤ c.c_1d ∧ c.c_hm ≤ 4.5 ∧ 0 < c.c_6 ∧ c.c_6 * (8.5 - c.c_hm) ≤ 8 ∧ 0 ≤ c.c_9 ∧ 0 ≤ c.c_9a ∧ c.c_9a ≤ 1 := by
  decide +kernel

theorem piece_slope {c : Row} (hc : c ∈ table) {d c7 c7b t : ℚ} {P : Piece} (hP : P.Ok) (hd : 0 ≤ d) (ht : 0 ≤ t)
    {m : ℝ} (h1 : (P.a : ℝ) ≤ m) (h2 : m ≤ P.b) :
    (slopeLo c d c7 c7b t P : ℝ) ≤ pieceD c d c7 c7b t P.p P.q m := by
  obtain ⟨pa, pab, pb, pq, pe⟩ := hP
  obtain ⟨-, f3, -, -, -, -, fh, f6, f8, -⟩ := mag_row_facts c hc
  obtain ⟨-, -, -, fn, f5, -⟩ := row_facts c hc
  have pa' : (4.5 : ℝ) ≤ P.a := by
    have : ((4.5 : ℚ) : ℝ) ≤ (P.a : ℝ) := by exact_mod_cast pa
    norm_num at this ⊢; exact this
  have fh' : (c.c_hm : ℝ) ≤ 4.5 := by
    have : (c.c_hm : ℝ) ≤ ((4.5 : ℚ) : ℝ) := by exact_mod_cast fh
    norm_num at this ⊢; exact this
  have f3' : (1.06 : ℝ) ≤ c.c_3 := by
    have : ((1.06 : ℚ) : ℝ) ≤ (c.c_3 : ℝ) := by exact_mod_cast f3.le
    norm_num at this ⊢; exact this
  have f6' : (0 : ℝ) < c.c_6 := by exact_mod_cast f6
  have fn' : (0 : ℝ) < c.c_n := by exact_mod_cast fn
  have hd' : (0 : ℝ) ≤ d := by exact_mod_cast hd
  have pq' : (0 : ℝ) ≤ P.q := by exact_mod_cast pq
  have pe' : (0 : ℝ) ≤ P.p - P.q * P.b := by exact_mod_cast pe
  have b1 : (logistic (c.c_n * (P.b - c.c_m)) : ℝ) ≤ 1 / (1 + Real.exp (c.c_n * (m - c.c_m))) := by
    apply logistic_le
    push_cast
    apply mul_le_mul_of_nonneg_left _ fn'.le
    linarith
  have b2 : c.c_5 * Real.sinh (c.c_6 * (m - c.c_hm)) / (t + c.c_5 * Real.cosh (c.c_6 * (m - c.c_hm))) ≤
      thHi c.c_5 t (c.c_6 * (P.b - c.c_hm)) := by
    apply thHi_ge f5 ht
    · exact mul_nonneg f6'.le (by linarith)
    · push_cast
      apply mul_le_mul_of_nonneg_left _ f6'.le
      linarith
    · refine le_trans ?_ f8
      exact mul_le_mul_of_nonneg_left (by linarith) f6.le
  have b3 := bump_ge (m := m) pa h1
  have b4 := bump_nonneg (m := m) pa h1
  set B := 2 * Real.sinh (2 * (m - 4.5)) / Real.cosh (2 * (m - 4.5)) ^ 2
  have eA : P.p - P.q * m ≤ P.p - P.q * P.a := by
    have := mul_le_mul_of_nonneg_left h1 pq'
    linarith
  have eB : (P.p : ℝ) - P.q * P.b ≤ P.p - P.q * m := by
    have := mul_le_mul_of_nonneg_left h2 pq'
    linarith
  set e := (P.p : ℝ) - P.q * m
  have he : 0 ≤ e := pe'.trans eB
  -- the depth term
  have b5 : max (c7b : ℝ) 0 * bump P.a * max (t - (P.p - P.q * P.b : ℝ) ^ 2) 0 +
      max (-c7b : ℝ) 0 * bump P.a * max ((P.p - P.q * P.a : ℝ) ^ 2 - t) 0 ≥ c7b * B * (t - e ^ 2) := by
    have hx : t - e ^ 2 ≤ max (t - (P.p - P.q * P.b : ℝ) ^ 2) 0 := by
      refine le_trans ?_ (le_max_left _ _)
      have := pow_le_pow_left₀ pe' eB 2
      linarith
    have hy : e ^ 2 - t ≤ max ((P.p - P.q * P.a : ℝ) ^ 2 - t) 0 := by
      refine le_trans ?_ (le_max_left _ _)
      have := pow_le_pow_left₀ he eA 2
      linarith
    have hx0 := le_max_right (t - (P.p - P.q * P.b : ℝ) ^ 2) 0
    have hy0 := le_max_right ((P.p - P.q * P.a : ℝ) ^ 2 - t) 0
    set X := max (t - (P.p - P.q * P.b : ℝ) ^ 2) 0
    set Y := max ((P.p - P.q * P.a : ℝ) ^ 2 - t) 0
    rcases le_total 0 (c7b : ℝ) with h | h
    · rw [max_eq_left h, max_eq_right (by linarith : -(c7b : ℝ) ≤ 0)]
      have k1 : c7b * B * (t - e ^ 2) ≤ c7b * B * X := mul_le_mul_of_nonneg_left hx (by positivity)
      have k2 : c7b * B * X ≤ c7b * bump P.a * X := by gcongr
      linarith
    · rw [max_eq_right h, max_eq_left (by linarith : 0 ≤ -(c7b : ℝ))]
      have hn : 0 ≤ -(c7b : ℝ) := by linarith
      have k1 : -c7b * B * (e ^ 2 - t) ≤ -c7b * B * Y := mul_le_mul_of_nonneg_left hy (by positivity)
      have k2 : -c7b * B * Y ≤ -c7b * bump P.a * Y := by gcongr
      linarith
  have pab' : (P.a : ℝ) ≤ P.b := by exact_mod_cast pab.le
  have b6 : ((c7 + c7b * (if 0 ≤ c7b then sechLo P.b else sechHi P.a) : ℚ) : ℝ) ≤
      c7 + c7b * (1 / Real.cosh (2 * (m - 4.5))) := by
    push_cast
    by_cases h : 0 ≤ c7b
    · rw [if_pos h]
      have h' : (0 : ℝ) ≤ c7b := by exact_mod_cast h
      have := sech_ge (m := m) pb (by linarith) (by linarith) h2
      have := mul_le_mul_of_nonneg_left this h'
      linarith
    · rw [if_neg h]
      have h' : (c7b : ℝ) ≤ 0 := by exact_mod_cast (not_le.1 h).le
      have := sech_le (m := m) pa h1
      have := mul_le_mul_of_nonpos_left this h'
      linarith
  set wq : ℚ := c7 + c7b * (if 0 ≤ c7b then sechLo P.b else sechHi P.a) with hwq
  set W := (c7 : ℝ) + c7b * (1 / Real.cosh (2 * (m - 4.5)))
  have b7 : 2 * P.q * (max (wq : ℝ) 0 * (P.p - P.q * P.b) - max (-wq : ℝ) 0 * (P.p - P.q * P.a)) ≤
      W * (2 * P.q * e) := by
    have k1 : (wq : ℝ) * (2 * P.q * e) ≤ W * (2 * P.q * e) :=
      mul_le_mul_of_nonneg_right b6 (by positivity)
    refine le_trans ?_ k1
    rcases le_total 0 (wq : ℝ) with h | h
    · rw [max_eq_left h, max_eq_right (by linarith : -(wq : ℝ) ≤ 0)]
      have := mul_le_mul_of_nonneg_left eB (mul_nonneg pq' h)
      linarith
    · rw [max_eq_right h, max_eq_left (by linarith : 0 ≤ -(wq : ℝ))]
      have := mul_le_mul_of_nonneg_left eA (mul_nonneg pq' (by linarith : 0 ≤ -(wq : ℝ)))
      linarith
  have c1 := mul_le_mul_of_nonneg_left b1 (by linarith : (0 : ℝ) ≤ c.c_3 - 1.06)
  have c2 := mul_le_mul_of_nonneg_left b2 f6'.le
  have c3 := mul_le_mul_of_nonneg_left b3 hd'
  have es : (slopeLo c d c7 c7b t P : ℝ) = 1.06 + (c.c_3 - 1.06) * logistic (c.c_n * (P.b - c.c_m)) -
      2.1 * (c.c_6 * thHi c.c_5 t (c.c_6 * (P.b - c.c_hm))) - d * bump P.a -
      (max (c7b : ℝ) 0 * bump P.a * max (t - (P.p - P.q * P.b : ℝ) ^ 2) 0 +
      max (-c7b : ℝ) 0 * bump P.a * max ((P.p - P.q * P.a : ℝ) ^ 2 - t) 0) +
      2 * P.q * (max (wq : ℝ) 0 * (P.p - P.q * P.b) - max (-wq : ℝ) 0 * (P.p - P.q * P.a)) := by
    simp only [slopeLo, ← hwq]
    push_cast
    norm_num
    ring
  have eD : pieceD c d c7 c7b t P.p P.q m = 1.06 + (c.c_3 - 1.06) * (1 / (1 + Real.exp (c.c_n * (m - c.c_m)))) -
      2.1 * (c.c_6 * (c.c_5 * Real.sinh (c.c_6 * (m - c.c_hm)) / (t + c.c_5 * Real.cosh (c.c_6 * (m - c.c_hm))))) -
      d * B - c7b * B * (t - e ^ 2) + W * (2 * P.q * e) := rfl
  rw [es, eD]
  clear es eD
  clear_value B W e
  linarith

/-! ### From pieces to the whole range -/

/-- the average depth of the rupture -/
noncomputable def etor (rs : Bool) (m : ℝ) : ℝ := (calcDepthTor (F.ofReal m) rs).val

/-- `cosh (2 max(m - 4.5, 0))` -/
noncomputable def cs (m : ℝ) : ℝ := Real.cosh (2 * max (m - 4.5) 0)

/-- magnitude scaling with its linear part taken at magnitude zero -/
noncomputable def bend (c : Row) (m : ℝ) : ℝ :=
  1.06 * m + (1.06 - (c.c_3 : ℝ)) / c.c_n * Real.log (1 + Real.exp (c.c_n * (c.c_m - m)))

/-- the terms whose slope is bounded -/
noncomputable def core (c : Row) (d c7 c7b t r : ℝ) (rs : Bool) (m : ℝ) : ℝ :=
  bend c m - 2.1 * Real.log (r + H c m) + d * (cs m)⁻¹ + (c7 + c7b * (cs m)⁻¹) * (t - etor rs m)

theorem glueMono {f : ℝ → ℝ} {a b c : ℝ} (h1 : StrictMonoOn f (Set.Icc a b))
    (h2 : StrictMonoOn f (Set.Icc b c)) (hab : a ≤ b) (hbc : b ≤ c) : StrictMonoOn f (Set.Icc a c) := by
  rw [← Set.Icc_union_Icc_eq_Icc hab hbc]
  exact h1.union h2 (isGreatest_Icc hab) (isLeast_Icc hbc)

/-- the pieces follow each other from `a` to `b` -/
def Chain : ℚ → List Piece → ℚ → Prop
  | a, [], b => a = b
  | a, P :: l, b => P.a = a ∧ P.a ≤ P.b ∧ Chain P.b l b

instance Chain.dec : ∀ a l b, Decidable (Chain a l b)
  | a, [], b => inferInstanceAs (Decidable (a = b))
  | a, P :: l, b => by
    have := Chain.dec P.b l b
    unfold Chain; infer_instance

theorem Chain.le {l : List Piece} : ∀ {a b : ℚ}, Chain a l b → a ≤ b := by
  induction l with
  | nil => intro a b h; exact le_of_eq h
  | cons P l ih => rintro a b ⟨rfl, h1, h2⟩; exact h1.trans (ih h2)

theorem chain_mono {f : ℝ → ℝ} {l : List Piece} : ∀ {a b : ℚ}, Chain a l b →
    (∀ P ∈ l, StrictMonoOn f (Set.Icc P.a P.b)) → StrictMonoOn f (Set.Icc a b) := by
  induction l with
  | nil =>
    intro a b h _
    obtain rfl : a = b := h
    rw [Set.Icc_self]
    exact Set.subsingleton_singleton.strictMonoOn f
  | cons P l ih =>
    rintro a b ⟨rfl, h1, h2⟩ H
    refine glueMono (H P (by simp)) (ih h2 fun Q hQ => H Q (by simp [hQ])) (by exact_mod_cast h1)
      (by exact_mod_cast h2.le)

theorem chains : ∀ rs, Chain 4.5 (piecesDef rs) 8.5 ∧ Chain 4.5 (piecesTor rs) 8.5 := by decide +kernel

theorem cs_high {m : ℝ} (h : 4.5 ≤ m) : cs m = Real.cosh (2 * (m - 4.5)) := by
  unfold cs; rw [max_eq_left (by linarith)]

theorem cs_low {m : ℝ} (h : m ≤ 4.5) : cs m = 1 := by
  unfold cs; rw [max_eq_right (by linarith)]; simp

theorem H_high {c : Row} {m : ℝ} (h : (c.c_hm : ℝ) ≤ m) : H c m = c.c_5 * Real.cosh (c.c_6 * (m - c.c_hm)) := by
  unfold H; rw [max_eq_left (by linarith)]

theorem H_low {c : Row} {m : ℝ} (h : m ≤ c.c_hm) : H c m = c.c_5 := by
  unfold H; rw [max_eq_right (by linarith)]; simp

theorem hm_le {c : Row} (hc : c ∈ table) : (c.c_hm : ℝ) ≤ 4.5 := by
  obtain ⟨-, -, -, -, -, -, fh, -⟩ := mag_row_facts c hc
  have : (c.c_hm : ℝ) ≤ ((4.5 : ℚ) : ℝ) := by exact_mod_cast fh
  norm_num at this ⊢; exact this

/-- one piece -/
theorem core_piece {c : Row} (hc : c ∈ table) {d c7 c7b t : ℚ} (rs : Bool) {P : Piece} (hP : P.Ok) (hd : 0 ≤ d)
    (ht : 0 ≤ t) (hs : 0 < slopeLo c d c7 c7b t P)
    (hE : ∀ m : ℝ, (P.a : ℝ) ≤ m → m ≤ P.b → (c7 + c7b * (cs m)⁻¹) * (t - etor rs m) =
      (c7 + c7b * (cs m)⁻¹) * (t - ((P.p : ℝ) - P.q * m) ^ 2)) :
    StrictMonoOn (core c d c7 c7b t t rs) (Set.Icc P.a P.b) := by
  obtain ⟨-, -, -, fn, f5, -⟩ := row_facts c hc
  have fn' : (0 : ℝ) < c.c_n := by exact_mod_cast fn
  have f5' : (0 : ℝ) < c.c_5 := by exact_mod_cast f5
  have ht' : (0 : ℝ) ≤ t := by exact_mod_cast ht
  have pa' : (4.5 : ℝ) ≤ P.a := by
    have : ((4.5 : ℚ) : ℝ) ≤ (P.a : ℝ) := by exact_mod_cast hP.1
    norm_num at this ⊢; exact this
  have hs' : (0 : ℝ) < slopeLo c d c7 c7b t P := by exact_mod_cast hs
  have mono : StrictMonoOn (pieceF c d c7 c7b t P.p P.q) (Set.Icc P.a P.b) :=
    strictMonoOn_Icc (fun x _ => piece_deriv c fn'.ne' f5' d c7 c7b P.p P.q x ht')
      fun x hx => hs'.trans_le (piece_slope hc hP hd ht hx.1.le hx.2.le)
  refine mono.congr fun m hm => ?_
  have h45 : 4.5 ≤ m := pa'.trans hm.1
  unfold core pieceF bend
  rw [hE m hm.1 hm.2, cs_high h45, H_high ((hm_le hc).trans h45)]

theorem low_slope : ∀ c ∈ table, 0 < 1.06 - 2.1 * (c.c_6 * thHi c.c_5 0 (c.c_6 * (4.5 - c.c_hm))) ∧
    0 < 1.06 - 2.1 * (c.c_6 * thHi c.c_5 20 (c.c_6 * (4.5 - c.c_hm))) := by decide +kernel

theorem bend_strictMono {c : Row} (hc : c ∈ table) : StrictMono (bend c) := by
  obtain ⟨-, f3, -⟩ := mag_row_facts c hc
  obtain ⟨-, -, -, fn, -⟩ := row_facts c hc
  have fn' : (0 : ℝ) < c.c_n := by exact_mod_cast fn
  have f3' : (1.06 : ℝ) ≤ c.c_3 := by
    have : ((1.06 : ℚ) : ℝ) ≤ (c.c_3 : ℝ) := by exact_mod_cast f3.le
    norm_num at this ⊢; exact this
  intro m m' h
  unfold bend
  have h1 : Real.log (1 + Real.exp (c.c_n * (c.c_m - m'))) ≤ Real.log (1 + Real.exp (c.c_n * (c.c_m - m))) := by
    apply Real.log_le_log (by positivity)
    gcongr
  have h2 : (1.06 - (c.c_3 : ℝ)) / c.c_n ≤ 0 := div_nonpos_of_nonpos_of_nonneg (by linarith) fn'.le
  have := mul_le_mul_of_nonpos_left h1 h2
  linarith

theorem etor_low (rs : Bool) {m : ℝ} (h : m ≤ 4.5) : etor rs m = etor rs 4.5 := by
  unfold etor calcDepthTor
  cases rs <;> simp only [fsimp, if_true, if_false, Bool.false_eq_true]
  · rw [max_eq_right (by linarith : m - 4.970 ≤ 0), max_eq_right (by norm_num : (4.5 : ℝ) - 4.970 ≤ 0)]
  · rw [max_eq_right (by linarith : m - 5.849 ≤ 0), max_eq_right (by norm_num : (4.5 : ℝ) - 5.849 ≤ 0)]

/-- up to magnitude 4.5 -/
theorem core_low {c : Row} (hc : c ∈ table) (d c7 c7b : ℝ) {t : ℚ} (ht : t = 0 ∨ t = 20) (rs : Bool) :
    StrictMonoOn (core c d c7 c7b t t rs) (Set.Iic 4.5) := by
  obtain ⟨-, -, -, fn, f5, -⟩ := row_facts c hc
  obtain ⟨-, f3, -, -, -, -, fh, f6, f8, -⟩ := mag_row_facts c hc
  have fn' : (0 : ℝ) < c.c_n := by exact_mod_cast fn
  have f5' : (0 : ℝ) < c.c_5 := by exact_mod_cast f5
  have f6' : (0 : ℝ) < c.c_6 := by exact_mod_cast f6
  have f3' : (1.06 : ℝ) ≤ c.c_3 := by
    have : ((1.06 : ℚ) : ℝ) ≤ (c.c_3 : ℝ) := by exact_mod_cast f3.le
    norm_num at this ⊢; exact this
  have hh := hm_le hc
  have ht0 : 0 ≤ t := by rcases ht with rfl | rfl <;> norm_num
  have ht' : (0 : ℝ) ≤ t := by exact_mod_cast ht0
  have hs : (0 : ℚ) < 1.06 - 2.1 * (c.c_6 * thHi c.c_5 t (c.c_6 * (4.5 - c.c_hm))) := by
    rcases ht with rfl | rfl
    · exact (low_slope c hc).1
    · exact (low_slope c hc).2
  have hs' : (0 : ℝ) < 1.06 - 2.1 * (c.c_6 * thHi c.c_5 t (c.c_6 * (4.5 - c.c_hm))) := by
    have : (0 : ℝ) < ((1.06 - 2.1 * (c.c_6 * thHi c.c_5 t (c.c_6 * (4.5 - c.c_hm))) : ℚ) : ℝ) := by exact_mod_cast hs
    push_cast at this; norm_num at this ⊢; linarith
  have val : ∀ m : ℝ, m ≤ 4.5 → core c d c7 c7b t t rs m = bend c m - 2.1 * Real.log (t + H c m) +
      (d + (c7 + c7b) * (t - etor rs 4.5)) := by
    intro m hm
    unfold core
    rw [cs_low hm, etor_low rs hm]
    simp
    ring
  have A : StrictMonoOn (core c d c7 c7b t t rs) (Set.Iic (c.c_hm : ℝ)) := by
    intro m hm m' hm' h
    rw [val m (le_trans hm hh), val m' (le_trans hm' hh), H_low hm, H_low hm']
    have := bend_strictMono hc h
    linarith
  have B : StrictMonoOn (core c d c7 c7b t t rs) (Set.Icc (c.c_hm : ℝ) 4.5) := by
    have mono : StrictMonoOn (pieceF c 0 0 0 t 0 0) (Set.Icc (c.c_hm : ℝ) 4.5) := by
      refine strictMonoOn_Icc (fun x _ => piece_deriv c fn'.ne' f5' 0 0 0 0 0 x ht') fun x hx => ?_
      have b2 : c.c_5 * Real.sinh (c.c_6 * (x - c.c_hm)) / (t + c.c_5 * Real.cosh (c.c_6 * (x - c.c_hm))) ≤
          thHi c.c_5 t (c.c_6 * (4.5 - c.c_hm)) := by
        apply thHi_ge f5 ht0
        · exact mul_nonneg f6'.le (by linarith [hx.1])
        · push_cast
          apply mul_le_mul_of_nonneg_left _ f6'.le
          have := hx.2
          norm_num at this ⊢
          linarith
        · refine le_trans ?_ f8
          exact mul_le_mul_of_nonneg_left (by linarith) f6.le
      have b3 := mul_le_mul_of_nonneg_left b2 f6'.le
      have b4 : 0 ≤ (c.c_3 - 1.06) * (1 / (1 + Real.exp (c.c_n * (x - c.c_m)))) :=
        mul_nonneg (by linarith) (by positivity)
      unfold pieceD
      simp only [zero_mul, add_zero, mul_zero, sub_zero]
      linarith
    intro m hm m' hm' h
    rw [val m hm.2, val m' hm'.2, H_high hm.1, H_high hm'.1]
    have := mono hm hm' h
    unfold pieceF at this
    unfold bend
    simp only [zero_mul, add_zero] at this
    linarith
  have := A.union B isGreatest_Iic (isLeast_Icc hh)
  rwa [Set.Iic_union_Icc_eq_Iic hh] at this

theorem core_mono {c : Row} (hc : c ∈ table) {d c7 c7b t : ℚ} (rs : Bool) (hd : 0 ≤ d) (ht : t = 0 ∨ t = 20)
    {l : List Piece} (hl : Chain 4.5 l 8.5) (hP : ∀ P ∈ l, P.Ok) (hs : ∀ P ∈ l, 0 < slopeLo c d c7 c7b t P)
    (hE : ∀ P ∈ l, ∀ m : ℝ, (P.a : ℝ) ≤ m → m ≤ P.b → (c7 + c7b * (cs m)⁻¹) * (t - etor rs m) =
      (c7 + c7b * (cs m)⁻¹) * (t - ((P.p : ℝ) - P.q * m) ^ 2)) :
    StrictMonoOn (core c d c7 c7b t t rs) (Set.Iic 8.5) := by
  have ht0 : 0 ≤ t := by rcases ht with rfl | rfl <;> norm_num
  have B : StrictMonoOn (core c d c7 c7b t t rs) (Set.Icc 4.5 8.5) := by
    have := chain_mono hl fun P h => core_piece hc rs (hP P h) hd ht0 (hs P h) (hE P h)
    have e1 : ((4.5 : ℚ) : ℝ) = 4.5 := by norm_num
    have e2 : ((8.5 : ℚ) : ℝ) = 8.5 := by norm_num
    rwa [e1, e2] at this
  have := (core_low hc d c7 c7b ht rs).union B isGreatest_Iic (isLeast_Icc (by norm_num))
  rwa [Set.Iic_union_Icc_eq_Iic (by norm_num)] at this

/-- on which branch of the average depth a piece lies -/
theorem tor_branch : ∀ rs, ∀ P ∈ piecesTor rs,
    (P.q = 0 ∧ P.p = (if rs then 2.704 else 2.673) ∧ P.b ≤ (if rs then 5.849 else 4.97)) ∨
    (P.q = (if rs then 1.226 else 1.136) ∧ P.p = (if rs then 2.704 + 1.226 * 5.849 else 2.673 + 1.136 * 4.97) ∧
      (if rs then 5.849 else 4.97) ≤ P.a ∧ P.b ≤ surf rs) ∨
    (P.q = 0 ∧ P.p = 0 ∧ surf rs ≤ P.a) := by decide +kernel

theorem etor_piece (rs : Bool) {P : Piece} (hP : P ∈ piecesTor rs) {m : ℝ} (h1 : (P.a : ℝ) ≤ m) (h2 : m ≤ P.b) :
    etor rs m = ((P.p : ℝ) - P.q * m) ^ 2 := by
  have hb := tor_branch rs P hP
  have ha : (4.5 : ℝ) ≤ P.a := by
    have : ((4.5 : ℚ) : ℝ) ≤ (P.a : ℝ) := by exact_mod_cast ((pieces_ok rs).2 P hP).1
    norm_num at this ⊢; exact this
  unfold etor calcDepthTor
  rcases hb with ⟨q, p, b⟩ | ⟨q, p, a, b⟩ | ⟨q, p, a⟩
  · have b' : m ≤ ((if rs then 5.849 else 4.97 : ℚ) : ℝ) := h2.trans (by exact_mod_cast b)
    rw [q, p]
    cases rs <;> simp only [fsimp, if_true, if_false, Bool.false_eq_true] at b' ⊢ <;> norm_num at b' ⊢
    · rw [max_eq_right (by linarith : m - 497 / 100 ≤ 0)]; norm_num
    · rw [max_eq_right (by linarith : m - 5849 / 1000 ≤ 0)]; norm_num
  · have a' : ((if rs then 5.849 else 4.97 : ℚ) : ℝ) ≤ m := le_trans (by exact_mod_cast a) h1
    have b' : m ≤ (surf rs : ℝ) := h2.trans (by exact_mod_cast b)
    rw [q, p]
    cases rs <;> simp only [surf, fsimp, if_true, if_false, Bool.false_eq_true] at a' b' ⊢ <;> norm_num at a' b' ⊢
    · rw [max_eq_left (by linarith : 0 ≤ m - 497 / 100), max_eq_left (by linarith)]; ring
    · rw [max_eq_left (by linarith : 0 ≤ m - 5849 / 1000), max_eq_left (by linarith)]; ring
  · have a' : (surf rs : ℝ) ≤ m := le_trans (by exact_mod_cast a) h1
    rw [q, p]
    cases rs <;> simp only [surf, fsimp, if_true, if_false, Bool.false_eq_true] at a' ⊢ <;> norm_num at a' ⊢
    · rw [max_eq_left (by linarith : 0 ≤ m - 497 / 100)]; linarith
    · rw [max_eq_left (by linarith : 0 ≤ m - 5849 / 1000)]; linarith

theorem d_nonneg {c : Row} (hc : c ∈ table) (rs : Bool) : 0 ≤ dOf c rs := by
  obtain ⟨-, -, -, -, -, h, -⟩ := mag_row_facts c hc
  unfold dOf; split <;> simp [h]

theorem core_default {c : Row} (hc : c ∈ table) (rs : Bool) :
    StrictMonoOn (core c (dOf c rs : ℚ) 0 0 0 0 rs) (Set.Iic 8.5) := by
  have := core_mono hc (d := dOf c rs) (c7 := 0) (c7b := 0) (t := 0) rs (d_nonneg hc rs) (Or.inl rfl)
    (chains rs).1 (pieces_ok rs).1 (slope_def c hc rs) (by intros; simp)
  simpa using this

theorem core_shallow {c : Row} (hc : c ∈ table) (rs : Bool) :
    StrictMonoOn (core c (dOf c rs : ℚ) c.c_7 c.c_7b 0 0 rs) (Set.Iic 8.5) := by
  have := core_mono hc (d := dOf c rs) (c7 := c.c_7) (c7b := c.c_7b) (t := 0) rs (d_nonneg hc rs) (Or.inl rfl)
    (chains rs).2 (pieces_ok rs).2 (slope_shallow c hc rs)
    (fun P hP m h1 h2 => by rw [etor_piece rs hP h1 h2])
  simpa using this

theorem core_deep {c : Row} (hc : c ∈ table) (rs : Bool) :
    StrictMonoOn (core c (dOf c rs : ℚ) c.c_7 c.c_7b 20 20 rs) (Set.Iic 8.5) := by
  have := core_mono hc (d := dOf c rs) (c7 := c.c_7) (c7b := c.c_7b) (t := 20) rs (d_nonneg hc rs) (Or.inr rfl)
    (chains rs).2 (pieces_ok rs).2 (slope_deep c hc rs)
    (fun P hP m h1 h2 => by rw [etor_piece rs hP h1 h2])
  simpa using this

/-! ### Any depth between the two, any larger distance -/

theorem cs_pos (m : ℝ) : 0 < cs m := Real.cosh_pos _

theorem cs_mono {m m' : ℝ} (h : m ≤ m') : cs m ≤ cs m' := by
  unfold cs
  rw [Real.cosh_le_cosh, abs_of_nonneg (by positivity), abs_of_nonneg (by positivity)]
  have := max_le_max_right 0 (sub_le_sub_right h (4.5 : ℝ))
  linarith

theorem cs_inv {m m' : ℝ} (h : m ≤ m') : (cs m')⁻¹ ≤ (cs m)⁻¹ := inv_anti₀ (cs_pos m) (cs_mono h)

theorem H_mono {c : Row} (hc : c ∈ table) {m m' : ℝ} (h : m ≤ m') : H c m ≤ H c m' := by
  obtain ⟨-, -, -, -, f5, -⟩ := row_facts c hc
  obtain ⟨-, -, -, -, -, -, -, f6, -⟩ := mag_row_facts c hc
  have f5' : (0 : ℝ) < c.c_5 := by exact_mod_cast f5
  have f6' : (0 : ℝ) < c.c_6 := by exact_mod_cast f6
  unfold H
  apply mul_le_mul_of_nonneg_left _ f5'.le
  rw [Real.cosh_le_cosh, abs_of_nonneg (by positivity), abs_of_nonneg (by positivity)]
  exact mul_le_mul_of_nonneg_left (max_le_max_right 0 (sub_le_sub_right h _)) f6'.le

/-- the loss from the fictitious depth shrinks with the distance -/
theorem spread_anti_r {a b r r' : ℝ} (ha : 0 < a) (hab : a ≤ b) (hr : 0 ≤ r) (hrr : r ≤ r') :
    Real.log (r' + b) - Real.log (r' + a) ≤ Real.log (r + b) - Real.log (r + a) := by
  have h : Real.log ((r' + b) * (r + a)) ≤ Real.log ((r + b) * (r' + a)) := by
    apply Real.log_le_log (mul_pos (by linarith) (by linarith))
    nlinarith
  rw [Real.log_mul (by linarith) (by linarith), Real.log_mul (by linarith) (by linarith)] at h
  linarith

/-- and does so in a convex way -/
theorem spread_convex {a b : ℝ} (ha : 0 < a) (hab : a ≤ b) :
    ConvexOn ℝ (Set.Icc 0 20) fun r => Real.log (r + b) - Real.log (r + a) := by
  have hd : ∀ r ∈ Set.Icc (0 : ℝ) 20, HasDerivAt (fun r => Real.log (r + b) - Real.log (r + a))
      (1 / (r + b) - 1 / (r + a)) r := by
    intro r hr
    have h1 := ((hasDerivAt_id r).add_const b).log (by simp only [id]; linarith [hr.1])
    have h2 := ((hasDerivAt_id r).add_const a).log (by simp only [id]; linarith [hr.1])
    exact h1.sub h2
  apply MonotoneOn.convexOn_of_deriv (convex_Icc 0 20)
  · exact fun r hr => (hd r hr).continuousAt.continuousWithinAt
  · rw [interior_Icc]
    exact fun r hr => (hd r (Set.Ioo_subset_Icc_self hr)).differentiableAt.differentiableWithinAt
  · rw [interior_Icc]
    intro x hx y hy hxy
    rw [(hd x (Set.Ioo_subset_Icc_self hx)).deriv, (hd y (Set.Ioo_subset_Icc_self hy)).deriv]
    have hx0 := hx.1
    have e : ∀ z : ℝ, 0 < z → 1 / (z + b) - 1 / (z + a) = -((b - a) / ((z + b) * (z + a))) := by
      intro z hz
      have h1 : z + b ≠ 0 := by linarith
      have h2 : z + a ≠ 0 := by linarith
      field_simp
      ring
    rw [e x hx0, e y (hx0.trans_le hxy), neg_le_neg_iff]
    apply div_le_div_of_nonneg_left (by linarith) (mul_pos (by linarith) (by linarith))
    exact mul_le_mul (by linarith) (by linarith) (by linarith) (by linarith)

/-- a smaller coefficient of the style of faulting only helps -/
theorem core_d {c : Row} {d D c7 c7b t r : ℝ} {rs : Bool} {m m' : ℝ} (hm : m < m') (hd : d ≤ D)
    (h : core c D c7 c7b t r rs m < core c D c7 c7b t r rs m') :
    core c d c7 c7b t r rs m < core c d c7 c7b t r rs m' := by
  have := cs_inv hm.le
  unfold core at *
  nlinarith

theorem core_given {c : Row} (hc : c ∈ table) (rs : Bool) {d t r m m' : ℝ} (hd : d ≤ (dOf c rs : ℚ))
    (ht0 : 0 ≤ t) (ht : t ≤ 20) (hr : t ≤ r) (hm : m < m') (hm' : m' ≤ 8.5) :
    core c d c.c_7 c.c_7b t r rs m < core c d c.c_7 c.c_7b t r rs m' := by
  apply core_d hm hd
  have h0 := core_shallow hc rs (Set.mem_Iic.2 (hm.le.trans hm')) (Set.mem_Iic.2 hm') hm
  have h20 := core_deep hc rs (Set.mem_Iic.2 (hm.le.trans hm')) (Set.mem_Iic.2 hm') hm
  have hH := H_mono hc hm.le
  have hp := H_pos hc m
  have s1 := spread_anti_r hp hH ht0 hr
  have s2 := (spread_convex hp hH).2 (Set.left_mem_Icc.2 (by norm_num)) (Set.right_mem_Icc.2 (by norm_num))
    (show 0 ≤ 1 - t / 20 by linarith) (show 0 ≤ t / 20 by linarith) (by ring)
  have e : (1 - t / 20) • (0 : ℝ) + (t / 20) • 20 = t := by simp
  rw [e] at s2
  simp only [smul_eq_mul] at s2
  unfold core at *
  generalize Real.log (r + H c m) = a1, Real.log (r + H c m') = a2, Real.log (t + H c m) = b1,
    Real.log (t + H c m') = b2, Real.log (0 + H c m) = z1, Real.log (0 + H c m') = z2,
    Real.log (20 + H c m) = y1, Real.log (20 + H c m') = y2 at *
  have k0 := mul_lt_mul_of_pos_left h0 (show (0 : ℝ) < 20 by norm_num)
  rcases ht0.eq_or_lt with rfl | ht0
  · simp at s2
    linarith
  · rcases ht.eq_or_lt with rfl | ht
    · norm_num at s2
      linarith
    · have k1 := mul_lt_mul_of_pos_left h0 (show (0 : ℝ) < 1 - t / 20 by linarith)
      have k2 := mul_lt_mul_of_pos_left h20 (show (0 : ℝ) < t / 20 by linarith)
      nlinarith

theorem core_zero {c : Row} (hc : c ∈ table) (rs : Bool) {d r m m' : ℝ} (hd : d ≤ (dOf c rs : ℚ))
    (hr : 0 ≤ r) (hm : m < m') (hm' : m' ≤ 8.5) :
    core c d 0 0 0 r rs m < core c d 0 0 0 r rs m' := by
  apply core_d hm hd
  have h0 := core_default hc rs (Set.mem_Iic.2 (hm.le.trans hm')) (Set.mem_Iic.2 hm') hm
  have s1 := spread_anti_r (H_pos hc m) (H_mono hc hm.le) le_rfl hr
  unfold core at *
  linarith

/-! ### The reference motion -/

/-- the magnitude-dependent coefficient of the style of faulting -/
def fltD (c : Row) : Mech → ℚ
  | .rs => c.c_1c
  | .ns => c.c_1d
  | .other => 0
/-- the constant one -/
def fltC (c : Row) : Mech → ℚ
  | .rs => c.c_1a
  | .ns => c.c_1b
  | .other => 0

theorem fltD_le {c : Row} (hc : c ∈ table) (k : Mech) : (fltD c k : ℝ) ≤ (dOf c (decide (k = .rs)) : ℚ) := by
  obtain ⟨-, -, -, -, h1, h2, -⟩ := mag_row_facts c hc
  have : fltD c k ≤ dOf c (decide (k = .rs)) := by cases k <;> simp [fltD, dOf, h1, h2]
  exact_mod_cast this

/-- the magnitude at which the regional factor is read makes no difference -/
def Steady (reg : Reg) (m m' : ℝ) : Prop :=
  (reg ≠ .japan ∧ reg ≠ .italy) ∨ m' ≤ 6 ∨ (6 < m ∧ m' < 6.9) ∨ 6.9 ≤ m

theorem scale_steady (c : Row) {reg : Reg} {m m' : ℝ} (hm : m < m') (h : Steady reg m m') :
    (scale c (F.ofReal m) reg).val = (scale c (F.ofReal m') reg).val := by
  rcases h with ⟨h1, h2⟩ | h
  · cases reg <;> simp_all [scale]
  · have key : ∀ g : ℝ, (if 6 < m then (if m < 6.9 then g else 1) else 1 : ℝ) =
        if 6 < m' then (if m' < 6.9 then g else 1) else 1 := by
      intro g
      rcases h with h | ⟨h, h'⟩ | h
      · rw [if_neg (by linarith), if_neg (by linarith)]
      · rw [if_pos h, if_pos (by linarith), if_pos (by linarith), if_pos h']
      · norm_num at h
        have h1 : 6 < m := by linarith
        rw [if_pos h1, if_pos (h1.trans hm), if_neg (by norm_num; linarith), if_neg (by norm_num; linarith)]
    cases reg <;> simp only [scale, fsimp] <;> exact key _

theorem gam_mono {c : Row} (hc : c ∈ table) {reg : Reg} {m m' : ℝ} (hm : m < m') (h : Steady reg m m') :
    gam c m reg ≤ gam c m' reg := by
  obtain ⟨-, -, -, -, -, -, -, -, -, -, -, -, h1, h2, -⟩ := row_facts c hc
  have h2' : (c.c_gamma2 : ℝ) < 0 := by exact_mod_cast h2
  unfold gam
  rw [scale_steady c hm h]
  apply mul_le_mul_of_nonneg_left _ (scale_nonneg hc m' reg)
  have : Real.cosh (max (m - c.c_gamma3) 0) ≤ Real.cosh (max (m' - c.c_gamma3) 0) := by
    rw [Real.cosh_le_cosh, abs_of_nonneg (by positivity), abs_of_nonneg (by positivity)]
    exact max_le_max_right 0 (sub_le_sub_right hm.le _)
  have := one_div_le_one_div_of_le (Real.cosh_pos _) this
  have := mul_le_mul_of_nonpos_left this h2'.le
  rw [mul_one_div, mul_one_div] at this
  linarith

theorem base_val {c : Row} (hc : c ∈ table) (g : Given) (k : Kind) :
    (baseF c (g.toIn k)).val = (c.c_1 + fltC c k.mech - 1.06 * 6) + bend c g.mag + fltD c k.mech * (cs g.mag)⁻¹ +
      (c.c_7 + c.c_7b * (cs g.mag)⁻¹) * ((g.effTor k).val - etor (decide (k.mech = .rs)) g.mag) +
      c.c_11b * (cs g.mag)⁻¹ * Real.cos (g.dip * Real.pi / 180) ^ 2 := by
  obtain ⟨q2, -, q11, -⟩ := mag_row_facts c hc
  have q2' : (c.c_2 : ℝ) = 1.06 := by rw [q2]; norm_num
  have q11' : (c.c_11 : ℝ) = 0 := by rw [q11]; norm_num
  have ec : (coshMag (F.ofReal g.mag)).val = cs g.mag := by simp [coshMag, cs]
  have ef : (fFlt c (F.ofReal g.mag) k.mech).val = fltC c k.mech + fltD c k.mech * (cs g.mag)⁻¹ := by
    cases k.mech <;> simp only [fFlt, fltC, fltD, fsimp, ec] <;> push_cast <;> ring
  have et : (fTor c (F.ofReal g.mag) (g.effTor k) k.mech).val = (c.c_7 + c.c_7b * (cs g.mag)⁻¹) *
      ((g.effTor k).val - etor (decide (k.mech = .rs)) g.mag) := by
    simp only [fTor, etor, fsimp, ec]; rw [div_eq_mul_inv]
  simp only [baseF, Given.toIn, F.val_add, fMag, fDip, fsimp, ec, q2', q11', bend, et, ef]
  have e : g.dip * (Real.pi / 180) = g.dip * Real.pi / 180 := by ring
  rw [e]
  ring

theorem ref_val {c : Row} (hc : c ∈ table) (g : Given) (k : Kind) (hdpp : g.dpp.getD 0 = 0) (t r : ℝ) (c7 c7b : ℝ)
    (ht : (c.c_7 + c.c_7b * (cs g.mag)⁻¹) * ((g.effTor k).val - etor (decide (k.mech = .rs)) g.mag) =
      (c7 + c7b * (cs g.mag)⁻¹) * (t - etor (decide (k.mech = .rs)) g.mag)) (hr : r = g.rup) :
    (lnRef c (g.toIn k)).val = (c.c_1 + fltC c k.mech - 1.06 * 6 +
      ((c.c_4a : ℝ) - c.c_4) * Real.log (Real.sqrt (r ^ 2 + (c.c_rb : ℝ) ^ 2))) +
      core c (fltD c k.mech) c7 c7b t r (decide (k.mech = .rs)) g.mag +
      c.c_11b * (cs g.mag)⁻¹ * Real.cos (g.dip * Real.pi / 180) ^ 2 + gam c g.mag k.reg * r +
      (fHng c (g.toIn k)).val := by
  obtain ⟨q4, -⟩ := row_facts c hc
  have q4' : (c.c_4 : ℝ) = -2.1 := by rw [q4]; norm_num
  rw [lnRef_val, base_val hc, ht, hdpp, hr]
  unfold core distR dirFac
  rw [q4']
  ring

theorem dip_mono {c : Row} (hc : c ∈ table) {m m' : ℝ} (hm : m ≤ m') (x : ℝ) :
    c.c_11b * (cs m)⁻¹ * x ^ 2 ≤ c.c_11b * (cs m')⁻¹ * x ^ 2 := by
  obtain ⟨-, -, -, h, -⟩ := mag_row_facts c hc
  have h' : (c.c_11b : ℝ) ≤ 0 := by exact_mod_cast h
  exact mul_le_mul_of_nonneg_right (mul_le_mul_of_nonpos_left (cs_inv hm) h') (sq_nonneg x)

end CY14

/-- two scenarios that differ at most in numbers -/
def CY14.SameRest (s s' : Scenario) : Prop :=
  ∀ k ∈ ["mechanism", "region", "vs_source", "on_hanging_wall"], s'.get k = s.get k

theorem CY14.SameRest.kind {s s' : Scenario} (h : CY14.SameRest s s') : CY14.kindOf s' = CY14.kindOf s := by
  simp only [CY14.SameRest, List.forall_mem_cons, List.not_mem_nil, false_imp_iff, implies_true, and_true] at h
  simp [CY14.kindOf, h]

theorem CY14.tanh_nonneg {x : ℝ} (h : 0 ≤ x) : 0 ≤ Real.tanh x := by
  rw [Real.tanh_eq_sinh_div_cosh]
  exact div_nonneg (Real.sinh_nonneg_iff.2 h) (Real.cosh_pos x).le

theorem CY14.etor_anti (rs : Bool) {m m' : ℝ} (h : m ≤ m') :
    CY14.etor rs m' ≤ CY14.etor rs m ∧ 0 ≤ CY14.etor rs m' := by
  unfold CY14.etor CY14.calcDepthTor
  cases rs <;> simp only [fsimp, if_true, if_false, Bool.false_eq_true] <;>
    refine ⟨pow_le_pow_left₀ (le_max_right _ _) (max_le_max_right 0 ?_) 2, sq_nonneg _⟩
  · have := max_le_max_right 0 (sub_le_sub_right h (4.970 : ℝ)); linarith
  · have := max_le_max_right 0 (sub_le_sub_right h (5.849 : ℝ)); linarith

theorem CY14.hng_default {c : CY14.Row} (hc : c ∈ CY14.table) {g : CY14.Given} {k : CY14.Kind} {m' : ℝ}
    (ht : g.tor = none) (hm : g.mag < m') (hr : 0 ≤ g.rup)
    (hw : k.hw = true → 0 ≤ g.x ∧ 0 ≤ g.dip ∧ g.dip ≤ 90) :
    (CY14.fHng c (g.toIn k)).val ≤ (CY14.fHng c (({ g with mag := m' } : CY14.Given).toIn k)).val := by
  unfold CY14.fHng
  by_cases h : k.hw = true
  · obtain ⟨hx, hd, hd'⟩ := hw h
    obtain ⟨-, -, -, -, -, -, -, -, -, h9, h9a, h9a'⟩ := CY14.mag_row_facts c hc
    obtain ⟨-, -, -, -, -, h9b, -⟩ := CY14.row_facts c hc
    have q9 : (0 : ℝ) ≤ c.c_9 := by exact_mod_cast h9
    have q9a : (0 : ℝ) ≤ c.c_9a := by exact_mod_cast h9a
    have q9a' : (c.c_9a : ℝ) ≤ 1 := by exact_mod_cast h9a'
    have q9b : (0 : ℝ) < c.c_9b := by exact_mod_cast h9b
    have e : ∀ m, (({ g with mag := m } : CY14.Given).effTor k).val = CY14.etor (decide (k.mech = .rs)) m := by
      intro m
      simp only [CY14.Given.effTor, ht, CY14.etor]
      rw [F.orEst_none (CY14.calcDepthTor_ok _ _)]
    have e0 := e g.mag
    have e1 := e m'
    obtain ⟨t1, t2⟩ := CY14.etor_anti (decide (k.mech = .rs)) hm.le
    have hcos : 0 ≤ Real.cos (g.dip * (Real.pi / 180)) := by
      have := Real.pi_pos
      apply Real.cos_nonneg_of_neg_pi_div_two_le_of_le <;> nlinarith
    have hth := CY14.tanh_nonneg (div_nonneg hx q9b.le)
    have hs : Real.sqrt (g.jb ^ 2 + CY14.etor (decide (k.mech = .rs)) m' ^ 2) ≤
        Real.sqrt (g.jb ^ 2 + CY14.etor (decide (k.mech = .rs)) g.mag ^ 2) := by
      apply Real.sqrt_le_sqrt
      have := pow_le_pow_left₀ t2 t1 2
      linarith
    simp only [CY14.Given.toIn, h, if_true, fsimp]
    rw [e1]
    have e0' : (g.effTor k).val = CY14.etor (decide (k.mech = .rs)) g.mag := e0
    rw [e0']
    have hfac : 0 ≤ (c.c_9 : ℝ) * Real.cos (g.dip * (Real.pi / 180)) *
        (c.c_9a + (1 - c.c_9a) * Real.tanh (g.x / c.c_9b)) :=
      mul_nonneg (mul_nonneg q9 hcos) (add_nonneg q9a (mul_nonneg (by linarith) hth))
    apply mul_le_mul_of_nonneg_left _ hfac
    have := div_le_div_of_nonneg_right hs (show 0 ≤ g.rup + 1 by linarith)
    linarith
  · simp [CY14.Given.toIn, h]

/-- With the depth of the rupture left to the model's estimate and no directivity: up to magnitude
8.5 a larger earthquake gives strictly larger motion at every period, PGA and PGV -- at every
distance, for every mechanism and dip, on both walls, from 180 m/s on; in Japan and Italy as long
as the two magnitudes lie on the same side of 6 and 6.9. -/
theorem C95_default_depth (s s' : Scenario) (g : CY14.Given) (m' : ℝ) (h : CY14.Source s g)
    (h' : CY14.Source s' { g with mag := m' }) (hk : CY14.SameRest s s') (ht : g.tor = none)
    (hdpp : g.dpp.getD 0 = 0) (hm : g.mag < m') (hm' : m' ≤ 8.5) (hr : 0 ≤ g.rup) (hv : 180 ≤ g.v)
    (hreg : CY14.Steady (CY14.regOf (s.get "region")) g.mag m')
    (hw : (s.get "on_hanging_wall").isOn → 0 ≤ g.x ∧ 0 ≤ g.dip ∧ g.dip ≤ 90) :
    ∃ o o', Gives CY14.cls s o ∧ Gives CY14.cls s' o' ∧ o.gmm.lnResp.length = 26 ∧
      List.Forall₂ F.Drops o'.gmm.lnResp o.gmm.lnResp := by
  have g2 := CY14.gives h'
  rw [hk.kind] at g2
  have hv0 : 0 < g.v := by linarith
  refine ⟨_, _, CY14.gives h, g2, by simp [CY14.out, CY14.table_length], ?_⟩
  have hreg' : CY14.Steady (CY14.kindOf s).reg g.mag m' := hreg
  have hw' : (CY14.kindOf s).hw = true → 0 ≤ g.x ∧ 0 ≤ g.dip ∧ g.dip ≤ 90 := by
    intro h; exact hw (by simpa [CY14.kindOf] using h)
  generalize CY14.kindOf s = k at hreg' hw'
  simp only [CY14.out]
  refine forall₂_map fun c hc => ⟨CY14.lnResp_ok hc (g := { g with mag := m' }) hr hv0 k,
    CY14.lnResp_ok hc hr hv0 k, ?_⟩
  rw [CY14.lnResp_val, CY14.lnResp_val]
  apply CY14.respR_strictMono hc hv
  have e : ∀ m, (({ g with mag := m } : CY14.Given).effTor k).val = CY14.etor (decide (k.mech = .rs)) m := by
    intro m
    simp only [CY14.Given.effTor, ht, CY14.etor]
    rw [F.orEst_none (CY14.calcDepthTor_ok _ _)]
  rw [CY14.ref_val hc g k hdpp 0 g.rup 0 0 (by have := e g.mag; rw [show (g.effTor k).val = _ from this]; ring) rfl,
    CY14.ref_val hc { g with mag := m' } k hdpp 0 g.rup 0 0 (by rw [e m']; ring) rfl]
  have k1 := CY14.core_zero hc (decide (k.mech = .rs)) (CY14.fltD_le hc k.mech) hr hm hm'
  have k2 := CY14.dip_mono hc hm.le (Real.cos (g.dip * Real.pi / 180))
  have k3 := mul_le_mul_of_nonneg_right (CY14.gam_mono hc hm hreg') hr
  have k4 := CY14.hng_default hc ht hm hr hw'
  linarith

/-- With a given depth of the rupture, up to 20 km: the same at every distance that such a rupture
allows, that is from the depth on. -/
theorem C95_given_depth (s s' : Scenario) (g : CY14.Given) (m' t : ℝ) (h : CY14.Source s g)
    (h' : CY14.Source s' { g with mag := m' }) (hk : CY14.SameRest s s') (ht : g.tor = some t)
    (ht0 : 0 ≤ t) (ht20 : t ≤ 20) (hdpp : g.dpp.getD 0 = 0) (hm : g.mag < m') (hm' : m' ≤ 8.5) (hr : t ≤ g.rup)
    (hv : 180 ≤ g.v) (hreg : CY14.Steady (CY14.regOf (s.get "region")) g.mag m') :
    ∃ o o', Gives CY14.cls s o ∧ Gives CY14.cls s' o' ∧ o.gmm.lnResp.length = 26 ∧
      List.Forall₂ F.Drops o'.gmm.lnResp o.gmm.lnResp := by
  have g2 := CY14.gives h'
  rw [hk.kind] at g2
  have hv0 : 0 < g.v := by linarith
  have hr0 : 0 ≤ g.rup := ht0.trans hr
  refine ⟨_, _, CY14.gives h, g2, by simp [CY14.out, CY14.table_length], ?_⟩
  have hreg' : CY14.Steady (CY14.kindOf s).reg g.mag m' := hreg
  generalize CY14.kindOf s = k at hreg'
  simp only [CY14.out]
  refine forall₂_map fun c hc => ⟨CY14.lnResp_ok hc (g := { g with mag := m' }) hr0 hv0 k,
    CY14.lnResp_ok hc hr0 hv0 k, ?_⟩
  rw [CY14.lnResp_val, CY14.lnResp_val]
  apply CY14.respR_strictMono hc hv
  have e : ∀ m, (({ g with mag := m } : CY14.Given).effTor k).val = t := by
    intro m; simp [CY14.Given.effTor, ht]
  rw [CY14.ref_val hc g k hdpp t g.rup c.c_7 c.c_7b (by have := e g.mag; rw [show (g.effTor k).val = _ from this]) rfl,
    CY14.ref_val hc { g with mag := m' } k hdpp t g.rup c.c_7 c.c_7b (by rw [e m']) rfl]
  have k1 := CY14.core_given hc (decide (k.mech = .rs)) (CY14.fltD_le hc k.mech) ht0 ht20 hr hm hm'
  have k2 := CY14.dip_mono hc hm.le (Real.cos (g.dip * Real.pi / 180))
  have k3 := mul_le_mul_of_nonneg_right (CY14.gam_mono hc hm hreg') hr0
  have k4 : CY14.fHng c (({ g with mag := m' } : CY14.Given).toIn k) = CY14.fHng c (g.toIn k) := by
    simp only [CY14.fHng, CY14.Given.toIn, CY14.Given.effTor, ht, F.orEst_some]
  rw [k4]
  linarith

/-! ### Instances -/

/-- Japan, magnitude 6.2 to 6.8, strike slip, everything optional left out -/
example := C95_default_depth (CY14.exS { CY14.exG with mag := 6.2 } "japan") (CY14.exS { CY14.exG with mag := 6.8 } "japan")
  { CY14.exG with mag := 6.2 } 6.8 (CY14.ex_source _ rfl rfl rfl _) (CY14.ex_source _ rfl rfl rfl _)
  (by intro k _; simp only [CY14.exS, List.mem_cons, List.not_mem_nil, or_false] at *
      rcases ‹_› with rfl | rfl | rfl | rfl <;> simp [Scenario.get, Dict.get?])
  rfl (by simp [CY14.exG]) (by norm_num) (by norm_num) (by norm_num [CY14.exG]) (by norm_num [CY14.exG])
  (Or.inr (Or.inr (Or.inl (by norm_num)))) (by simp [CY14.exS, Scenario.get, Dict.get?, Val.isOn])

/-- a normal-faulting rupture at 12 km depth, on the hanging wall, 15 km away, magnitude 4 to 8 -/
example := C95_given_depth
  ⟨[("mag", .num 4), ("dist_rup", .num 15), ("dist_jb", .num 9), ("dist_x", .num 9), ("dip", .num 45),
    ("v_s30", .num 270), ("depth_tor", .num 12), ("mechanism", .str "NS"), ("on_hanging_wall", .bool true)], []⟩
  ⟨[("mag", .num 8), ("dist_rup", .num 15), ("dist_jb", .num 9), ("dist_x", .num 9), ("dip", .num 45),
    ("v_s30", .num 270), ("depth_tor", .num 12), ("mechanism", .str "NS"), ("on_hanging_wall", .bool true)], []⟩
  { mag := 4, rup := 15, jb := 9, x := 9, dip := 45, v := 270, tor := some 12 } 8 12
  (by constructor <;> simp [Scenario.get, Dict.get?, Val.ofOpt])
  (by constructor <;> simp [Scenario.get, Dict.get?, Val.ofOpt])
  (by intro k _; simp only [List.mem_cons, List.not_mem_nil, or_false] at *
      rcases ‹_› with rfl | rfl | rfl | rfl <;> simp [Scenario.get, Dict.get?])
  rfl (by norm_num) (by norm_num) rfl (by norm_num) (by norm_num) (by norm_num) (by norm_num)
  (Or.inl (by simp [CY14.regOf, Scenario.get, Dict.get?, Val.isStr]))
