import Verif.GMM

/-!
# The `kind` argument of the interpolation methods

model.py lines 209-289 pass `kind` on to `scipy.interpolate.interp1d`, which is read here as of scipy 1.x:
`nearest`, `nearest-up`, `previous` and `next` choose one ordinate by counting nodes (or midpoints of nodes) below
the abscissa; `zero`, `slinear`, `quadratic` and `cubic` are splines and left uninterpreted; any other string raises
`NotImplementedError`.  `kind=None` and integers are not modelled, nor are periods that are not positive.
-/

namespace Kinds

/-- `x_bds = x[1:] / 2 + x[:-1] / 2` -/
noncomputable def mids : List ℝ → List ℝ
  | a :: b :: t => (b / 2 + a / 2) :: mids (b :: t)
  | _ => []

open Classical in
/-- `np.searchsorted(l, x, side="left")` for increasing `l` -/
noncomputable def left (l : List ℝ) (x : ℝ) : ℕ := l.countP fun a => decide (a < x)

open Classical in
/-- `np.searchsorted(l, x, side="right")` -/
noncomputable def right (l : List ℝ) (x : ℝ) : ℕ := l.countP fun a => decide (a ≤ x)

/-- the kinds that are splines -/
def splines : List String := ["zero", "slinear", "quadratic", "cubic"]

/-- which ordinate: `_call_nearest` and `_call_previousnext` with their clipping.  (The latter look up `x` among the nodes
moved by one unit in the last place, which in exact arithmetic exchanges the sides.) -/
noncomputable def pick (kind : String) (xs : List ℝ) (x : ℝ) : Option ℕ :=
  if kind = "nearest" then some (min (left (mids xs) x) (xs.length - 1))
  else if kind = "nearest-up" then some (min (right (mids xs) x) (xs.length - 1))
  else if kind = "previous" then some (max (right xs x) 1 - 1)
  else if kind = "next" then some (min (left xs x) (xs.length - 1))
  else none

open Classical in
/-- `interp1d(xs, ys, kind=kind, bounds_error=False, fill_value=nan)(x)`, nodes in increasing order -/
noncomputable def interp (spline : String → List ℝ → List F → ℝ → Py F) (kind : String) (xs : List ℝ) (ys : List F) (x : ℝ) : Py F :=
  if kind = "linear" then pure (interpLinear (List.zip xs ys) x)
  else if kind ∈ splines then spline kind xs ys x
  else
    match pick kind xs x with
    | none => Py.raise .notImplemented
    | some k =>
      pure (if (∀ a ∈ xs.head?, a ≤ x) ∧ (∀ a ∈ xs.getLast?, x ≤ a) then ys.getD k F.nan else F.nan)

variable (spline : String → List ℝ → List F → ℝ → Py F)

/-- model.py lines 209-239: `interp_ln_spec_accels(T, kind)` at one positive period -/
noncomputable def interpLnSpecAccels (C : GmmClass) (o : GmmOut) (kind : String) (T : ℝ) : Py F := do
  let ps ← Gmm.periods C
  let ys ← pyTake o.lnResp C.indicesPsa
  interp spline kind (ps.map fun p : ℚ => Real.log (p : ℝ)) ys (Real.log T)

/-- model.py lines 241-263: `interp_spec_accels(T, kind)` -/
noncomputable def interpSpecAccels (C : GmmClass) (o : GmmOut) (kind : String) (T : ℝ) : Py F := do
  let y ← interpLnSpecAccels spline C o kind T
  pure y.exp

/-- model.py lines 265-289: `interp_ln_stds(T, kind)` -/
noncomputable def interpLnStds (C : GmmClass) (o : GmmOut) (kind : String) (T : ℝ) : Py F :=
  match o.lnStd with
  | none => Py.raise .notImplemented
  | some ss => do
    let ps ← Gmm.periods C
    let ys ← pyTake ss C.indicesPsa
    interp spline kind (ps.map fun p : ℚ => Real.log (p : ℝ)) ys (Real.log T)

/-! ### Counting -/

/-- counting in an increasing list with a condition that is lost on the way up -/
theorem count_iff (p : ℝ → Bool) (hp : ∀ a b, a < b → p b = true → p a = true) : ∀ (l : List ℝ), l.Pairwise (· < ·) →
    ∀ (i : ℕ) (h : i < l.length), p l[i] = true ↔ i < l.countP p
  | [], _, i, h => by simp at h
  | a :: l, hs, i, h => by
    have hs' := List.pairwise_cons.1 hs
    by_cases ha : p a = true
    · rw [List.countP_cons_of_pos ha]
      cases i with
      | zero => simp [ha]
      | succ i =>
        rw [Nat.add_lt_add_iff_right]
        exact count_iff p hp l hs'.2 i (by simpa using h)
    · have hz : ∀ b ∈ a :: l, ¬ p b = true := by
        intro b hb
        rcases List.mem_cons.1 hb with rfl | hb
        · exact ha
        · exact fun h => ha (hp a b (hs'.1 b hb) h)
      rw [List.countP_eq_zero.2 hz]
      simp only [Nat.not_lt_zero, iff_false]
      exact hz _ (List.getElem_mem h)

theorem left_iff {l : List ℝ} (hs : l.Pairwise (· < ·)) (x : ℝ) (i : ℕ) (h : i < l.length) : l[i] < x ↔ i < left l x := by
  unfold left
  rw [← count_iff _ (fun a b hab hb => by simp only [decide_eq_true_eq] at hb ⊢; linarith) l hs i h]
  simp

theorem right_iff {l : List ℝ} (hs : l.Pairwise (· < ·)) (x : ℝ) (i : ℕ) (h : i < l.length) : l[i] ≤ x ↔ i < right l x := by
  unfold right
  rw [← count_iff _ (fun a b hab hb => by simp only [decide_eq_true_eq] at hb ⊢; linarith) l hs i h]
  simp

theorem mids_length : ∀ l : List ℝ, (mids l).length = l.length - 1
  | [] => rfl
  | [_] => rfl
  | a :: b :: t => by simp [mids, mids_length (b :: t)]

theorem mids_get : ∀ (l : List ℝ) (i : ℕ) (h : i + 1 < l.length),
    (mids l)[i]'(by rw [mids_length]; omega) = l[i + 1] / 2 + l[i]'(by omega) / 2
  | [], i, h => by simp at h
  | [_], i, h => by simp at h
  | a :: b :: t, 0, h => rfl
  | a :: b :: t, i + 1, h => by
    have := mids_get (b :: t) i (by simpa using h)
    simp only [mids, List.getElem_cons_succ]
    exact this

theorem get_lt {l : List ℝ} (hs : l.Pairwise (· < ·)) {i j : ℕ} (hj : j < l.length) (hij : i < j) : l[i]'(hij.trans hj) < l[j] :=
  List.pairwise_iff_getElem.1 hs i j (hij.trans hj) hj hij

theorem get_le {l : List ℝ} (hs : l.Pairwise (· < ·)) {i j : ℕ} (hj : j < l.length) (hij : i ≤ j) :
    l[i]'(lt_of_le_of_lt hij hj) ≤ l[j] := by
  rcases hij.lt_or_eq with h | h
  · exact (get_lt hs hj h).le
  · subst h; exact le_rfl

theorem mids_sorted {l : List ℝ} (hs : l.Pairwise (· < ·)) : (mids l).Pairwise (· < ·) := by
  rw [List.pairwise_iff_getElem]
  intro i j hi hj hij
  rw [mids_length] at hi hj
  rw [mids_get l i (by omega), mids_get l j (by omega)]
  have h1 := get_lt hs (i := i) (j := j) (by omega) hij
  have h2 := get_lt hs (i := i + 1) (j := j + 1) (by omega) (by omega)
  linarith

theorem closer {a b x : ℝ} (h : a < b) (hx : x ≤ b / 2 + a / 2) : |x - a| ≤ |x - b| := by
  rw [abs_sub_comm x b, abs_of_nonneg (by linarith : 0 ≤ b - x)]
  exact abs_le.2 ⟨by linarith, by linarith⟩

theorem closer' {a b x : ℝ} (h : a < b) (hx : b / 2 + a / 2 < x) : |x - b| < |x - a| := by
  rw [abs_of_nonneg (by linarith : 0 ≤ x - a)]
  exact abs_lt.2 ⟨by linarith, by linarith⟩

theorem closer_eq {a b x : ℝ} (h : a < b) (hx : b / 2 + a / 2 ≤ x) : |x - b| ≤ |x - a| := by
  rw [abs_of_nonneg (by linarith : 0 ≤ x - a)]
  exact abs_le.2 ⟨by linarith, by linarith⟩

theorem closer_lt {a b x : ℝ} (h : a < b) (hx : x < b / 2 + a / 2) : |x - a| < |x - b| := by
  rw [abs_sub_comm x b, abs_of_nonneg (by linarith : 0 ≤ b - x)]
  exact abs_lt.2 ⟨by linarith, by linarith⟩

/-- `nearest`: no node is closer, and of two that are equally close the smaller one -/
theorem nearest_spec {l : List ℝ} (hs : l.Pairwise (· < ·)) (hne : l ≠ []) (x : ℝ) :
    ∃ k, ∃ hk : k < l.length, pick "nearest" l x = some k ∧ ∀ j (hj : j < l.length), |x - l[k]| ≤ |x - l[j]| ∧ (j < k → |x - l[k]| < |x - l[j]|) := by
  have hpos : 0 < l.length := List.length_pos_iff.2 hne
  have hcl : left (mids l) x ≤ l.length - 1 := by rw [← mids_length]; exact List.countP_le_length
  have hk : left (mids l) x < l.length := by omega
  refine ⟨left (mids l) x, hk, by simp [pick, hcl], fun j hj => ?_⟩
  rcases lt_trichotomy j (left (mids l) x) with h | h | h
  · have h0 : left (mids l) x - 1 < (mids l).length := by rw [mids_length]; omega
    have h1 := (left_iff (mids_sorted hs) x (left (mids l) x - 1) h0).2 (by omega)
    rw [mids_get l _ (by omega)] at h1
    have h2 : l[j] ≤ l[left (mids l) x - 1]'(by omega) := get_le hs (by omega) (by omega)
    have e : left (mids l) x - 1 + 1 = left (mids l) x := by omega
    simp only [e] at h1
    have := closer' (get_lt hs hk h) (x := x) (by linarith)
    exact ⟨this.le, fun _ => this⟩
  · subst h; exact ⟨le_rfl, fun h => absurd h (lt_irrefl _)⟩
  · have h0 : left (mids l) x < (mids l).length := by rw [mids_length]; omega
    have h1 : ¬ _ := fun h => absurd ((left_iff (mids_sorted hs) x _ h0).1 h) (lt_irrefl _)
    rw [not_lt, mids_get l _ (by omega)] at h1
    have h2 : l[left (mids l) x + 1]'(by omega) ≤ l[j] := get_le hs hj (by omega)
    exact ⟨closer (get_lt hs hj h) (by linarith), fun h' => by omega⟩

/-- `nearest-up`: ... the larger one -/
theorem nearest_up_spec {l : List ℝ} (hs : l.Pairwise (· < ·)) (hne : l ≠ []) (x : ℝ) :
    ∃ k, ∃ hk : k < l.length, pick "nearest-up" l x = some k ∧ ∀ j (hj : j < l.length), |x - l[k]| ≤ |x - l[j]| ∧ (k < j → |x - l[k]| < |x - l[j]|) := by
  have hpos : 0 < l.length := List.length_pos_iff.2 hne
  have hcl : right (mids l) x ≤ l.length - 1 := by rw [← mids_length]; exact List.countP_le_length
  have hk : right (mids l) x < l.length := by omega
  refine ⟨right (mids l) x, hk, by simp [pick, hcl], fun j hj => ?_⟩
  rcases lt_trichotomy j (right (mids l) x) with h | h | h
  · have h0 : right (mids l) x - 1 < (mids l).length := by rw [mids_length]; omega
    have h1 := (right_iff (mids_sorted hs) x (right (mids l) x - 1) h0).2 (by omega)
    rw [mids_get l _ (by omega)] at h1
    have h2 : l[j] ≤ l[right (mids l) x - 1]'(by omega) := get_le hs (by omega) (by omega)
    have e : right (mids l) x - 1 + 1 = right (mids l) x := by omega
    simp only [e] at h1
    exact ⟨closer_eq (get_lt hs hk h) (x := x) (by linarith), fun h' => by omega⟩
  · subst h; exact ⟨le_rfl, fun h => absurd h (lt_irrefl _)⟩
  · have h0 : right (mids l) x < (mids l).length := by rw [mids_length]; omega
    have h1 : ¬ _ := fun h => absurd ((right_iff (mids_sorted hs) x _ h0).1 h) (lt_irrefl _)
    rw [not_le, mids_get l _ (by omega)] at h1
    have h2 : l[right (mids l) x + 1]'(by omega) ≤ l[j] := get_le hs hj (by omega)
    have := closer_lt (get_lt hs hj h) (x := x) (by linarith)
    exact ⟨this.le, fun _ => this⟩

/-- `previous`: the last node that is not above -/
theorem previous_spec {l : List ℝ} (hs : l.Pairwise (· < ·)) (x : ℝ) (h0 : ∃ h : 0 < l.length, l[0] ≤ x) :
    ∃ k, ∃ hk : k < l.length, pick "previous" l x = some k ∧ l[k] ≤ x ∧ ∀ j (hj : j < l.length), l[j] ≤ x → j ≤ k := by
  obtain ⟨hpos, h0⟩ := h0
  have h1 : 0 < right l x := (right_iff hs x 0 hpos).1 h0
  have hcl : right l x ≤ l.length := List.countP_le_length
  refine ⟨right l x - 1, by omega, by simp [pick]; omega, (right_iff hs x _ (by omega)).2 (by omega), fun j hj h => ?_⟩
  have := (right_iff hs x j hj).1 h
  omega

/-- `next`: the first node that is not below -/
theorem next_spec {l : List ℝ} (hs : l.Pairwise (· < ·)) (x : ℝ) (h0 : ∃ h : 0 < l.length, x ≤ l[l.length - 1]) :
    ∃ k, ∃ hk : k < l.length, pick "next" l x = some k ∧ x ≤ l[k] ∧ ∀ j (hj : j < l.length), x ≤ l[j] → k ≤ j := by
  obtain ⟨hpos, h0⟩ := h0
  have h1 : ¬ l.length - 1 < left l x := fun h => absurd ((left_iff hs x _ (by omega)).2 h) (not_lt.2 h0)
  refine ⟨left l x, by omega, by simp [pick]; omega, ?_, fun j hj h => ?_⟩
  · exact not_lt.1 fun h => absurd ((left_iff hs x _ (by omega)).1 h) (lt_irrefl _)
  · by_contra hlt
    exact absurd ((left_iff hs x j hj).2 (by omega)) (not_lt.2 h)

end Kinds
