import Verif.GMM
import Mathlib.Tactic.FieldSimp

/-! # Lemmas about indexing and linear interpolation -/

theorem pyIndex_nat {α : Type} (l : List α) (i : ℕ) (h : i < l.length) :
    pyIndex l (i : ℤ) = pure l[i] := by
  simp [pyIndex, h]

/-- negative indices count from the end -/
theorem pyIndex_neg {α : Type} (l : List α) (k : ℕ) (h0 : 0 < k) (h : k ≤ l.length) :
    pyIndex l (-(k : ℤ)) = pure (l[l.length - k]'(by omega)) := by
  have h1 : ¬ (0 : ℤ) ≤ -(k : ℤ) := by omega
  have h2 : (0 : ℤ) ≤ (l.length : ℤ) + -(k : ℤ) := by omega
  have h3 : ((l.length : ℤ) + -(k : ℤ)).toNat = l.length - k := by omega
  simp only [pyIndex, h1, if_false, h2, if_true, h3]
  rw [List.getElem?_eq_getElem (by omega)]

theorem getD_getElem {α : Type} {l : List α} {i : ℕ} (h : i < l.length) (d : α) :
    l.getD i d = l[i] := by
  simp [List.getD_eq_getElem?_getD, h]

theorem pyTake_eq {α : Type} (l : List α) (is : List ℕ) (h : ∀ i ∈ is, i < l.length) (d : α) :
    pyTake l is = pure (is.map fun i => l.getD i d) := by
  induction is with
  | nil => rfl
  | cons i is ih =>
    have hi := h i (by simp)
    simp only [pyTake, pyIndex_nat l i hi, Py.pure_bind', ih fun j hj => h j (by simp [hj])]
    rw [List.map_cons, getD_getElem hi]

/-- nodes in strictly increasing order -/
def SortedNodes (nodes : List (ℝ × F)) : Prop := nodes.Pairwise fun a b => a.1 < b.1

theorem interpLinear_node {nodes : List (ℝ × F)} (hs : SortedNodes nodes) {x : ℝ} {y : F}
    (hm : (x, y) ∈ nodes) : interpLinear nodes x = y := by
  induction nodes with
  | nil => simp at hm
  | cons a t ih =>
    obtain ⟨x0, y0⟩ := a
    cases t with
    | nil => simp at hm; simp [interpLinear, hm]
    | cons b t =>
      obtain ⟨x1, y1⟩ := b
      have hs' : SortedNodes ((x1, y1) :: t) := (List.pairwise_cons.1 hs).2
      have hlt := (List.pairwise_cons.1 hs).1
      rcases List.mem_cons.1 hm with he | hm
      · cases he; simp [interpLinear]
      · have h1 : x0 < x := hlt _ hm
        have h2 : ¬ x < x1 := by
          rcases List.mem_cons.1 hm with he | hm'
          · cases he; simp
          · exact not_lt.2 (le_of_lt ((List.pairwise_cons.1 hs').1 _ hm'))
        simp only [interpLinear, not_lt.2 h1.le, if_false, ne_of_gt h1, h2]
        exact ih hs' hm

theorem SortedNodes.unique {nodes : List (ℝ × F)} (hs : SortedNodes nodes) {x : ℝ} {y y' : F}
    (h : (x, y) ∈ nodes) (h' : (x, y') ∈ nodes) : y = y' := by
  rw [← interpLinear_node hs h, ← interpLinear_node hs h']

/-- between two neighbouring nodes: the straight line -/
theorem interpLinear_between {nodes : List (ℝ × F)} (hs : SortedNodes nodes)
    {x0 x1 x : ℝ} {y0 y1 : F} (h0 : (x0, y0) ∈ nodes) (h1 : (x1, y1) ∈ nodes)
    (hx0 : x0 < x) (hx1 : x < x1) (hadj : ∀ p ∈ nodes, ¬ (x0 < p.1 ∧ p.1 < x1)) :
    interpLinear nodes x =
      (y1 - y0) / (F.ofReal x1 - F.ofReal x0) * (F.ofReal x - F.ofReal x0) + y0 := by
  induction nodes with
  | nil => simp at h0
  | cons a t ih =>
    obtain ⟨a, ya⟩ := a
    cases t with
    | nil =>
      simp at h0 h1
      exact absurd (hx0.trans hx1) (by rw [h0.1, h1.1]; exact lt_irrefl _)
    | cons b t =>
      obtain ⟨b, yb⟩ := b
      have hs' : SortedNodes ((b, yb) :: t) := (List.pairwise_cons.1 hs).2
      have hlt := (List.pairwise_cons.1 hs).1
      have hab : a < b := hlt (b, yb) (by simp)
      have hax0 : a ≤ x0 := by
        rcases List.mem_cons.1 h0 with he | hm
        · cases he; exact le_refl _
        · exact le_of_lt (hlt _ hm)
      have hax : a < x := lt_of_le_of_lt hax0 hx0
      simp only [interpLinear, not_lt.2 hax.le, if_false, ne_of_gt hax]
      have hbt : ∀ p ∈ (b, yb) :: t, b ≤ p.1 := by
        intro p hp
        rcases List.mem_cons.1 hp with rfl | hp
        · exact le_refl _
        · exact le_of_lt ((List.pairwise_cons.1 hs').1 _ hp)
      by_cases hxb : x < b
      · simp only [hxb, if_true]
        have e0 : (x0, y0) = (a, ya) := by
          rcases List.mem_cons.1 h0 with he | hm
          · exact he
          · exact absurd (hbt _ hm) (not_le.2 (hx0.trans hxb))
        have hx1b : (x1, y1) ∈ (b, yb) :: t := by
          rcases List.mem_cons.1 h1 with he | hm
          · cases he; exact absurd hx1 (not_lt.2 hax.le)
          · exact hm
        cases e0
        have e1 : x1 = b := by
          have h2 := hbt _ hx1b
          by_contra hne
          exact hadj (b, yb) (by simp) ⟨hab, lt_of_le_of_ne h2 (fun e => hne e.symm)⟩
        subst e1
        have e2 : y1 = yb := hs.unique h1 (by simp)
        rw [e2]
      · simp only [hxb, if_false]
        have hbx : b ≤ x := not_lt.1 hxb
        have m0 : (x0, y0) ∈ (b, yb) :: t := by
          rcases List.mem_cons.1 h0 with he | hm
          · cases he
            exact absurd ⟨hab, lt_of_le_of_lt hbx hx1⟩ (hadj (b, yb) (by simp))
          · exact hm
        have m1 : (x1, y1) ∈ (b, yb) :: t := by
          rcases List.mem_cons.1 h1 with he | hm
          · cases he; exact absurd hx1 (not_lt.2 hax.le)
          · exact hm
        exact ih hs' m0 m1 fun p hp => hadj p (by simp [hp])

theorem interpLinear_outside {nodes : List (ℝ × F)} (hs : SortedNodes nodes) {x : ℝ}
    (h : (∀ p ∈ nodes, x < p.1) ∨ ∀ p ∈ nodes, p.1 < x) : interpLinear nodes x = F.nan := by
  induction nodes with
  | nil => rfl
  | cons a t ih =>
    obtain ⟨a, ya⟩ := a
    cases t with
    | nil =>
      have : x ≠ a := by
        rcases h with h | h
        · exact ne_of_lt (h (a, ya) (by simp))
        · exact ne_of_gt (h (a, ya) (by simp))
      simp [interpLinear, this]
    | cons b t =>
      obtain ⟨b, yb⟩ := b
      have hs' : SortedNodes ((b, yb) :: t) := (List.pairwise_cons.1 hs).2
      rcases h with h | h
      · simp [interpLinear, h (a, ya) (by simp)]
      · have h1 := h (a, ya) (by simp)
        have h2 := h (b, yb) (by simp)
        simp only [interpLinear, not_lt.2 h1.le, if_false, ne_of_gt h1, not_lt.2 h2.le]
        exact ih hs' (Or.inr fun p hp => h p (by simp [hp]))
