import Verif.Num

/-! # `np.argmin` -/

open Classical in
/-- `np.argmin`: the first position of the smallest value (of a non-empty array of numbers) -/
noncomputable def argmin : List F → ℕ
  | [] => 0
  | [_] => 0
  | x :: y :: l =>
    if ∀ z ∈ y :: l, x.val ≤ z.val then 0 else argmin (y :: l) + 1

theorem argmin_lt : ∀ {l : List F}, l ≠ [] → argmin l < l.length
  | [], h => absurd rfl h
  | [_], _ => by simp [argmin]
  | x :: y :: l, _ => by
    have ih := argmin_lt (l := y :: l) (by simp)
    unfold argmin
    split
    · simp
    · simpa using ih

theorem argmin_le : ∀ {l : List F}, ∀ z ∈ l, (l.getD (argmin l) F.nan).val ≤ z.val
  | [], z, h => by simp at h
  | [x], z, h => by simp at h; simp [argmin, h]
  | x :: y :: l, z, h => by
    have ih := argmin_le (l := y :: l)
    unfold argmin
    split
    · rename_i hx
      rcases List.mem_cons.1 h with rfl | h
      · simp
      · simpa using hx z h
    · rename_i hx
      push Not at hx
      obtain ⟨w, hw, hlt⟩ := hx
      rw [List.getD_cons_succ]
      rcases List.mem_cons.1 h with rfl | h
      · exact (ih w hw).trans hlt.le
      · exact ih z h

theorem argmin_first : ∀ {l : List F} {k : ℕ}, k < argmin l →
    (l.getD (argmin l) F.nan).val < (l.getD k F.nan).val
  | [], k, h => by simp [argmin] at h
  | [x], k, h => by simp [argmin] at h
  | x :: y :: l, k, h => by
    unfold argmin at h ⊢
    split
    · rename_i hx; rw [if_pos hx] at h; omega
    · rename_i hx
      rw [if_neg hx] at h
      push Not at hx
      obtain ⟨w, hw, hlt⟩ := hx
      rw [List.getD_cons_succ]
      cases k with
      | zero => exact (argmin_le w hw).trans_lt hlt
      | succ k => rw [List.getD_cons_succ]; exact argmin_first (by omega)

/-- a strict minimum is the selected position -/
theorem argmin_eq {l : List F} {k : ℕ} (hk : k < l.length)
    (h : ∀ j < l.length, j ≠ k → (l.getD k F.nan).val < (l.getD j F.nan).val) : argmin l = k := by
  by_contra hne
  have hl : l ≠ [] := by rintro rfl; simp at hk
  have h1 := h _ (argmin_lt hl) hne
  have hm : l.getD k F.nan ∈ l := by
    rw [List.getD_eq_getElem?_getD, List.getElem?_eq_getElem hk]; simp
  have h2 := argmin_le (l := l) _ hm
  linarith
