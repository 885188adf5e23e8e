import Verif.Num
import Mathlib.Topology.Algebra.Monoid
import Mathlib.Topology.Instances.Real.Lemmas
import Mathlib.Topology.Order.OrderClosed
import Mathlib.Tactic.FieldSimp
import Mathlib.Tactic.FunProp

/-!
# `np.interp`

Piecewise linear interpolation between nodes with increasing abscissae; to the left of the
first node the first value, to the right of the last node the last value.
-/

open Classical in
/-- `np.interp(x, xp, fp)` for one `x`, the nodes given as pairs -/
noncomputable def npInterp : List (ℝ × F) → ℝ → F
  | [], _ => F.nan
  | [(_, y0)], _ => y0
  | (x0, y0) :: (x1, y1) :: t, x =>
    if x ≤ x0 then y0
    else if x < x1 then
      (y1 - y0) / (F.ofReal x1 - F.ofReal x0) * (F.ofReal x - F.ofReal x0) + y0
    else npInterp ((x1, y1) :: t) x

/-- `np.interp` at a computed abscissa -/
noncomputable def npInterpF (l : List (ℝ × F)) (x : F) : F :=
  ⟨(npInterp l x.val).val, x.ok ∧ (npInterp l x.val).ok⟩

open Classical in
/-- the same on real numbers: value of `npInterp` when everything is defined -/
noncomputable def interpR : List (ℝ × ℝ) → ℝ → ℝ
  | [], _ => 0
  | [(_, y0)], _ => y0
  | (x0, y0) :: (x1, y1) :: t, x =>
    if x ≤ x0 then y0
    else if x < x1 then (y1 - y0) / (x1 - x0) * (x - x0) + y0
    else interpR ((x1, y1) :: t) x

namespace Interp

/-- nodes in strictly increasing order -/
def Sorted {β : Type} (l : List (ℝ × β)) : Prop := l.Pairwise fun a b => a.1 < b.1

theorem val_eq : ∀ (l : List (ℝ × F)) (x : ℝ),
    (npInterp l x).val = interpR (l.map fun p => (p.1, p.2.val)) x
  | [], _ => rfl
  | [(_, _)], _ => rfl
  | (x0, y0) :: (x1, y1) :: t, x => by
    have ih := val_eq ((x1, y1) :: t) x
    simp only [List.map_cons] at ih ⊢
    unfold npInterp interpR
    split
    · rfl
    · split
      · simp only [fsimp]
      · exact ih

theorem ok_of : ∀ (l : List (ℝ × F)) (x : ℝ), Sorted l → l ≠ [] → (∀ p ∈ l, p.2.ok) →
    (npInterp l x).ok
  | [], _, _, h, _ => absurd rfl h
  | [(x0, y0)], _, _, _, h => h (x0, y0) (by simp)
  | (x0, y0) :: (x1, y1) :: t, x, hs, _, h => by
    have hs' := List.pairwise_cons.1 hs
    have ih := ok_of ((x1, y1) :: t) x hs'.2 (by simp) (fun p hp => h p (by simp [hp]))
    have h0 := h (x0, y0) (by simp)
    have h1 := h (x1, y1) (by simp)
    have hlt : x0 < x1 := hs'.1 (x1, y1) (by simp)
    unfold npInterp
    split
    · exact h0
    · split
      · simp only [fsimp]
        exact ⟨⟨⟨h1, h0⟩, by linarith⟩, h0⟩
      · exact ih

/-- values in a convex set stay there: used with intervals -/
theorem mem_of (P : ℝ → Prop) (hP : ∀ a b t : ℝ, P a → P b → 0 ≤ t → t ≤ 1 → P (a + t * (b - a))) :
    ∀ (l : List (ℝ × ℝ)) (x : ℝ), Sorted l → l ≠ [] → (∀ p ∈ l, P p.2) → P (interpR l x)
  | [], _, _, h, _ => absurd rfl h
  | [(x0, y0)], _, _, _, h => h (x0, y0) (by simp)
  | (x0, y0) :: (x1, y1) :: t, x, hs, _, h => by
    have hs' := List.pairwise_cons.1 hs
    have ih := mem_of P hP ((x1, y1) :: t) x hs'.2 (by simp) (fun p hp => h p (by simp [hp]))
    have h0 : P y0 := h (x0, y0) (by simp)
    have h1 : P y1 := h (x1, y1) (by simp)
    have hlt : x0 < x1 := hs'.1 (x1, y1) (by simp)
    unfold interpR
    split
    · exact h0
    · rename_i hx0
      split
      · rename_i hx1
        have := hP y0 y1 ((x - x0) / (x1 - x0)) h0 h1
          (div_nonneg (by linarith) (by linarith))
          ((div_le_one (by linarith)).2 (by linarith))
        have e : (y1 - y0) / (x1 - x0) * (x - x0) + y0 = y0 + (x - x0) / (x1 - x0) * (y1 - y0) := by
          ring
        rw [e]; exact this
      · exact ih

theorem pos_of {l : List (ℝ × ℝ)} {x : ℝ} (hs : Sorted l) (hl : l ≠ []) (h : ∀ p ∈ l, 0 < p.2) :
    0 < interpR l x :=
  mem_of (fun y => 0 < y) (fun a b t ha hb h0 h1 => by
    have : a + t * (b - a) = (1 - t) * a + t * b := by ring
    rw [this]
    rcases eq_or_lt_of_le h1 with rfl | h1
    · simpa using hb
    · have := mul_pos (sub_pos.2 h1) ha
      have := mul_nonneg h0 hb.le
      linarith) l x hs hl h

theorem le_of {l : List (ℝ × ℝ)} {x a : ℝ} (hs : Sorted l) (hl : l ≠ []) (h : ∀ p ∈ l, p.2 ≤ a) :
    interpR l x ≤ a :=
  mem_of (fun y => y ≤ a) (fun b c t hb hc h0 h1 => by
    nlinarith) l x hs hl h

theorem ge_of {l : List (ℝ × ℝ)} {x a : ℝ} (hs : Sorted l) (hl : l ≠ []) (h : ∀ p ∈ l, a ≤ p.2) :
    a ≤ interpR l x :=
  mem_of (fun y => a ≤ y) (fun b c t hb hc h0 h1 => by
    nlinarith) l x hs hl h

/-- at a node, the node's value -/
theorem node : ∀ (l : List (ℝ × ℝ)) (p : ℝ × ℝ), Sorted l → p ∈ l → interpR l p.1 = p.2
  | [], _, _, h => by simp at h
  | [(_, _)], _, _, h => by
    simp only [List.mem_singleton] at h; subst h; rfl
  | (x0, y0) :: (x1, y1) :: t, p, hs, h => by
    have hs' := List.pairwise_cons.1 hs
    unfold interpR
    rcases List.mem_cons.1 h with rfl | h
    · simp
    · have ih := node ((x1, y1) :: t) p hs'.2 h
      have hp : x0 < p.1 := hs'.1 p h
      rw [if_neg (not_le.2 hp)]
      have : ¬ p.1 < x1 := by
        rcases List.mem_cons.1 h with rfl | h
        · simp
        · have := (List.pairwise_cons.1 hs'.2).1 p h
          simp only at this; linarith
      rw [if_neg this]; exact ih

/-- interpolation between sorted nodes is continuous -/
theorem continuous : ∀ l : List (ℝ × ℝ), Sorted l → Continuous (interpR l)
  | [], _ => by
    have : interpR [] = fun _ => (0 : ℝ) := by funext x; rfl
    rw [this]; exact continuous_const
  | [(x0, y0)], _ => by
    have : interpR [(x0, y0)] = fun _ => y0 := by funext x; rfl
    rw [this]; exact continuous_const
  | (x0, y0) :: (x1, y1) :: t, hs => by
    have hs' := List.pairwise_cons.1 hs
    have ih := continuous ((x1, y1) :: t) hs'.2
    have hlt : x0 < x1 := hs'.1 (x1, y1) (by simp)
    have e : interpR ((x0, y0) :: (x1, y1) :: t) = fun x => if x ≤ x0 then y0 else
        if x1 ≤ x then interpR ((x1, y1) :: t) x else (y1 - y0) / (x1 - x0) * (x - x0) + y0 := by
      funext x
      rw [interpR]
      by_cases h0 : x ≤ x0
      · simp [h0]
      · by_cases h1 : x < x1
        · simp [h0, h1, not_le.2 h1]
        · simp [h0, h1, not_lt.1 h1]
    rw [e]
    refine Continuous.if_le continuous_const (Continuous.if_le ih (by fun_prop) continuous_const
      continuous_id ?_) continuous_id continuous_const ?_
    · intro x hx
      have hx : x1 = x := hx
      subst hx
      rw [node ((x1, y1) :: t) (x1, y1) hs'.2 (by simp)]
      have : x1 - x0 ≠ 0 := by linarith
      field_simp
      ring
    · intro x hx
      have hx : x = x0 := hx
      subst hx
      rw [if_neg (not_le.2 hlt)]
      simp

section family
variable {α : Type} (xs : α → ℝ)

/-- interpolation is linear in the node values -/
theorem sub (f g : α → ℝ) (T : ℝ) : ∀ l : List α,
    interpR (l.map fun c => (xs c, f c)) T - interpR (l.map fun c => (xs c, g c)) T =
      interpR (l.map fun c => (xs c, f c - g c)) T
  | [] => by simp [interpR]
  | [c] => rfl
  | c :: d :: t => by
    have ih := sub f g T (d :: t)
    simp only [List.map_cons] at ih ⊢
    unfold interpR
    split
    · rfl
    · split
      · ring
      · exact ih

theorem smul (f : α → ℝ) (k T : ℝ) : ∀ l : List α,
    interpR (l.map fun c => (xs c, k * f c)) T = k * interpR (l.map fun c => (xs c, f c)) T
  | [] => by simp [interpR]
  | [c] => rfl
  | c :: d :: t => by
    have ih := smul f k T (d :: t)
    simp only [List.map_cons] at ih ⊢
    unfold interpR
    split
    · rfl
    · split
      · ring
      · exact ih

open Filter Topology in
/-- the interpolated value follows the limits of the node values -/
theorem tendsto {β : Type} {F : Filter β} (f : β → α → ℝ) (L : α → ℝ) (T : ℝ) : ∀ l : List α,
    (∀ c ∈ l, Tendsto (fun b => f b c) F (𝓝 (L c))) →
    Tendsto (fun b => interpR (l.map fun c => (xs c, f b c)) T) F
      (𝓝 (interpR (l.map fun c => (xs c, L c)) T))
  | [], _ => by simpa [interpR] using tendsto_const_nhds
  | [c], h => by simpa [interpR] using h c (by simp)
  | c :: d :: t, h => by
    have ih := tendsto f L T (d :: t) (fun e he => h e (by simp [he]))
    have hc := h c (by simp)
    have hd := h d (by simp)
    simp only [List.map_cons] at ih ⊢
    unfold interpR
    split
    · exact hc
    · split
      · exact (((hd.sub hc).div_const _).mul_const _).add hc
      · exact ih

end family

end Interp
