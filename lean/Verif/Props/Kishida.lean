import Verif.Models.Kishida
import Verif.Props.BJ08
import Mathlib.Analysis.Matrix.PosDef
import Mathlib.Data.Real.StarOrdered
import Mathlib.LinearAlgebra.Matrix.SchurComplement
import Mathlib.Data.List.NodupEquivFin

/-! # C36, C37: the conditional mean spectrum vector of Kishida (2017) -/

set_option linter.unusedSimpArgs false

namespace Kishida

/-- the periods strictly increase -/
def Increasing (l : List Point) : Prop := l.Pairwise fun p q => p.period < q.period

theorem increasing_iff : ∀ l : List Point, increasing l = true ↔ Increasing l
  | [] => by simp [increasing, Increasing]
  | [p] => by simp [increasing, Increasing]
  | p :: q :: l => by
    have ih := increasing_iff (q :: l)
    simp only [increasing, Bool.and_eq_true, decide_eq_true_eq, ih, Increasing, List.pairwise_cons]
    constructor
    · rintro ⟨h1, h2, h3⟩
      refine ⟨fun r hr => ?_, h2, h3⟩
      rcases List.mem_cons.1 hr with rfl | hr
      · exact h1
      · exact h1.trans (h2 r hr)
    · rintro ⟨h1, h2, h3⟩
      exact ⟨h1 q (by simp), h2, h3⟩

/-- the entry of a point -/
noncomputable def entry (l : List Point) (p : Point) : F × F :=
  match p.cond with
  | none => (mean (allOk l) p (given l), std (allOk l) p (given l))
  | some x => (F.ofReal x, 0)

theorem entries_eq (l : List Point) :
    entries l = (grouped l).map fun p => (p.period, entry l p) := by
  unfold entries grouped
  rw [List.map_append]
  congr 1
  · apply List.map_congr_left
    intro p hp
    have : p.cond = none := by simpa [masked] using (List.mem_filter.1 hp).2
    simp only [entry, this]
  · apply List.map_congr_left
    intro p hp
    obtain ⟨x, hx⟩ := Option.isSome_iff_exists.1 (List.mem_filter.1 hp).2
    simp only [entry, hx, Option.getD_some]

theorem grouped_perm (l : List Point) : (grouped l).Perm l := by
  have h := List.filter_append_perm (fun p : Point => p.cond.isNone) l
  refine List.Perm.trans (List.Perm.of_eq ?_) h
  unfold grouped masked given
  congr 2
  funext p
  cases p.cond <;> rfl

theorem sorted_eq {l : List Point} (h : Increasing l) :
    ((entries l).insertionSort fun a b => a.1 ≤ b.1) = l.map fun p => (p.period, entry l p) := by
  have hp : ((entries l).insertionSort fun a b => a.1 ≤ b.1).Perm (l.map fun p => (p.period, entry l p)) := by
    refine (List.perm_insertionSort _ _).trans ?_
    rw [entries_eq]
    exact (grouped_perm l).map _
  have hlt : (l.map fun p => (p.period, entry l p)).Pairwise fun a b => a.1 < b.1 := by
    rw [List.pairwise_map]; exact h
  have hle : ((entries l).insertionSort fun a b => a.1 ≤ b.1).Pairwise fun a b => a.1 ≤ b.1 :=
    List.pairwise_insertionSort _ _
  refine List.Perm.eq_of_pairwise ?_ hle (hlt.imp fun h => h.le) hp
  intro a b ha hb hab hba
  have hab' : a.1 = b.1 := le_antisymm hab hba
  have ha' := hp.mem_iff.1 ha
  by_contra hne
  obtain ⟨p, hp1, rfl⟩ := List.mem_map.1 ha'
  obtain ⟨q, hq1, rfl⟩ := List.mem_map.1 hb
  apply hne
  have hpq : p = q := by
    by_contra hpq
    rcases List.pairwise_iff_getElem.1 h with hh
    obtain ⟨i, hi, rfl⟩ := List.getElem_of_mem hp1
    obtain ⟨j, hj, rfl⟩ := List.getElem_of_mem hq1
    rcases lt_trichotomy i j with hij | rfl | hij
    · exact absurd hab' (hh i j hi hj hij).ne
    · exact hpq rfl
    · exact absurd hab' (hh j i hj hi hij).ne'
  rw [hpq]

theorem calc_of {l : List Point} (h : Increasing l) (hd : (covar22 (given l)).det ≠ 0) :
    calcCmsv l = pure (l.map (entry l)) := by
  unfold calcCmsv
  have hi := (increasing_iff l).2 h
  rw [if_neg (by rw [hi]; decide), if_neg hd, sorted_eq h, List.map_map]
  rfl

end Kishida

open Kishida in
/-- Kishida: the call raises `ValueError` exactly when the periods do not strictly increase,
whatever the other arrays and the mask are. -/
theorem C36_increasing (l : List Kishida.Point) :
    (∃ t, (calcCmsv l).res = .error (.valueError t)) ↔ ¬ l.Pairwise fun p q => p.period < q.period := by
  change _ ↔ ¬ Increasing l
  rw [← increasing_iff]
  unfold calcCmsv
  by_cases h : increasing l = true
  · rw [if_neg (by rw [h]; decide)]
    split
    · simp [h]
    · simp [h]
  · have h' : increasing l = false := by simpa using h
    rw [if_pos h']
    simp [h']

open Kishida in
/-- Kishida: for increasing periods, the call fails only with `LinAlgError`, exactly when the
covariance matrix of the conditioned periods is singular; otherwise there is one result per period,
in the caller's order, and every conditioned period has exactly its conditioning value and standard
deviation zero, for every number of conditioned periods. -/
theorem C36_targets (l : List Kishida.Point) (h : l.Pairwise fun p q => p.period < q.period) :
    ((covar22 (given l)).det = 0 → calcCmsv l = Py.raise .linAlgError) ∧
    ((covar22 (given l)).det ≠ 0 → ∃ o, calcCmsv l = pure o ∧ o.length = l.length ∧
      ∀ (i : ℕ) (p : Kishida.Point) (x : ℝ), l[i]? = some p → p.cond = some x →
        ∃ m s : F, o[i]? = some (m, s) ∧ m.ok ∧ s.ok ∧ m.val = x ∧ s.val = 0) := by
  constructor
  · intro hd
    unfold calcCmsv
    rw [if_neg (by rw [(increasing_iff l).2 h]; decide), if_pos hd]
  · intro hd
    refine ⟨_, calc_of h hd, by simp, fun i p x hi hx => ⟨F.ofReal x, 0, ?_, ?_⟩⟩
    · rw [BJ08.map_get hi]; simp only [entry, hx]
    · simp only [fsimp]

namespace Kishida

theorem covar_ok {p q : Point} (hp : 0.01 ≤ p.period) : (covar p q).ok := by
  have : (BJ08.correl p.period q.period).ok := by
    apply BJ08.correl_ok
    intro e
    have : (0.01 : ℝ) ≤ max p.period q.period := hp.trans (le_max_left _ _)
    rw [e] at this; norm_num at this
  simp only [covar, fsimp, this]

theorem allOk_of {l : List Point} (h : ∀ p ∈ l, 0.01 ≤ p.period) : allOk l := fun p hp _ _ =>
  covar_ok (h p ((grouped_perm l).mem_iff.1 hp))

theorem covar_symm (p q : Point) : (covar p q).val = (covar q p).val := by
  simp only [covar, fsimp, BJ08.correl_symm p.period q.period]; ring

theorem covar_self (p : Point) : (covar p p).val = p.lnStd ^ 2 := by
  simp only [covar, fsimp, BJ08.correl_val, min_self, max_self, BJ08.selR_diag]; ring

theorem col_eq (p : Point) (u : List Point) : col21 p u = row12 p u := by
  funext j; simp only [col21, row12, covar_symm]

/-- the covariance matrix of all periods, in the caller's order -/
noncomputable def covarAll (l : List Point) : Matrix (Fin l.length) (Fin l.length) ℝ :=
  Matrix.of fun i j => (covar l[i] l[j]).val

theorem covarAll_apply (l : List Point) (i j : Fin l.length) :
    covarAll l i j = (covar (l.get i) (l.get j)).val := rfl

theorem covar22_apply (u : List Point) (i j : Fin u.length) :
    covar22 u i j = (covar (u.get i) (u.get j)).val := rfl

/-- the conditioned periods are some of the periods -/
theorem embed (l : List Point) : ∃ e : Fin (given l).length → Fin l.length, Function.Injective e ∧
    ∀ j, (given l).get j = l.get (e j) := by
  obtain ⟨e, he⟩ := List.sublist_iff_exists_fin_orderEmbedding_get_eq.1
    (List.filter_sublist : (given l).Sublist l)
  exact ⟨e, e.injective, he⟩

theorem covar22_posDef {l : List Point} (h : (covarAll l).PosDef) : (covar22 (given l)).PosDef := by
  obtain ⟨e, hinj, he⟩ := embed l
  have : covar22 (given l) = (covarAll l).submatrix e e := by
    ext i j
    rw [covar22_apply, Matrix.submatrix_apply, covarAll_apply, he i, he j]
  rw [this]
  exact h.submatrix hinj

end Kishida

open Kishida Matrix in
/-- Kishida: when the covariance matrix of all the periods is positive definite, nothing fails: every
value is defined, and at the periods that are not conditioned the standard deviation is not larger
than the original one. -/
theorem C36_std (l : List Kishida.Point) (h : l.Pairwise fun p q => p.period < q.period)
    (hr : ∀ p ∈ l, 0.01 ≤ p.period) (hs : ∀ p ∈ l, 0 < p.lnStd) (hpd : (covarAll l).PosDef) :
    ∃ o, calcCmsv l = pure o ∧ o.length = l.length ∧
      ∀ (i : ℕ) (p : Kishida.Point), l[i]? = some p → ∃ m s : F, o[i]? = some (m, s) ∧ m.ok ∧ s.ok ∧
        0 ≤ s.val ∧ s.val ≤ p.lnStd := by
  have hd := covar22_posDef hpd
  have hdet : (covar22 (given l)).det ≠ 0 := hd.det_pos.ne'
  refine ⟨_, calc_of h hdet, by simp, fun i p hi => ⟨_, _, BJ08.map_get hi _, ?_⟩⟩
  have hpm := List.mem_of_getElem? hi
  rcases hx : p.cond with _ | x
  · simp only [entry, hx]
    have hok := allOk_of hr
    have hinv := hd.inv
    have q0 : 0 ≤ row12 p (given l) ⬝ᵥ ((covar22 (given l))⁻¹.mulVec (row12 p (given l))) := by
      have := hinv.posSemidef.dotProduct_mulVec_nonneg (row12 p (given l))
      simpa using this
    have hself := covar_self p
    have hsp := hs p hpm
    -- the Schur complement of the conditioned periods
    have q1 : 0 ≤ p.lnStd ^ 2 - row12 p (given l) ⬝ᵥ ((covar22 (given l))⁻¹.mulVec (row12 p (given l))) := by
      obtain ⟨hil, hip⟩ := List.getElem?_eq_some_iff.1 hi
      obtain ⟨e, hinj, he⟩ := embed l
      have hip' : l.get ⟨i, hil⟩ = p := hip
      let f : Unit ⊕ Fin (given l).length → Fin l.length := Sum.elim (fun _ => ⟨i, hil⟩) e
      have hf : Function.Injective f := by
        rintro (a | a) (b | b) hab
        · rfl
        · exfalso
          have h1 : l.get (e b) = p := by
            have : (⟨i, hil⟩ : Fin l.length) = e b := hab
            rw [← this]; exact hip
          have h2 := he b
          have h3 : (given l).get b ∈ given l := List.get_mem _ _
          rw [h2, h1] at h3
          have := (List.mem_filter.1 h3).2
          rw [hx] at this; cases this
        · exfalso
          have h1 : l.get (e a) = p := by
            have : e a = (⟨i, hil⟩ : Fin l.length) := hab
            rw [this]; exact hip
          have h2 := he a
          have h3 : (given l).get a ∈ given l := List.get_mem _ _
          rw [h2, h1] at h3
          have := (List.mem_filter.1 h3).2
          rw [hx] at this; cases this
        · exact congrArg Sum.inr (hinj hab)
      have hsub := (hpd.submatrix hf).posSemidef
      let B : Matrix Unit (Fin (given l).length) ℝ := Matrix.of fun _ j => row12 p (given l) j
      have hb : (covarAll l).submatrix f f =
          Matrix.fromBlocks (Matrix.of fun _ _ => p.lnStd ^ 2) B Bᴴ (covar22 (given l)) := by
        ext a b
        rcases a with a | a <;> rcases b with b | b
        · rw [Matrix.submatrix_apply, covarAll_apply, Matrix.fromBlocks_apply₁₁]
          change (covar (l.get ⟨i, hil⟩) (l.get ⟨i, hil⟩)).val = p.lnStd ^ 2
          rw [hip', hself]
        · rw [Matrix.submatrix_apply, covarAll_apply, Matrix.fromBlocks_apply₁₂]
          change (covar (l.get ⟨i, hil⟩) (l.get (e b))).val = (covar p ((given l).get b)).val
          rw [hip', he b]
        · rw [Matrix.submatrix_apply, covarAll_apply, Matrix.fromBlocks_apply₂₁]
          change (covar (l.get (e a)) (l.get ⟨i, hil⟩)).val = star (covar p ((given l).get a)).val
          rw [hip', he a, covar_symm, star_trivial]
        · rw [Matrix.submatrix_apply, covarAll_apply, Matrix.fromBlocks_apply₂₂, covar22_apply]
          change (covar (l.get (e a)) (l.get (e b))).val = _
          rw [he a, he b]
      rw [hb] at hsub
      haveI : Invertible (covar22 (given l)) := Matrix.invertibleOfIsUnitDet _ (isUnit_iff_ne_zero.2 hdet)
      have hsch := (Matrix.PosDef.fromBlocks₂₂ (Matrix.of fun _ _ => p.lnStd ^ 2) B hd).1 hsub
      have hdiag := hsch.diag_nonneg (i := ())
      simp only [Matrix.sub_apply, Matrix.of_apply] at hdiag
      have eq : (B * (covar22 (given l))⁻¹ * Bᴴ) () () =
          row12 p (given l) ⬝ᵥ ((covar22 (given l))⁻¹.mulVec (row12 p (given l))) := by
        rw [Matrix.mul_apply]
        simp only [B, Matrix.conjTranspose_apply, Matrix.of_apply, star_trivial]
        rw [Matrix.dotProduct_mulVec]
        rfl
      rw [eq] at hdiag
      exact hdiag
    have e1 : (covar p p).val - row12 p (given l) ⬝ᵥ ((covar22 (given l))⁻¹.mulVec (col21 p (given l))) =
        p.lnStd ^ 2 - row12 p (given l) ⬝ᵥ ((covar22 (given l))⁻¹.mulVec (row12 p (given l))) := by
      rw [hself, col_eq]
    refine ⟨hok, ⟨hok, ?_⟩, Real.sqrt_nonneg _, ?_⟩
    · rw [F.val_mk, e1]; exact q1
    · simp only [std, F.val_sqrt, F.val_mk, e1]
      rw [Real.sqrt_le_left hsp.le]
      linarith
  · simp only [entry, hx, fsimp]
    exact ⟨le_rfl, (hs p hpm).le⟩

namespace Kishida

/-- two different periods have a positive definite covariance matrix -/
theorem two_posDef (p q : Point) (h : p.period < q.period) (hp : 0.01 ≤ p.period) (hq : q.period ≤ 500)
    (hs : 0 < p.lnStd) (hs' : 0 < q.lnStd) : (covarAll [p, q]).PosDef := by
  obtain ⟨y, hy, -, y0, y1, y2⟩ := C34_range [p.period] p.period q.period 0 rfl hp (h.le.trans hq)
    (hp.trans h.le) hq
  have hy' : y = BJ08.correl p.period q.period := by simpa [BJ08.calcCorrels] using hy.symm
  rw [hy'] at y0 y1 y2
  set ρ := (BJ08.correl p.period q.period).val with hρ
  have hlt : ρ < 1 := lt_of_le_of_ne y1 fun e => h.ne (y2.1 e)
  have c12 : (covar p q).val = p.lnStd * ρ * q.lnStd := by simp only [covar, fsimp, hρ]
  refine Matrix.PosDef.of_dotProduct_mulVec_pos ?_ ?_
  · ext i j
    rw [Matrix.conjTranspose_apply, covarAll_apply, covarAll_apply, covar_symm, star_trivial]
  · intro x hx
    change Fin 2 → ℝ at x
    have e : star x ⬝ᵥ (covarAll [p, q]).mulVec x =
        (p.lnStd * x 0) ^ 2 + 2 * ρ * (p.lnStd * x 0) * (q.lnStd * x 1) + (q.lnStd * x 1) ^ 2 := by
      have a00 : covarAll [p, q] (0 : Fin 2) (0 : Fin 2) = p.lnStd ^ 2 := covar_self p
      have a11 : covarAll [p, q] (1 : Fin 2) (1 : Fin 2) = q.lnStd ^ 2 := covar_self q
      have a01 : covarAll [p, q] (0 : Fin 2) (1 : Fin 2) = p.lnStd * ρ * q.lnStd := c12
      have a10 : covarAll [p, q] (1 : Fin 2) (0 : Fin 2) = p.lnStd * ρ * q.lnStd := by
        rw [← c12, covar_symm p q]; rfl
      have s : ∀ f : Fin 2 → ℝ, ∑ i : Fin ([p, q] : List Point).length, f i = f 0 + f 1 := Fin.sum_univ_two
      change ∑ i : Fin ([p, q] : List Point).length, x i * (∑ j : Fin ([p, q] : List Point).length,
        covarAll [p, q] i j * x j) = _
      rw [s fun i => x i * _, s fun j => covarAll [p, q] (0 : Fin 2) j * x j,
        s fun j => covarAll [p, q] (1 : Fin 2) j * x j, a00, a01, a10, a11]
      ring
    rw [e]
    set a := p.lnStd * x 0
    set b := q.lnStd * x 1
    have hab : a ≠ 0 ∨ b ≠ 0 := by
      by_contra hc
      push Not at hc
      apply hx
      funext i
      have h0 : x 0 = 0 := by rcases mul_eq_zero.1 hc.1 with h | h; exact absurd h hs.ne'; exact h
      have h1 : x 1 = 0 := by rcases mul_eq_zero.1 hc.2 with h | h; exact absurd h hs'.ne'; exact h
      change Fin 2 at i
      fin_cases i
      · exact h0
      · exact h1
    have hsq : 0 < a ^ 2 + b ^ 2 := by
      rcases hab with h | h
      · have : 0 < a ^ 2 := by positivity
        nlinarith [sq_nonneg b]
      · have : 0 < b ^ 2 := by positivity
        nlinarith [sq_nonneg a]
    nlinarith [sq_nonneg (a + b), sq_nonneg (a - b)]

/-- two periods, the second one conditioned -/
def exList : List Point := [⟨⟨0.1, -1, 0.6⟩, none⟩, ⟨⟨0.5, -1.5, 0.65⟩, some (-1.2)⟩]

end Kishida

example : Kishida.exList.Pairwise (fun p q => p.period < q.period) ∧
    (∀ p ∈ Kishida.exList, 0.01 ≤ p.period) ∧ (∀ p ∈ Kishida.exList, 0 < p.lnStd) ∧
    (Kishida.covarAll Kishida.exList).PosDef ∧
    (Kishida.covar22 (Kishida.given Kishida.exList)).det ≠ 0 := by
  have hpd : (Kishida.covarAll Kishida.exList).PosDef := by
    apply Kishida.two_posDef <;> norm_num
  refine ⟨?_, ?_, ?_, hpd, (Kishida.covar22_posDef hpd).det_pos.ne'⟩
  · simp [Kishida.exList]; norm_num
  · simp [Kishida.exList]; norm_num
  · simp [Kishida.exList]; norm_num

namespace Kishida

theorem given_single {l : List Point} (h : Increasing l) {p : Point} (hp : p ∈ l) {x : ℝ}
    (hx : p.cond = some x) (ho : ∀ q ∈ l, q ≠ p → q.cond = none) : given l = [p] := by
  have hn : l.Nodup := h.imp fun {a b} hab => by rintro rfl; exact lt_irrefl _ hab
  have hperm : (given l).Perm [p] := by
    unfold given
    rw [List.perm_ext_iff_of_nodup (hn.filter _) (List.nodup_singleton p)]
    intro q
    rw [List.mem_singleton]
    constructor
    · intro hq
      obtain ⟨h1, h2⟩ := List.mem_filter.1 hq
      by_contra hne
      rw [ho q h1 hne] at h2; cases h2
    · rintro rfl
      exact List.mem_filter.2 ⟨hp, by rw [hx]; rfl⟩
  exact List.perm_singleton.1 hperm

theorem det_single (p : Point) : (covar22 [p]).det = p.lnStd ^ 2 := by
  have : (covar22 [p]).det = covar22 [p] (0 : Fin 1) (0 : Fin 1) :=
    Matrix.det_eq_elem_of_subsingleton (n := Fin 1) _ _
  rw [this, covar22_apply]
  exact covar_self p

theorem quad_single (p : Point) (v w : Fin [p].length → ℝ) :
    v ⬝ᵥ ((covar22 [p])⁻¹.mulVec w) = v (0 : Fin 1) * w (0 : Fin 1) / p.lnStd ^ 2 := by
  have hinv : (covar22 [p])⁻¹ = Matrix.diagonal fun i => Ring.inverse (covar22 [p] i i) :=
    Matrix.inv_subsingleton (m := Fin 1) _
  have s : ∀ f : Fin 1 → ℝ, ∑ i : Fin ([p] : List Point).length, f i = f 0 := Fin.sum_univ_one
  have hm : (covar22 [p])⁻¹.mulVec w = fun i => Ring.inverse (covar22 [p] i i) * w i := by
    rw [hinv]; funext i; exact Matrix.mulVec_diagonal _ _ _
  rw [hm]
  change ∑ i : Fin ([p] : List Point).length, v i * (Ring.inverse (covar22 [p] i i) * w i) = _
  rw [s fun i => v i * _, covar22_apply, Ring.inverse_eq_inv']
  change v (0 : Fin 1) * ((covar p p).val⁻¹ * w (0 : Fin 1)) = _
  rw [covar_self, div_eq_mul_inv]
  ring

end Kishida

open Kishida in
/-- Kishida: with a single conditioned period the result is that of `calc_cond_mean_spectrum` for
that period and that target: at every period the same median and the same standard deviation. -/
theorem C37_single (l : List Kishida.Point) (h : l.Pairwise fun p q => p.period < q.period)
    (hr : ∀ p ∈ l, 0.01 ≤ p.period ∧ p.period ≤ 500) (hs : ∀ p ∈ l, 0 < p.lnStd) (p₀ : Kishida.Point)
    (hp₀ : p₀ ∈ l) (x : ℝ) (hx : p₀.cond = some x) (ho : ∀ q ∈ l, q ≠ p₀ → q.cond = none) :
    ∃ o o', calcCmsv l = pure o ∧
      BJ08.calcCms (l.map fun p => p.toPoint) p₀.period x = pure o' ∧
      List.Forall₂ (fun a b => F.Same a.1 b.1 ∧ F.Same a.2 b.2) o o' := by
  have hg := given_single h hp₀ hx ho
  have hd : (covar22 (given l)).det ≠ 0 := by
    rw [hg, det_single]; exact (pow_pos (hs _ hp₀) 2).ne'
  have hsp : BJ08.Spectrum (l.map fun p => p.toPoint) := by
    constructor
    · rw [List.pairwise_map]; exact h
    · intro q hq
      obtain ⟨p, hp, rfl⟩ := List.mem_map.1 hq
      exact hs p hp
  have hl : l.map (fun p => p.toPoint) ≠ [] := by
    have : l ≠ [] := List.ne_nil_of_mem hp₀
    simpa using this
  refine ⟨_, _, calc_of h hd, BJ08.calcCms_of hl _ _, ?_⟩
  rw [List.map_map, List.forall₂_map_left_iff, List.forall₂_map_right_iff, List.forall₂_same]
  intro p hp
  have hok := allOk_of fun q hq => (hr q hq).1
  have hmem : p₀.toPoint ∈ l.map fun p => p.toPoint := List.mem_map.2 ⟨p₀, hp₀, rfl⟩
  have hs0 := (hs p₀ hp₀).ne'
  have hε : (BJ08.epsilon (l.map fun p => p.toPoint) p₀.period x).val = (x - p₀.lnPsa) / p₀.lnStd := by
    simp only [BJ08.epsilon, fsimp]
    rw [BJ08.interp_node hsp hmem BJ08.Point.lnPsa, BJ08.interp_node hsp hmem BJ08.Point.lnStd]
  have hεok := BJ08.epsilon_ok hsp hl p₀.period x
  obtain ⟨y, hy, k2, y0, y1, y2⟩ := C34_range [p.period] p.period p₀.period 0 rfl (hr p hp).1 (hr p hp).2
    (hr p₀ hp₀).1 (hr p₀ hp₀).2
  have hy' : y = BJ08.correl p.period p₀.period := by simpa [BJ08.calcCorrels] using hy.symm
  rw [hy'] at k2 y0 y1 y2
  have hρ : 0 ≤ 1 - (BJ08.correl p.period p₀.period).val ^ 2 := by nlinarith
  have hvar : 0 ≤ p.lnStd ^ 2 * (1 - (BJ08.correl p.period p₀.period).val ^ 2) := by positivity
  simp only [Function.comp]
  by_cases hpp : p = p₀
  · subst hpp
    have e1 := y2.2 rfl
    simp only [entry, hx]
    refine ⟨⟨?_, ?_, ?_⟩, ⟨?_, ?_, ?_⟩⟩
    · simp only [fsimp]
    · simp only [fsimp, k2, hεok]
    · simp only [fsimp, hε, e1]; field_simp; ring
    · simp only [fsimp]
    · simp only [fsimp, k2, true_and]; exact hvar
    · simp only [fsimp, e1]; norm_num
  · have hc := ho p hp hpp
    simp only [entry, hc]
    rw [hg]
    have r0 : row12 p [p₀] (0 : Fin 1) = p.lnStd * (BJ08.correl p.period p₀.period).val * p₀.lnStd := by
      change (covar p p₀).val = _
      simp only [covar, fsimp]
    have t0 : resids [p₀] (0 : Fin 1) = x - p₀.lnPsa := by
      change p₀.cond.getD 0 - p₀.lnPsa = _
      rw [hx]; rfl
    have e1 : (covar p p).val - row12 p [p₀] ⬝ᵥ ((covar22 [p₀])⁻¹.mulVec (col21 p [p₀])) =
        p.lnStd ^ 2 * (1 - (BJ08.correl p.period p₀.period).val ^ 2) := by
      rw [quad_single, col_eq, r0, covar_self]
      field_simp
    refine ⟨⟨?_, ?_, ?_⟩, ⟨?_, ?_, ?_⟩⟩
    · exact hok
    · simp only [fsimp, k2, hεok]
    · simp only [mean, fsimp, hε]
      rw [quad_single, r0, t0]
      field_simp
    · refine ⟨hok, ?_⟩
      rw [F.val_mk, e1]; exact hvar
    · simp only [fsimp, k2, true_and]; exact hvar
    · simp only [std, fsimp]
      rw [e1]

example : ∃ (l : List Kishida.Point) (p : Kishida.Point), p ∈ l ∧ p.cond = some (-1.2) ∧
    ∀ q ∈ l, q ≠ p → q.cond = none :=
  ⟨Kishida.exList, ⟨⟨0.5, -1.5, 0.65⟩, some (-1.2)⟩, by simp [Kishida.exList], rfl, by
    simp [Kishida.exList]⟩

open Kishida in
/-- Kishida: when nothing is conditioned (everything is masked) the spectrum is returned unchanged. -/
theorem C36_all_masked (l : List Kishida.Point) (h : l.Pairwise fun p q => p.period < q.period)
    (hr : ∀ p ∈ l, 0.01 ≤ p.period) (hs : ∀ p ∈ l, 0 < p.lnStd) (hm : ∀ p ∈ l, p.cond = none) :
    ∃ o, calcCmsv l = pure o ∧ List.Forall₂ (fun (p : Kishida.Point) a => a.1.ok ∧ a.2.ok ∧
      a.1.val = p.lnPsa ∧ a.2.val = p.lnStd) l o := by
  have hg : given l = [] := by
    unfold given
    rw [List.filter_eq_nil_iff]
    intro p hp
    rw [hm p hp]; simp
  have hd : (covar22 (given l)).det ≠ 0 := by
    rw [hg, Matrix.det_isEmpty (n := Fin 0)]; exact one_ne_zero
  refine ⟨_, calc_of h hd, ?_⟩
  rw [List.forall₂_map_right_iff, List.forall₂_same]
  intro p hp
  have hok := allOk_of hr
  have z : ∀ v w : Fin ([] : List Kishida.Point).length → ℝ,
      v ⬝ᵥ ((covar22 [])⁻¹.mulVec w) = 0 := fun v w => by
    unfold dotProduct
    exact Finset.sum_of_isEmpty (ι := Fin 0) _
  simp only [entry, hm p hp]
  rw [hg]
  refine ⟨hok, ⟨hok, ?_⟩, ?_, ?_⟩
  · rw [F.val_mk, z, covar_self, sub_zero]; positivity
  · simp only [mean, fsimp, z, add_zero]
  · simp only [std, fsimp, z, sub_zero, covar_self]
    exact Real.sqrt_sq (hs p hp).le
