import Verif.Props.Kishida
import Mathlib.LinearAlgebra.Matrix.Determinant.Basic

/-!
# C133: conditioning a conditional mean spectrum again
-/

set_option linter.unusedSimpArgs false

/-- the result `o` of a conditional spectrum computation on `l`, passed on as a spectrum (values only) -/
def BJ08.refeed (l : List BJ08.Point) (o : List (F × F)) : List BJ08.Point :=
  List.zipWith (fun p a => ⟨p.period, a.1.val, a.2.val⟩) l o

/-- the same, with new targets `t` (`none`: masked) -/
def Kishida.refeed (l : List Kishida.Point) (o : List (F × F)) (t : List (Option ℝ)) : List Kishida.Point :=
  List.zipWith (fun p c => ⟨p, c⟩) (BJ08.refeed (l.map fun p => p.toPoint) o) t

namespace BJ08

theorem refeed_map (l : List Point) (f : Point → F × F) :
    refeed l (l.map f) = l.map fun p => ⟨p.period, (f p).1.val, (f p).2.val⟩ := by
  induction l with
  | nil => rfl
  | cons p l ih =>
    simp only [refeed, List.map_cons, List.zipWith_cons_cons] at ih ⊢
    rw [ih]

/-- at a tabulated period, whatever the deviations -/
theorem node_of {l : List Point} (h : l.Pairwise fun p q => p.period < q.period) {p : Point} (hp : p ∈ l) (f : Point → ℝ) :
    (npInterp (l.map fun p => (p.period, F.ofReal (f p))) p.period).ok ∧
    (npInterp (l.map fun p => (p.period, F.ofReal (f p))) p.period).val = f p := by
  have hs : Interp.Sorted (l.map fun p => (p.period, F.ofReal (f p))) := by
    unfold Interp.Sorted
    rw [List.pairwise_map]
    exact h
  constructor
  · refine Interp.ok_of _ _ hs ?_ ?_
    · intro e
      rw [List.map_eq_nil_iff] at e
      rw [e] at hp
      simp at hp
    · intro a ha
      obtain ⟨q, -, rfl⟩ := List.mem_map.1 ha
      trivial
  · rw [interp_val]
    refine Interp.node _ (p.period, f p) ?_ (List.mem_map.2 ⟨p, hp, rfl⟩)
    unfold Interp.Sorted
    rw [List.pairwise_map]
    exact h

theorem epsilon_node {l : List Point} (h : l.Pairwise fun p q => p.period < q.period) {p : Point} (hp : p ∈ l) (y : ℝ) :
    ((epsilon l p.period y).ok ↔ p.lnStd ≠ 0) ∧ (epsilon l p.period y).val = (y - p.lnPsa) / p.lnStd := by
  obtain ⟨a1, a2⟩ := node_of h hp Point.lnPsa
  obtain ⟨b1, b2⟩ := node_of h hp Point.lnStd
  simp only [epsilon, fsimp, a1, a2, b1, b2, true_and, and_self]

end BJ08

open BJ08 in
/-- C133: conditioning once more at the period already conditioned upon, whatever the value: no mean is finite any more. -/
theorem C133_same (l : List BJ08.Point) (h : BJ08.Spectrum l) (p : BJ08.Point) (i : ℕ) (hi : l[i]? = some p)
    (x y : ℝ) :
    ∃ o o', calcCms l p.period x = pure o ∧ calcCms (refeed l o) p.period y = pure o' ∧ o'.length = l.length ∧
      ∀ a ∈ o', ¬ a.1.ok := by
  have hm : p ∈ l := List.mem_of_getElem? hi
  have hl : l ≠ [] := by rintro rfl; simp at hm
  refine ⟨l.map fun q => (F.ofReal q.lnPsa + F.ofReal q.lnStd * correl q.period p.period * epsilon l p.period x,
    F.sqrt (F.ofReal q.lnStd ^ 2 * (1 - correl q.period p.period ^ 2))), ?_⟩
  rw [exists_and_left]
  refine ⟨calcCms_of hl _ _, ?_⟩
  rw [refeed_map]
  set g : BJ08.Point → BJ08.Point := fun q => ⟨q.period,
    (F.ofReal q.lnPsa + F.ofReal q.lnStd * correl q.period p.period * epsilon l p.period x).val,
    (F.sqrt (F.ofReal q.lnStd ^ 2 * (1 - correl q.period p.period ^ 2))).val⟩ with hg
  have hs : (l.map g).Pairwise fun p q => p.period < q.period := by
    rw [List.pairwise_map]
    exact h.sorted
  have hz : (g p).lnStd = 0 := by
    simp only [hg, fsimp, correl_val, min_self, max_self, selR_diag]
    norm_num
  have e := (epsilon_node hs (List.mem_map_of_mem (f := g) hm) y).1
  refine ⟨_, calcCms_of (by simpa using hl) _ _, by simp, fun a ha => ?_⟩
  obtain ⟨q, -, rfl⟩ := List.mem_map.1 ha
  intro hok
  simp only [fsimp] at hok
  exact e.1 hok.2 hz

open BJ08 in
/-- C133: conditioning at one tabulated period and then at another one: the result passes through both targets, with
standard deviation zero at both periods; it is finite everywhere and its deviations are at most those after the first step. -/
theorem C133_other (l : List BJ08.Point) (h : BJ08.Spectrum l) (hr : ∀ p ∈ l, 0.01 ≤ p.period ∧ p.period ≤ 500)
    (p q : BJ08.Point) (i j : ℕ) (hi : l[i]? = some p) (hj : l[j]? = some q) (hne : p.period ≠ q.period) (x y : ℝ) :
    ∃ o o', calcCms l p.period x = pure o ∧ calcCms (refeed l o) q.period y = pure o' ∧ o'.length = l.length ∧
      (∃ m s : F, o'[i]? = some (m, s) ∧ m.val = x ∧ s.val = 0) ∧ (∃ m s : F, o'[j]? = some (m, s) ∧ m.val = y ∧ s.val = 0) ∧
      ∀ (k : ℕ) (r : BJ08.Point), l[k]? = some r → ∃ m s m' s' : F, o[k]? = some (m, s) ∧ o'[k]? = some (m', s') ∧ m'.ok ∧ s'.ok ∧
        0 ≤ s'.val ∧ s'.val ≤ s.val := by
  have hm : p ∈ l := List.mem_of_getElem? hi
  have hmq : q ∈ l := List.mem_of_getElem? hj
  have hl : l ≠ [] := by rintro rfl; simp at hm
  have rho : ∀ r ∈ l, ∀ c ∈ l, (correl r.period c.period).ok ∧ 0 ≤ (correl r.period c.period).val ∧
      (correl r.period c.period).val ≤ 1 ∧ ((correl r.period c.period).val = 1 ↔ r.period = c.period) := by
    intro r hrm c hcm
    obtain ⟨z, hz, z1, z2, z3, z4⟩ := C34_range [r.period] r.period c.period 0 rfl (hr r hrm).1 (hr r hrm).2 (hr c hcm).1 (hr c hcm).2
    have hz' : z = correl r.period c.period := by simpa [calcCorrels] using hz.symm
    rw [← hz']
    exact ⟨z1, z2, z3, z4⟩
  set f : BJ08.Point → F × F := fun q => (F.ofReal q.lnPsa + F.ofReal q.lnStd * correl q.period p.period * epsilon l p.period x,
    F.sqrt (F.ofReal q.lnStd ^ 2 * (1 - correl q.period p.period ^ 2))) with hf
  set g : BJ08.Point → BJ08.Point := fun q => ⟨q.period, (f q).1.val, (f q).2.val⟩ with hg
  have hs : (l.map g).Pairwise fun p q => p.period < q.period := by
    rw [List.pairwise_map]
    exact h.sorted
  have hsp := h.std p hm
  have hx : (g p).lnPsa = x := by
    have := (epsilon_node h.sorted hm x).2
    simp only [hg, hf, fsimp, correl_val, min_self, max_self, selR_diag, this]
    field_simp
    ring
  have hz : (g p).lnStd = 0 := by
    simp only [hg, hf, fsimp, correl_val, min_self, max_self, selR_diag]
    norm_num
  have hq : 0 < (g q).lnStd := by
    obtain ⟨-, r0, r1, r2⟩ := rho q hmq p hm
    have hlt : (correl q.period p.period).val < 1 := lt_of_le_of_ne r1 fun e => hne (r2.1 e).symm
    simp only [hg, hf, fsimp]
    have hsq := h.std q hmq
    have : 0 < 1 - (correl q.period p.period).val ^ 2 := by nlinarith
    exact Real.sqrt_pos.2 (by positivity)
  have e := epsilon_node hs (List.mem_map_of_mem (f := g) hmq) y
  have eok := e.1.2 hq.ne'
  set f' : BJ08.Point → F × F := fun r => (F.ofReal r.lnPsa + F.ofReal r.lnStd * correl r.period q.period * epsilon (l.map g) q.period y,
    F.sqrt (F.ofReal r.lnStd ^ 2 * (1 - correl r.period q.period ^ 2))) with hf'
  have get : ∀ {k : ℕ} {r : BJ08.Point}, l[k]? = some r → ((l.map g).map f')[k]? = some ((f' (g r)).1, (f' (g r)).2) := by
    intro k r hk
    rw [List.map_map, map_get hk]
    rfl
  refine ⟨l.map f, (l.map g).map f', calcCms_of hl _ _, ?_, by simp, ⟨_, _, get hi, ?_, ?_⟩, ⟨_, _, get hj, ?_, ?_⟩, fun k r hk => ?_⟩
  · rw [refeed_map]
    exact calcCms_of (by simpa using hl) _ _
  · simp only [hf', fsimp, hz, hx]
    ring
  · simp only [hf', fsimp, hz]
    norm_num
  · have : (correl (g q).period q.period).val = 1 := ((rho q hmq q hmq).2.2.2).2 rfl
    have e2 : (epsilon (l.map g) q.period y).val = (y - (g q).lnPsa) / (g q).lnStd := e.2
    simp only [hf', fsimp, this, e2]
    field_simp
    ring
  · have : (correl (g q).period q.period).val = 1 := ((rho q hmq q hmq).2.2.2).2 rfl
    simp only [hf', fsimp, this]
    norm_num
  · have hrm := List.mem_of_getElem? hk
    obtain ⟨r0, r1, r2, -⟩ := rho r hrm q hmq
    have r0' : (correl (g r).period q.period).ok := r0
    have r1' : 0 ≤ (correl (g r).period q.period).val := r1
    have r2' : (correl (g r).period q.period).val ≤ 1 := r2
    have hsr : 0 ≤ (g r).lnStd := by simp only [hg, hf, fsimp]; positivity
    have hw : 0 ≤ 1 - (correl (g r).period q.period).val ^ 2 := by nlinarith
    have eok' : (epsilon (l.map g) q.period y).ok := eok
    refine ⟨(f r).1, (f r).2, _, _, map_get hk _, get hk, ?_, ?_, ?_, ?_⟩
    · simp only [hf', fsimp, r0', eok']
    · simp only [hf', fsimp, r0', true_and]; positivity
    · simp only [hf', fsimp]; positivity
    · show (f' (g r)).2.val ≤ (g r).lnStd
      simp only [hf', fsimp]
      rw [Real.sqrt_le_left hsr]
      nlinarith [sq_nonneg (correl (g r).period q.period).val, mul_nonneg (sq_nonneg (correl (g r).period q.period).val) (sq_nonneg (g r).lnStd)]

namespace Kishida

theorem refeed_map (l : List Point) (f : Point → F × F) (t : List (Option ℝ)) :
    refeed l (l.map f) t = List.zipWith (fun p c => ⟨⟨p.period, (f p).1.val, (f p).2.val⟩, c⟩) l t := by
  induction l generalizing t with
  | nil => rfl
  | cons p l ih =>
    cases t with
    | nil => simp [refeed, BJ08.refeed]
    | cons c t =>
      have := ih t
      simp only [refeed, BJ08.refeed, List.map_cons, List.zipWith_cons_cons] at this ⊢
      rw [this]

theorem zip_sorted (l : List Point) (h : l.Pairwise fun p q => p.period < q.period) (f : Point → F × F) (t : List (Option ℝ)) :
    (List.zipWith (fun p c => (⟨⟨p.period, (f p).1.val, (f p).2.val⟩, c⟩ : Point)) l t).Pairwise fun p q => p.period < q.period := by
  induction l generalizing t with
  | nil => simp
  | cons p l ih =>
    cases t with
    | nil => simp
    | cons c t =>
      rw [List.zipWith_cons_cons, List.pairwise_cons]
      obtain ⟨h1, h2⟩ := List.pairwise_cons.1 h
      refine ⟨fun a ha => ?_, ih h2 t⟩
      obtain ⟨k, hk, rfl⟩ := List.getElem_of_mem ha
      rw [List.getElem_zipWith]
      rw [List.length_zipWith] at hk
      exact h1 (l[k]'(by omega)) (List.getElem_mem _)

end Kishida

open Kishida in
/-- C133: the vector computation: giving a target once more at a period that already had one raises `LinAlgError`, whatever
the other targets are. -/
theorem C133_vector (l : List Kishida.Point) (h : l.Pairwise fun p q => p.period < q.period)
    (o : List (F × F)) (ho : calcCmsv l = pure o) (i : ℕ) (p : Kishida.Point) (hi : l[i]? = some p) (hp : p.cond.isSome)
    (t : List (Option ℝ)) (y : ℝ) (ht : t[i]? = some (some y)) :
    calcCmsv (Kishida.refeed l o t) = Py.raise .linAlgError := by
  have hd : (covar22 (given l)).det ≠ 0 := by
    intro hd
    have := congrArg Py.res (((C36_targets _ h).1 hd).symm.trans ho)
    cases this
  have oe : o = l.map (entry l) := by
    have := congrArg Py.res (ho.symm.trans (calc_of h hd))
    exact Except.ok.inj this
  subst oe
  rw [Kishida.refeed_map]
  refine (C36_targets _ (zip_sorted l h _ t)).1 ?_
  set l' := List.zipWith (fun p c => (⟨⟨p.period, (entry l p).1.val, (entry l p).2.val⟩, c⟩ : Kishida.Point)) l t with hl'
  set b : Kishida.Point := ⟨⟨p.period, (entry l p).1.val, (entry l p).2.val⟩, some y⟩ with hb
  have hbm : b ∈ l' := by
    refine List.mem_of_getElem? (i := i) ?_
    rw [hl', List.getElem?_zipWith, hi, ht]
  have hbg : b ∈ given l' := List.mem_filter.2 ⟨hbm, rfl⟩
  have hz : b.lnStd = 0 := by
    obtain ⟨x, hx⟩ := Option.isSome_iff_exists.1 hp
    simp only [hb, entry, hx, fsimp]
  obtain ⟨k, hk, e⟩ := List.getElem_of_mem hbg
  refine Matrix.det_eq_zero_of_row_eq_zero ⟨k, hk⟩ fun j => ?_
  show (covar (given l')[k] (given l')[j]).val = 0
  rw [e]
  simp only [covar, hz, fsimp]
  ring

/-- the hypotheses are met -/
example : BJ08.Spectrum BJ08.exSpectrum ∧ (∀ p ∈ BJ08.exSpectrum, 0.01 ≤ p.period ∧ p.period ≤ 500) ∧
    BJ08.exSpectrum[1]? = some ⟨0.5, -1.5, 0.65⟩ ∧ BJ08.exSpectrum[2]? = some ⟨1, -2, 0.7⟩ := by
  refine ⟨BJ08.exSpectrum_ok, ?_, rfl, rfl⟩
  simp [BJ08.exSpectrum]; norm_num

open Kishida in
example : ∃ (l : List Kishida.Point) (o : List (F × F)) (p : Kishida.Point), (l.Pairwise fun p q => p.period < q.period) ∧ calcCmsv l = pure o ∧
    l[1]? = some p ∧ p.cond.isSome := by
  have hpd : (covarAll exList).PosDef := by
    apply two_posDef <;> norm_num
  have hs : exList.Pairwise fun p q => p.period < q.period := by simp [exList]; norm_num
  exact ⟨exList, _, _, hs, calc_of hs (covar22_posDef hpd).det_pos.ne', rfl, rfl⟩
