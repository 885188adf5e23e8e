import Verif.Props.PipelineV
import Verif.Props.CMSVPredict

/-!
# C136: targets at predicted values, for the shipped models
-/

set_option linter.unusedSimpArgs false

namespace Pipeline
open Kishida CMSVMore

theorem zip3 : ∀ (ps : List BJ08.Point) (t t' : List (Option ℝ)), t.length = ps.length → t'.length = ps.length →
    (List.zipWith (fun p c => (p, c)) ps (t.zip t')).map (fun p => (⟨p.1, p.2.1⟩ : Kishida.Point)) =
      List.zipWith (fun (p : BJ08.Point) c => (⟨p, c⟩ : Kishida.Point)) ps t ∧
    (List.zipWith (fun p c => (p, c)) ps (t.zip t')).map (fun p => (⟨p.1, p.2.2⟩ : Kishida.Point)) =
      List.zipWith (fun (p : BJ08.Point) c => (⟨p, c⟩ : Kishida.Point)) ps t'
  | [], _, _, _, _ => by simp
  | _ :: _, [], _, h, _ => by simp at h
  | _ :: _, _ :: _, [], _, h => by simp at h
  | p :: ps, c :: t, c' :: t', h, h' => by
    obtain ⟨a, b⟩ := zip3 ps t t' (by simpa using h) (by simpa using h')
    simp only [List.zip_cons_cons, List.zipWith_cons_cons, List.map_cons]
    exact ⟨by rw [a], by rw [b]⟩

end Pipeline

open Pipeline Kishida CMSVMore

/-- C136: for every shipped class, a conditional spectrum with targets `t`, and the same with further targets at some of the means
just returned: the second computation raises `LinAlgError` (never with fewer than three targets) or returns the same means at every
spectral period. -/
theorem C136_models (name : String) (C : GmmClass) (h : (name, C) ∈ GmmClass.all) (o : GmmOut) (ss : List F)
    (hu : Spec.Usable C o ss) (t t' : List (Option ℝ)) (ht : t.length = C.indicesPsa.length) (ht' : t'.length = C.indicesPsa.length)
    (out : List (F × F)) (e : Pipeline.cmsv C o t = pure out)
    (hnew : ∀ j (hj : j < C.indicesPsa.length), t'[j] = t[j] ∨ t[j] = none ∧ ∃ m s : F, out[j]? = some (m, s) ∧ t'[j] = some m.val) :
    (Pipeline.cmsv C o t' = Py.raise .linAlgError ∧ 3 ≤ t'.countP Option.isSome) ∨
    ∃ out', Pipeline.cmsv C o t' = pure out' ∧ ∀ j < C.indicesPsa.length, ∃ m s m' s' : F,
      out[j]? = some (m, s) ∧ out'[j]? = some (m', s') ∧ m.ok ∧ m'.ok ∧ m'.val = m.val := by
  have hc := C13_period_tables_coherent name C h
  have hr := aimed_range (o := o) (ss := ss) name h ht'
  rw [cmsv_eq hc hu] at e ⊢
  obtain ⟨z, z'⟩ := zip3 (C.indicesPsa.map (pt C o ss)) t t' (by simpa using ht) (by simpa using ht')
  have zz : _ = aimed C o ss t := z
  have zz' : _ = aimed C o ss t' := z'
  set L := List.zipWith (fun p c => (p, c)) (C.indicesPsa.map (pt C o ss)) (t.zip t') with hL
  have len : L.length = C.indicesPsa.length := by simp [hL, ht, ht']
  have get : ∀ (j : ℕ) q, L[j]? = some q → ∃ hj : j < C.indicesPsa.length, q = (pt C o ss C.indicesPsa[j], t[j], t'[j]) := by
    intro j q hq
    obtain ⟨hj, rfl⟩ := List.getElem?_eq_some_iff.1 hq
    have hj' : j < C.indicesPsa.length := by rw [← len]; exact hj
    refine ⟨hj', ?_⟩
    simp [hL]
  have mem : ∀ q ∈ L, ∃ p ∈ aimed C o ss t', p.toPoint = q.1 := fun q hq => by
    rw [← zz']
    exact ⟨_, List.mem_map_of_mem hq, rfl⟩
  by_cases hd : (covar22 (given (aimed C o ss t'))).det = 0
  · left
    have hinc := aimed_sorted hc hu ht'
    refine ⟨(C36_targets _ hinc).1 hd, ?_⟩
    by_contra hlt
    exact det_two _ hinc hr (aimed_pos hc hu ht') (by rw [given_length ht']; omega) hd
  · right
    have hd0 : (covar22 (given (aimed C o ss t))).det ≠ 0 := by
      intro h0
      have := (C36_targets _ (aimed_sorted hc hu ht)).1 h0
      rw [e] at this
      have h2 : (Except.ok out : Except _ (List (F × F))) = .error _ := congrArg Py.res this
      cases h2
    rw [← zz] at e hd0
    rw [← zz'] at hd ⊢
    have srt : L.Pairwise fun p q => p.1.period < q.1.period := by
      have := aimed_sorted hc hu ht'
      rw [← zz', List.pairwise_map] at this
      exact this
    obtain ⟨out', e', hall⟩ := means_core L srt (fun q hq => by
      obtain ⟨p, hp, ep⟩ := mem q hq
      rw [← ep]; exact (hr p hp).1) hd0 hd out e (fun j q hq => by
      obtain ⟨hj, rfl⟩ := get j q hq
      exact hnew j hj)
    exact ⟨out', e', fun j hj => hall j (by rw [len]; exact hj)⟩

/-- the hypotheses are met: Campbell (2003) at magnitude 6 and 20 km, a target at its first spectral period, then a second one at the
mean returned for the second spectral period -/
example : ∃ (s : Scenario) (o : GmmOut) (ss : List F) (t t' : List (Option ℝ)) (out : List (F × F)), Gives C03.cls s o ∧
    Spec.Usable GmmClass.c03 o ss ∧ Pipeline.cmsv GmmClass.c03 o t = pure out ∧
    ∃ (ht : t.length = GmmClass.c03.indicesPsa.length) (ht' : t'.length = GmmClass.c03.indicesPsa.length),
      (∀ j (hj : j < GmmClass.c03.indicesPsa.length), t'[j] = t[j] ∨ t[j] = none ∧ ∃ m s : F, out[j]? = some (m, s) ∧ t'[j] = some m.val) ∧
      t ≠ t' := by
  obtain ⟨o, ss, g, u⟩ := C130_campbell ⟨[("mag", .num 6), ("dist_rup", .num 20)], []⟩ 6 20 rfl rfl
  have h2 : 2 ≤ GmmClass.c03.indicesPsa.length := by decide +kernel
  set n := GmmClass.c03.indicesPsa.length with hn
  have ht : (some (-1) :: none :: List.replicate (n - 2) none : List (Option ℝ)).length = n := by
    simp only [List.length_cons, List.length_replicate]
    omega
  have ht' : ∀ y : ℝ, (some (-1) :: some y :: List.replicate (n - 2) none : List (Option ℝ)).length = n := by
    intro y
    simp only [List.length_cons, List.length_replicate]
    omega
  rcases C132_targets "Campbell2003" GmmClass.c03 (by simp [GmmClass.all]) o ss u (some (-1) :: none :: List.replicate (n - 2) none) ht with
    ⟨-, h3⟩ | ⟨out, e, -, hall⟩
  · simp [List.countP_cons, List.countP_replicate] at h3
  · obtain ⟨m, s, hg, -⟩ := hall 1 (by omega)
    refine ⟨_, o, ss, _, some (-1) :: some m.val :: List.replicate (n - 2) none, out, g, u, e, ht, ht' _, fun j hj => ?_, by simp⟩
    match j, hj with
    | 0, _ => exact .inl rfl
    | 1, _ => exact .inr ⟨rfl, m, s, hg, rfl⟩
    | j + 2, _ => exact .inl (by simp)
