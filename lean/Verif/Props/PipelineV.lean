import Verif.Props.Pipeline
import Verif.Props.CMSVLaws

/-!
# C132: conditional mean spectra with several targets, of the shipped models

For every shipped class and every instance with finite responses and positive standard deviations.
-/

set_option linter.unusedSimpArgs false

namespace Pipeline
open Kishida

variable {C : GmmClass} {o : GmmOut} {ss : List F}

/-- the points with their targets -/
noncomputable def aimed (C : GmmClass) (o : GmmOut) (ss : List F) (target : List (Option ℝ)) : List Kishida.Point :=
  List.zipWith (fun (p : BJ08.Point) c => ⟨p, c⟩) (C.indicesPsa.map (pt C o ss)) target

theorem cmsv_eq (hc : Spec.Coherent C) (hu : Spec.Usable C o ss) (target : List (Option ℝ)) :
    cmsv C o target = calcCmsv (aimed C o ss target) := by
  simp only [cmsv, Gmm.periods, Gmm.specAccels, Gmm.lnStds, hu.std]
  rw [pyTake_eq _ _ hc.psa_exist 0, pyTake_eq _ _ (by rw [hu.resp_length]; exact hc.psa_exist) F.nan,
    pyTake_eq _ _ (by rw [hu.std_length]; exact hc.psa_exist) F.nan]
  simp only [Py.pure_bind']
  rw [points_map]
  rfl

theorem zip_points : ∀ (ps : List BJ08.Point) (t : List (Option ℝ)), t.length = ps.length →
    (List.zipWith (fun (p : BJ08.Point) c => (⟨p, c⟩ : Kishida.Point)) ps t).map (fun p => p.toPoint) = ps ∧
    (List.zipWith (fun (p : BJ08.Point) c => (⟨p, c⟩ : Kishida.Point)) ps t).map (fun p => p.cond) = t
  | [], [], _ => ⟨rfl, rfl⟩
  | [], _ :: _, h => by simp at h
  | _ :: _, [], h => by simp at h
  | p :: ps, c :: t, h => by
    obtain ⟨a, b⟩ := zip_points ps t (by simpa using h)
    simp only [List.zipWith_cons_cons, List.map_cons]
    exact ⟨by rw [a], by rw [b]⟩

variable {t : List (Option ℝ)}

theorem aimed_points (ht : t.length = C.indicesPsa.length) :
    (aimed C o ss t).map (fun p => p.toPoint) = C.indicesPsa.map (pt C o ss) ∧ (aimed C o ss t).map (fun p => p.cond) = t :=
  zip_points _ _ (by simpa using ht)

theorem aimed_mem (ht : t.length = C.indicesPsa.length) {p : Kishida.Point} (hp : p ∈ aimed C o ss t) :
    p.toPoint ∈ C.indicesPsa.map (pt C o ss) := by
  rw [← (aimed_points ht).1]
  exact List.mem_map_of_mem hp

theorem aimed_sorted (hc : Spec.Coherent C) (hu : Spec.Usable C o ss) (ht : t.length = C.indicesPsa.length) :
    (aimed C o ss t).Pairwise fun p q => p.period < q.period := by
  have := (spectrum hc hu).sorted
  rw [← (aimed_points (o := o) (ss := ss) ht).1, List.pairwise_map] at this
  exact this

theorem aimed_get (ht : t.length = C.indicesPsa.length) {k : ℕ} (hk : k < C.indicesPsa.length) :
    (aimed C o ss t)[k]? = some ⟨pt C o ss C.indicesPsa[k], t[k]⟩ := by
  unfold aimed
  rw [List.getElem?_zipWith, pt_get hk, List.getElem?_eq_getElem (by omega)]

theorem given_length (ht : t.length = C.indicesPsa.length) : (given (aimed C o ss t)).length = t.countP Option.isSome := by
  conv_rhs => rw [← (aimed_points (o := o) (ss := ss) ht).2, List.countP_map]
  rw [given, ← List.countP_eq_length_filter]
  rfl

/-- with at most two targets the matrix of their covariances is not singular -/
theorem det_two (l : List Kishida.Point) (h : l.Pairwise fun p q => p.period < q.period) (hr : ∀ p ∈ l, 0.01 ≤ p.period ∧ p.period ≤ 500)
    (hs : ∀ p ∈ l, 0 < p.lnStd) (h2 : (given l).length ≤ 2) : (covar22 (given l)).det ≠ 0 := by
  have hsub : (given l).Sublist l := List.filter_sublist
  have hp := h.sublist hsub
  have hm : ∀ p ∈ given l, p ∈ l := fun p hp => hsub.subset hp
  revert h2 hp hm
  generalize given l = g
  intro h2 hp hm
  match g, h2, hp, hm with
  | [], _, _, _ => rw [Matrix.det_isEmpty (n := Fin 0)]; exact one_ne_zero
  | [p], _, _, hm => rw [det_single]; exact (pow_pos (hs p (hm p (by simp))) 2).ne'
  | [p, q], _, hp, hm =>
    have a := hm p (by simp)
    have b := hm q (by simp)
    exact (two_posDef p q ((List.pairwise_cons.1 hp).1 q (by simp)) (hr p a).1 (hr q b).2 (hs p a) (hs q b)).det_pos.ne'
  | _ :: _ :: _ :: _, h2, _, _ => simp at h2

/-- the range of the correlation model and the positive deviations, for the points with targets -/
theorem aimed_range (name : String) (h : (name, C) ∈ GmmClass.all) (ht : t.length = C.indicesPsa.length) :
    ∀ p ∈ aimed C o ss t, 0.01 ≤ p.period ∧ p.period ≤ 500 := by
  intro p hp
  obtain ⟨i, hi, e⟩ := List.mem_map.1 (aimed_mem ht hp)
  have := (range name h).2 i hi
  rw [← e]
  exact this

theorem aimed_pos (hc : Spec.Coherent C) (hu : Spec.Usable C o ss) (ht : t.length = C.indicesPsa.length) :
    ∀ p ∈ aimed C o ss t, 0 < p.lnStd := fun _ hp => (spectrum hc hu).std _ (aimed_mem ht hp)

end Pipeline

open Pipeline Kishida

/-- C132: with at most two targets the computation returns; whatever the number of targets, it either raises `LinAlgError` or
returns one entry per spectral period, finite means, and the target with standard deviation zero wherever there is one. -/
theorem C132_targets (name : String) (C : GmmClass) (h : (name, C) ∈ GmmClass.all) (o : GmmOut) (ss : List F)
    (hu : Spec.Usable C o ss) (t : List (Option ℝ)) (ht : t.length = C.indicesPsa.length) :
    (Pipeline.cmsv C o t = Py.raise .linAlgError ∧ 3 ≤ t.countP Option.isSome) ∨
    ∃ out, Pipeline.cmsv C o t = pure out ∧ out.length = C.indicesPsa.length ∧
      ∀ j (hj : j < C.indicesPsa.length), ∃ m s : F, out[j]? = some (m, s) ∧ m.ok ∧
        ∀ x, t[j] = some x → m.val = x ∧ s.ok ∧ s.val = 0 := by
  have hc := C13_period_tables_coherent name C h
  have hinc := aimed_sorted hc hu ht
  have hr := aimed_range (o := o) (ss := ss) name h ht
  rw [cmsv_eq hc hu]
  by_cases hd : (covar22 (given (aimed C o ss t))).det = 0
  · left
    refine ⟨(C36_targets _ hinc).1 hd, ?_⟩
    by_contra hlt
    exact det_two _ hinc hr (aimed_pos hc hu ht) (by rw [given_length ht]; omega) hd
  · right
    refine ⟨_, calc_of hinc hd, ?_, fun j hj => ?_⟩
    · have := congrArg List.length (aimed_points (o := o) (ss := ss) ht).1
      simpa using this
    · refine ⟨(entry (aimed C o ss t) ⟨pt C o ss C.indicesPsa[j], t[j]⟩).1, (entry (aimed C o ss t) ⟨pt C o ss C.indicesPsa[j], t[j]⟩).2,
        BJ08.map_get (aimed_get ht hj) _, ?_, ?_⟩
      · rcases hx : t[j] with _ | x
        · exact allOk_of fun p hp => (hr p hp).1
        · trivial
      · intro x hx
        rw [hx]
        simp only [entry, fsimp, and_self]

/-- C132: conditioning on the model's own medians, at any set of spectral periods, returns the median spectrum
(or raises `LinAlgError`, never with fewer than three targets). -/
theorem C132_median (name : String) (C : GmmClass) (h : (name, C) ∈ GmmClass.all) (o : GmmOut) (ss : List F)
    (hu : Spec.Usable C o ss) (t : List (Option ℝ)) (ht : t.length = C.indicesPsa.length)
    (hm : ∀ k (hk : k < C.indicesPsa.length) x y, t[k] = some x → o.lnResp[C.indicesPsa[k]]? = some y → x = y.val) :
    (Pipeline.cmsv C o t = Py.raise .linAlgError ∧ 3 ≤ t.countP Option.isSome) ∨
    ∃ out, Pipeline.cmsv C o t = pure out ∧
      ∀ j (hj : j < C.indicesPsa.length), ∃ m s z : F, out[j]? = some (m, s) ∧ o.lnResp[C.indicesPsa[j]]? = some z ∧
        m.ok ∧ m.val = z.val := by
  rcases C132_targets name C h o ss hu t ht with hE | ⟨out, e, -⟩
  · exact .inl hE
  · right
    have hc := C13_period_tables_coherent name C h
    have hinc := aimed_sorted hc hu ht
    have hr := aimed_range (o := o) (ss := ss) name h ht
    refine ⟨out, e, fun j hj => ?_⟩
    rw [cmsv_eq hc hu] at e
    have hd : (covar22 (given (aimed C o ss t))).det ≠ 0 := by
      intro hd
      have := congrArg Py.res (((C36_targets _ hinc).1 hd).symm.trans e)
      cases this
    obtain ⟨out', e', hv⟩ := C131_median _ hinc (fun p hp => (hr p hp).1) hd (by
      intro p hp x hx
      obtain ⟨k, hk, rfl⟩ := List.getElem_of_mem hp
      have hl : (aimed C o ss t).length = C.indicesPsa.length := by
        have := congrArg List.length (aimed_points (o := o) (ss := ss) ht).1
        simpa using this
      have hk' : k < C.indicesPsa.length := by omega
      have g := aimed_get (o := o) (ss := ss) ht hk'
      rw [List.getElem?_eq_getElem hk] at g
      have g := Option.some.inj g
      rw [g] at hx ⊢
      obtain ⟨z, hz, hz'⟩ := resp_val hc hu (List.getElem_mem hk')
      have := hm k hk' x z hx hz
      rw [this]
      simp only [pt, hz'])
    have oo : out' = out := by
      have := congrArg Py.res (e'.symm.trans e)
      exact Except.ok.inj this
    subst oo
    obtain ⟨m, s, g, ok, v⟩ := hv j _ (aimed_get ht hj)
    obtain ⟨z, hz, hz'⟩ := resp_val hc hu (List.getElem_mem hj)
    exact ⟨m, s, z, g, hz, ok, by simpa only [pt, hz'] using v⟩

/-- C132: with one target, at a spectral period of the model, the vector computation and the scalar one agree. -/
theorem C132_single (name : String) (C : GmmClass) (h : (name, C) ∈ GmmClass.all) (o : GmmOut) (ss : List F)
    (hu : Spec.Usable C o ss) (t : List (Option ℝ)) (ht : t.length = C.indicesPsa.length) (k : ℕ) (hk : k < C.indicesPsa.length)
    (x : ℝ) (hx : t[k] = some x) (ho : ∀ j (hj : j < C.indicesPsa.length), j ≠ k → t[j] = none) :
    ∃ out out', Pipeline.cmsv C o t = pure out ∧ Pipeline.cms C o (Spec.period C C.indicesPsa[k]) x = pure out' ∧
      List.Forall₂ (fun a b => F.Same a.1 b.1 ∧ F.Same a.2 b.2) out out' := by
  have hc := C13_period_tables_coherent name C h
  have hinc := aimed_sorted hc hu ht
  have g := aimed_get (o := o) (ss := ss) ht hk
  have hl : (aimed C o ss t).length = C.indicesPsa.length := by
    have := congrArg List.length (aimed_points (o := o) (ss := ss) ht).1
    simpa using this
  have key := C37_single _ hinc (aimed_range name h ht) (aimed_pos hc hu ht) _ (List.mem_of_getElem? g) x hx (by
    intro q hq hne
    obtain ⟨j, hj, rfl⟩ := List.getElem_of_mem hq
    have hj' : j < C.indicesPsa.length := by omega
    have g' := aimed_get (o := o) (ss := ss) ht hj'
    rw [List.getElem?_eq_getElem hj] at g'
    have g' := Option.some.inj g'
    rw [g'] at hne ⊢
    by_cases e : j = k
    · subst e; exact absurd rfl hne
    · exact ho j hj' e)
  rw [(aimed_points ht).1] at key
  rw [cmsv_eq hc hu, cms_eq hc hu]
  exact key

/-- the hypotheses are met: Campbell (2003) at magnitude 6 and 20 km, two targets at its first and second spectral period -/
example : ∃ (s : Scenario) (o : GmmOut) (ss : List F) (t : List (Option ℝ)), Gives C03.cls s o ∧ Spec.Usable GmmClass.c03 o ss ∧
    t.length = GmmClass.c03.indicesPsa.length ∧ t.countP Option.isSome = 2 := by
  obtain ⟨o, ss, g, u⟩ := C130_campbell ⟨[("mag", .num 6), ("dist_rup", .num 20)], []⟩ 6 20 rfl rfl
  refine ⟨_, o, ss, some (-1) :: some (-2) :: List.replicate (GmmClass.c03.indicesPsa.length - 2) none, g, u, ?_, ?_⟩
  · have : 2 ≤ GmmClass.c03.indicesPsa.length := by decide +kernel
    simp only [List.length_cons, List.length_replicate]
    omega
  · simp [List.countP_cons, List.countP_replicate]
