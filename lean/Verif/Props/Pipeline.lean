import Verif.Pipeline
import Verif.Props.Accessors
import Verif.Props.BJ08
import Verif.Props.InterpKinds
import Verif.Props.C03
import Verif.Props.Limits
import Mathlib.Analysis.Convex.SpecificFunctions.Basic
import Mathlib.Analysis.Convex.Slope

/-!
# C130: conditional mean spectra of the shipped models

For every shipped class and every instance with finite responses and positive standard deviations.
-/

set_option linter.unusedSimpArgs false

/-- an instance `o` of `C` with one finite response and one positive standard deviation `ss` per row -/
structure Spec.Usable (C : GmmClass) (o : GmmOut) (ss : List F) : Prop where
  resp_length : o.lnResp.length = C.periods.length
  resp_ok : ∀ y ∈ o.lnResp, y.ok
  std : o.lnStd = some ss
  std_length : ss.length = C.periods.length
  std_pos : F.AllPos ss

namespace Pipeline

/-- straight line between neighbouring nodes -/
theorem interpR_between {l : List (ℝ × ℝ)} (hs : Interp.Sorted l) {x0 y0 x1 y1 x : ℝ} (h0 : (x0, y0) ∈ l) (h1 : (x1, y1) ∈ l)
    (hx0 : x0 < x) (hx1 : x < x1) (hadj : ∀ p ∈ l, ¬ (x0 < p.1 ∧ p.1 < x1)) :
    interpR l x = (y1 - y0) / (x1 - x0) * (x - x0) + y0 := by
  induction l with
  | nil => simp at h0
  | cons a t ih =>
    obtain ⟨a, ya⟩ := a
    have hs' := List.pairwise_cons.1 hs
    cases t with
    | nil =>
      simp only [List.mem_cons, List.not_mem_nil, or_false, Prod.mk.injEq] at h0 h1
      linarith [h0.1, h1.1]
    | cons b t =>
      obtain ⟨b, yb⟩ := b
      have hab : a < b := hs'.1 (b, yb) (by simp)
      unfold interpR
      rcases List.mem_cons.1 h0 with e0 | h0
      · obtain ⟨rfl, rfl⟩ := Prod.mk.inj e0
        have h1' : (x1, y1) = (b, yb) := by
          rcases List.mem_cons.1 h1 with e | h1
          · have := (Prod.mk.inj e).1; linarith
          · rcases List.mem_cons.1 h1 with e | h1
            · exact e
            · have hb : b < x1 := (List.pairwise_cons.1 hs'.2).1 _ h1
              exact absurd ⟨hab, hb⟩ (hadj (b, yb) (by simp))
        obtain ⟨rfl, rfl⟩ := Prod.mk.inj h1'
        rw [if_neg (by linarith), if_pos hx1]
      · have hbx : b ≤ x0 := by
          rcases List.mem_cons.1 h0 with e | h0
          · exact (Prod.mk.inj e).1.ge
          · exact ((List.pairwise_cons.1 hs'.2).1 _ h0).le
        have h1' : (x1, y1) ∈ (b, yb) :: t := by
          rcases List.mem_cons.1 h1 with e | h1
          · have := (Prod.mk.inj e).1; linarith
          · exact h1
        rw [if_neg (by linarith), if_neg (by linarith)]
        exact ih hs'.2 h0 h1' fun p hp => hadj p (List.mem_cons_of_mem _ hp)

/-- to the left of the nodes the first value, to the right the last -/
theorem interpR_end : ∀ {l : List (ℝ × ℝ)}, Interp.Sorted l → ∀ {e : ℝ × ℝ}, e ∈ l → ∀ {x : ℝ},
    ((x < e.1 ∧ ∀ p ∈ l, e.1 ≤ p.1) ∨ (e.1 < x ∧ ∀ p ∈ l, p.1 ≤ e.1)) → interpR l x = e.2
  | [], _, e, he, _, _ => by simp at he
  | [(a, ya)], _, e, he, _, _ => by
    rw [List.mem_singleton] at he; subst he; rfl
  | (a, ya) :: (b, yb) :: t, hs, e, he, x, h => by
    have hs' := List.pairwise_cons.1 hs
    have hab : a < b := hs'.1 (b, yb) (by simp)
    unfold interpR
    rcases h with ⟨hx, hmin⟩ | ⟨hx, hmax⟩
    · rcases List.mem_cons.1 he with rfl | he
      · rw [if_pos hx.le]
      · have h1 : a < e.1 := hs'.1 e he
        have h2 := hmin (a, ya) (by simp)
        exact absurd h1 (not_lt.2 h2)
    · have hb := hmax (b, yb) (by simp)
      simp only at hb
      rw [if_neg (by linarith), if_neg (by linarith)]
      have he' : e ∈ (b, yb) :: t := by
        rcases List.mem_cons.1 he with rfl | he
        · simp only at hb; linarith
        · exact he
      exact interpR_end hs'.2 he' (Or.inr ⟨hx, fun p hp => hmax p (List.mem_cons_of_mem _ hp)⟩)

/-- the logarithm lies above its chords -/
theorem log_chord {a x b : ℝ} (ha : 0 < a) (h0 : a < x) (h1 : x < b) :
    (x - a) / (b - a) < (Real.log x - Real.log a) / (Real.log b - Real.log a) := by
  have hx := ha.trans h0
  have hb := hx.trans h1
  have key := strictConcaveOn_log_Ioi.slope_anti_adjacent (Set.mem_Ioi.2 ha) (Set.mem_Ioi.2 hb) h0 h1
  have l0 := Real.log_lt_log ha h0
  have l1 := Real.log_lt_log hx h1
  rw [div_lt_div_iff₀ (by linarith) (by linarith)] at key ⊢
  nlinarith

/-- the point of row `i` -/
noncomputable def pt (C : GmmClass) (o : GmmOut) (ss : List F) (i : ℕ) : BJ08.Point :=
  ⟨Spec.period C i, (o.lnResp.getD i F.nan).val, (ss.getD i F.nan).val⟩

variable {C : GmmClass} {o : GmmOut} {ss : List F}

theorem points_map (is : List ℕ) (f : ℕ → ℚ) (g h : ℕ → F) :
    points (is.map f) ((is.map g).map F.exp) (is.map h) = is.map fun i => ⟨(f i : ℝ), (g i).val, (h i).val⟩ := by
  induction is with
  | nil => rfl
  | cons i is ih =>
    simp only [points, List.map_cons, List.zip_cons_cons, List.zipWith_cons_cons] at ih ⊢
    rw [ih]
    simp only [fsimp, Real.log_exp]

theorem cms_eq (hc : Spec.Coherent C) (hu : Spec.Usable C o ss) (T x : ℝ) :
    cms C o T x = BJ08.calcCms (C.indicesPsa.map (pt C o ss)) T x := by
  simp only [cms, Gmm.periods, Gmm.specAccels, Gmm.lnStds, hu.std]
  rw [pyTake_eq _ _ hc.psa_exist 0, pyTake_eq _ _ (by rw [hu.resp_length]; exact hc.psa_exist) F.nan,
    pyTake_eq _ _ (by rw [hu.std_length]; exact hc.psa_exist) F.nan]
  simp only [Py.pure_bind']
  rw [points_map]
  rfl

theorem spectrum (hc : Spec.Coherent C) (hu : Spec.Usable C o ss) : BJ08.Spectrum (C.indicesPsa.map (pt C o ss)) := by
  constructor
  · have h := hc.psa_increasing
    rw [List.pairwise_map] at h ⊢
    exact h.imp fun {a b} hab => by simp only [pt, Spec.period]; exact_mod_cast hab
  · intro p hp
    obtain ⟨i, hi, rfl⟩ := List.mem_map.1 hp
    have hlt : i < ss.length := by rw [hu.std_length]; exact hc.psa_exist i hi
    simp only [pt, getD_getElem hlt]
    exact (hu.std_pos _ (List.getElem_mem hlt)).2

/-- all spectral periods of all shipped classes are within the range of the correlation model -/
theorem range (name : String) (h : (name, C) ∈ GmmClass.all) :
    C.indicesPsa ≠ [] ∧ ∀ i ∈ C.indicesPsa, 0.01 ≤ Spec.period C i ∧ Spec.period C i ≤ 500 := by
  have key : ∀ c ∈ GmmClass.all, c.2.indicesPsa ≠ [] ∧ ∀ i ∈ c.2.indicesPsa, 1 / 100 ≤ c.2.periods.getD i 0 ∧ c.2.periods.getD i 0 ≤ 500 := by
    decide +kernel
  obtain ⟨h1, h2⟩ := key _ h
  refine ⟨h1, fun i hi => ?_⟩
  obtain ⟨a, b⟩ := h2 i hi
  have a' : ((1 / 100 : ℚ) : ℝ) ≤ Spec.period C i := Rat.cast_le.2 a
  have b' : Spec.period C i ≤ ((500 : ℚ) : ℝ) := Rat.cast_le.2 b
  norm_num at a' b' ⊢
  exact ⟨a', b'⟩

theorem pt_get {k : ℕ} (hk : k < C.indicesPsa.length) :
    (C.indicesPsa.map (pt C o ss))[k]? = some (pt C o ss C.indicesPsa[k]) := by
  rw [List.getElem?_map, List.getElem?_eq_getElem hk]; rfl

theorem resp_val (hc : Spec.Coherent C) (hu : Spec.Usable C o ss) {i : ℕ} (hi : i ∈ C.indicesPsa) :
    ∃ y, o.lnResp[i]? = some y ∧ o.lnResp.getD i F.nan = y := by
  have hlt : i < o.lnResp.length := by rw [hu.resp_length]; exact hc.psa_exist i hi
  exact ⟨_, List.getElem?_eq_getElem hlt, getD_getElem hlt _⟩

theorem std_val (hc : Spec.Coherent C) (hu : Spec.Usable C o ss) {i : ℕ} (hi : i ∈ C.indicesPsa) :
    ∃ y, ss[i]? = some y ∧ ss.getD i F.nan = y := by
  have hlt : i < ss.length := by rw [hu.std_length]; exact hc.psa_exist i hi
  exact ⟨_, List.getElem?_eq_getElem hlt, getD_getElem hlt _⟩

/-- the model's own interpolated median, between neighbouring periods -/
theorem own_median (hc : Spec.Coherent C) (hlen : o.lnResp.length = C.periods.length) {i i' : ℕ} (hi : i ∈ C.indicesPsa)
    (hi' : i' ∈ C.indicesPsa) (hadj : ∀ j ∈ C.indicesPsa, ¬ (Spec.period C i < Spec.period C j ∧ Spec.period C j < Spec.period C i'))
    {T : ℝ} (h0 : Spec.period C i < T) (h1 : T < Spec.period C i') :
    ∃ v, (Gmm.interpLnSpecAccels C o T).res = .ok v ∧ v.val = ((o.lnResp.getD i' F.nan).val - (o.lnResp.getD i F.nan).val) /
      (Real.log (Spec.period C i') - Real.log (Spec.period C i)) * (Real.log T - Real.log (Spec.period C i)) + (o.lnResp.getD i F.nan).val := by
  have hp := Kinds.period_pos hc hi
  have hT : 0 < T := hp.trans h0
  have hl0 := Real.log_lt_log hp h0
  have hl1 := Real.log_lt_log hT h1
  refine ⟨_, Spec.interp_res hc o hlen T, ?_⟩
  simp only [Gmm.interpAt, hT, if_true]
  rw [interpLinear_between (Spec.nodes_sorted hc o.lnResp) (x0 := Real.log (Spec.period C i))
    (x1 := Real.log (Spec.period C i')) (y0 := o.lnResp.getD i F.nan) (y1 := o.lnResp.getD i' F.nan)
    (by rw [List.map_map, List.zip_map']; exact List.mem_map.2 ⟨i, hi, rfl⟩)
    (by rw [List.map_map, List.zip_map']; exact List.mem_map.2 ⟨i', hi', rfl⟩) hl0 hl1 ?_]
  · simp only [fsimp]
  · intro p hpn
    rw [List.map_map, List.zip_map'] at hpn
    obtain ⟨j, hj, rfl⟩ := List.mem_map.1 hpn
    rintro ⟨ha, hb⟩
    have hpj := Kinds.period_pos hc hj
    exact hadj j hj ⟨(Real.log_lt_log_iff hp hpj).1 ha, (Real.log_lt_log_iff hpj (Kinds.period_pos hc hi')).1 hb⟩

end Pipeline

open Pipeline in
/-- Conditioning at a tabulated period: the spectrum takes the target value there with standard deviation zero; at every
other period the standard deviation is positive and at most the model's. -/
theorem C130_pass_through (name : String) (C : GmmClass) (h : (name, C) ∈ GmmClass.all) (o : GmmOut) (ss : List F)
    (hu : Spec.Usable C o ss) (k : ℕ) (hk : k < C.indicesPsa.length) (x : ℝ) :
    ∃ out, (Pipeline.cms C o (Spec.period C C.indicesPsa[k]) x).res = .ok out ∧ out.length = C.indicesPsa.length ∧
      (∃ m s : F, out[k]? = some (m, s) ∧ m.ok ∧ m.val = x ∧ s.ok ∧ s.val = 0) ∧
      ∀ j (hj : j < C.indicesPsa.length), ∃ m s sd : F, out[j]? = some (m, s) ∧ ss[C.indicesPsa[j]]? = some sd ∧
        m.ok ∧ s.ok ∧ 0 ≤ s.val ∧ s.val ≤ sd.val ∧ (s.val = 0 ↔ j = k) := by
  have hc := C13_period_tables_coherent name C h
  obtain ⟨hne, hr⟩ := range name h
  have hsp := spectrum hc hu
  have hkm := List.getElem_mem hk
  obtain ⟨h1, h2⟩ := hr _ hkm
  have hne' : C.indicesPsa.map (pt C o ss) ≠ [] := by simpa using hne
  have hr' : ∀ p ∈ C.indicesPsa.map (pt C o ss), 0.01 ≤ p.period ∧ p.period ≤ 500 := by
    intro p hp
    obtain ⟨i, hi, rfl⟩ := List.mem_map.1 hp
    exact hr i hi
  obtain ⟨out, e, l, m, s, g, m1, s1, m2, s2⟩ := C35_passes_through _ hsp _ k (pt_get hk) (by
    simp only [pt]; intro e; rw [e] at h1; norm_num at h1) x
  obtain ⟨out', e', -, hw⟩ := C35_never_widens _ hsp hne' hr' (Spec.period C C.indicesPsa[k]) x h1 h2
  have e1 : (Pipeline.cms C o (Spec.period C C.indicesPsa[k]) x).res = .ok out := by rw [cms_eq hc hu]; exact congrArg _ e
  have e2 : (Pipeline.cms C o (Spec.period C C.indicesPsa[k]) x).res = .ok out' := by rw [cms_eq hc hu]; exact congrArg _ e'
  cases e1.symm.trans e2
  refine ⟨out, e1, by simpa using l, ⟨m, s, g, m1, m2, s1, s2⟩, fun j hj => ?_⟩
  obtain ⟨m', s', g', a1, a2, a3, a4, a5⟩ := hw j _ (pt_get hj)
  obtain ⟨sd, hsd, hsd'⟩ := std_val hc hu (List.getElem_mem hj)
  refine ⟨m', s', sd, g', hsd, a1, a2, a3, ?_, a5.trans ⟨fun he => ?_, fun he => by subst he; rfl⟩⟩
  · simpa only [pt, hsd'] using a4
  · have hj' : j < (Kinds.logs C).length := by rwa [Kinds.logs_length]
    have hk' : k < (Kinds.logs C).length := by rwa [Kinds.logs_length]
    have el : (Kinds.logs C)[j] = (Kinds.logs C)[k] := by
      rw [Kinds.logs_get, Kinds.logs_get]; exact congrArg Real.log he
    rcases lt_trichotomy j k with hlt | hlt | hlt
    · exact absurd el (ne_of_lt (Kinds.get_lt (Kinds.logs_sorted hc) hk' hlt))
    · exact hlt
    · exact absurd el.symm (ne_of_lt (Kinds.get_lt (Kinds.logs_sorted hc) hj' hlt))

open Pipeline in
/-- Conditioning at a tabulated period on the model's own median there returns the median spectrum. -/
theorem C130_median (name : String) (C : GmmClass) (h : (name, C) ∈ GmmClass.all) (o : GmmOut) (ss : List F)
    (hu : Spec.Usable C o ss) (k : ℕ) (hk : k < C.indicesPsa.length) (y : F) (hy : o.lnResp[C.indicesPsa[k]]? = some y) :
    ∃ out, (Pipeline.cms C o (Spec.period C C.indicesPsa[k]) y.val).res = .ok out ∧
      ∀ j (hj : j < C.indicesPsa.length), ∃ m s z : F, out[j]? = some (m, s) ∧ o.lnResp[C.indicesPsa[j]]? = some z ∧
        m.ok ∧ m.val = z.val := by
  have hc := C13_period_tables_coherent name C h
  obtain ⟨hne, hr⟩ := range name h
  have hkm := List.getElem_mem hk
  obtain ⟨h1, h2⟩ := hr _ hkm
  have hr' : ∀ p ∈ C.indicesPsa.map (pt C o ss), 0.01 ≤ p.period ∧ p.period ≤ 500 := by
    intro p hp
    obtain ⟨i, hi, rfl⟩ := List.mem_map.1 hp
    exact hr i hi
  obtain ⟨x₀, hx, out, e, hm, -⟩ := C35_target _ (spectrum hc hu) (by simpa using hne) hr' (Spec.period C C.indicesPsa[k]) h1 h2
  have hxy : x₀ = y.val := by
    rw [hx (pt C o ss C.indicesPsa[k]) (List.mem_map_of_mem hkm) rfl]
    simp [pt, List.getD_eq_getElem?_getD, hy]
  subst hxy
  refine ⟨out, by rw [cms_eq hc hu, e]; rfl, fun j hj => ?_⟩
  obtain ⟨m, s, g, ok, v⟩ := hm j _ (pt_get hj)
  obtain ⟨z, hz, hz'⟩ := resp_val hc hu (List.getElem_mem hj)
  exact ⟨m, s, z, g, hz, ok, by simpa only [pt, hz'] using v⟩

open Pipeline in
/-- Conditioning at a period strictly between two neighbouring tabulated ones, on the median the model itself interpolates
there: the model interpolates along the logarithm of the period, `calc_cond_mean_spectrum` along the period.  So unless the
two neighbouring medians are equal the result is not the median spectrum: it is above it (where the correlation is positive)
if the spectrum rises between the two periods, and below it if the spectrum falls. -/
theorem C130_mismatch (name : String) (C : GmmClass) (h : (name, C) ∈ GmmClass.all) (o : GmmOut) (ss : List F)
    (hu : Spec.Usable C o ss) (i i' : ℕ) (hi : i ∈ C.indicesPsa) (hi' : i' ∈ C.indicesPsa)
    (hadj : ∀ j ∈ C.indicesPsa, ¬ (Spec.period C i < Spec.period C j ∧ Spec.period C j < Spec.period C i'))
    (T : ℝ) (h0 : Spec.period C i < T) (h1 : T < Spec.period C i') (y y' : F)
    (hy : o.lnResp[i]? = some y) (hy' : o.lnResp[i']? = some y') :
    ∃ v, (Gmm.interpLnSpecAccels C o T).res = .ok v ∧ ∃ out, (Pipeline.cms C o T v.val).res = .ok out ∧
      ∀ j (hj : j < C.indicesPsa.length), ∃ m s z : F, out[j]? = some (m, s) ∧ o.lnResp[C.indicesPsa[j]]? = some z ∧ m.ok ∧
        (y.val = y'.val → m.val = z.val) ∧
        (∀ r, BJ08.calcCorrels [Spec.period C C.indicesPsa[j]] T = [r] → 0 < r.val →
          (y.val < y'.val → z.val < m.val) ∧ (y'.val < y.val → m.val < z.val)) := by
  have hc := C13_period_tables_coherent name C h
  obtain ⟨hne, hr⟩ := range name h
  have hsp := spectrum hc hu
  have hT1 : (0.01 : ℝ) ≤ T := (hr i hi).1.trans h0.le
  have hT2 : T ≤ 500 := h1.le.trans (hr i' hi').2
  have hne' : C.indicesPsa.map (pt C o ss) ≠ [] := by simpa using hne
  have hr' : ∀ p ∈ C.indicesPsa.map (pt C o ss), 0.01 ≤ p.period ∧ p.period ≤ 500 := by
    intro p hp
    obtain ⟨i, hi, rfl⟩ := List.mem_map.1 hp
    exact hr i hi
  obtain ⟨v, hv, hval⟩ := own_median hc hu.resp_length hi hi' hadj h0 h1
  have gy : o.lnResp.getD i F.nan = y := by rw [List.getD_eq_getElem?_getD, hy]; rfl
  have gy' : o.lnResp.getD i' F.nan = y' := by rw [List.getD_eq_getElem?_getD, hy']; rfl
  rw [gy, gy'] at hval
  -- the line along the period
  have lin : (npInterp ((C.indicesPsa.map (pt C o ss)).map fun p => (p.period, F.ofReal p.lnPsa)) T).val =
      (y'.val - y.val) / (Spec.period C i' - Spec.period C i) * (T - Spec.period C i) + y.val := by
    rw [BJ08.interp_val]
    refine interpR_between (x0 := Spec.period C i) (x1 := Spec.period C i') ?_ ?_ ?_ h0 h1 ?_
    · unfold Interp.Sorted
      rw [List.pairwise_map]
      exact hsp.sorted
    · exact List.mem_map.2 ⟨pt C o ss i, List.mem_map_of_mem hi, by simp only [pt, gy]⟩
    · exact List.mem_map.2 ⟨pt C o ss i', List.mem_map_of_mem hi', by simp only [pt, gy']⟩
    · intro p hp
      obtain ⟨q, hq, rfl⟩ := List.mem_map.1 hp
      obtain ⟨j, hj, rfl⟩ := List.mem_map.1 hq
      exact hadj j hj
  have chord := log_chord (Kinds.period_pos hc hi) h0 h1
  have pos := BJ08.interp_std_pos hsp hne' T
  have eps : (BJ08.epsilon (C.indicesPsa.map (pt C o ss)) T v.val).val =
      (y'.val - y.val) * ((Real.log T - Real.log (Spec.period C i)) / (Real.log (Spec.period C i') - Real.log (Spec.period C i)) -
        (T - Spec.period C i) / (Spec.period C i' - Spec.period C i)) /
      (npInterp ((C.indicesPsa.map (pt C o ss)).map fun p => (p.period, F.ofReal p.lnStd)) T).val := by
    simp only [BJ08.epsilon, F.val_div, F.val_sub, F.val_ofReal, lin, hval]
    ring
  refine ⟨v, hv, _, by rw [cms_eq hc hu, BJ08.calcCms_of hne']; rfl, fun j hj => ?_⟩
  have hjm := List.getElem_mem hj
  obtain ⟨z, hz, hz'⟩ := resp_val hc hu hjm
  obtain ⟨sd, hsd, hsd'⟩ := std_val hc hu hjm
  have sdp : 0 < sd.val := (hu.std_pos sd (List.mem_of_getElem? hsd)).2
  have k1 := BJ08.epsilon_ok hsp hne' T v.val
  obtain ⟨r, hr1, k2, -⟩ := C34_range [Spec.period C C.indicesPsa[j]] _ T 0 rfl (hr _ hjm).1 (hr _ hjm).2 hT1 hT2
  have hr2 : r = BJ08.correl (Spec.period C C.indicesPsa[j]) T := by simpa [BJ08.calcCorrels] using hr1.symm
  refine ⟨_, _, z, BJ08.map_get (pt_get hj) _, hz, ?_, ?_, ?_⟩
  · simp only [pt, fsimp, k1, ← hr2, k2]
  · intro he
    simp only [pt, F.val_add, F.val_mul, F.val_ofReal, eps, hz', he]
    simp
  · intro r' hr' r0
    have hr3 : r' = BJ08.correl (Spec.period C C.indicesPsa[j]) T := by simpa [BJ08.calcCorrels] using hr'.symm
    simp only [pt, F.val_add, F.val_mul, F.val_ofReal, eps, hz', hsd', ← hr3]
    have q : 0 < sd.val * r'.val := mul_pos sdp r0
    have w := sub_pos.2 chord
    constructor
    · intro hlt
      have := mul_pos q (div_pos (mul_pos (sub_pos.2 hlt) w) pos)
      linarith
    · intro hlt
      have := mul_pos q (div_pos (mul_pos (sub_pos.2 hlt) w) pos)
      rw [← neg_sub y.val y'.val, neg_mul, neg_div, mul_neg]
      linarith

open Pipeline in
/-- Conditioning outside the tabulated periods (between 0.01 and 500 s): `interp_ln_spec_accels` answers nan there, but
`calc_cond_mean_spectrum` silently measures the target against the median and the standard deviation of the
shortest (or longest) tabulated period. -/
theorem C130_outside (name : String) (C : GmmClass) (h : (name, C) ∈ GmmClass.all) (o : GmmOut) (ss : List F)
    (hu : Spec.Usable C o ss) (i : ℕ) (hi : i ∈ C.indicesPsa) (y sd : F) (hy : o.lnResp[i]? = some y) (hsd : ss[i]? = some sd)
    (T : ℝ) (hT1 : 0.01 ≤ T) (hT2 : T ≤ 500)
    (hout : (T < Spec.period C i ∧ ∀ j ∈ C.indicesPsa, Spec.period C i ≤ Spec.period C j) ∨
      (Spec.period C i < T ∧ ∀ j ∈ C.indicesPsa, Spec.period C j ≤ Spec.period C i)) (x : ℝ) :
    (∃ v, (Gmm.interpLnSpecAccels C o T).res = .ok v ∧ ¬ v.ok) ∧
    ∃ out, (Pipeline.cms C o T x).res = .ok out ∧
      ∀ j (hj : j < C.indicesPsa.length), ∃ m s z d r : F, out[j]? = some (m, s) ∧ o.lnResp[C.indicesPsa[j]]? = some z ∧
        ss[C.indicesPsa[j]]? = some d ∧ BJ08.calcCorrels [Spec.period C C.indicesPsa[j]] T = [r] ∧ m.ok ∧ r.ok ∧
        m.val = z.val + d.val * r.val * ((x - y.val) / sd.val) := by
  have hc := C13_period_tables_coherent name C h
  obtain ⟨hne, hr⟩ := range name h
  have hsp := spectrum hc hu
  have hne' : C.indicesPsa.map (pt C o ss) ≠ [] := by simpa using hne
  refine ⟨C12_outside name C h o hu.resp_length T ?_, _, by rw [cms_eq hc hu, BJ08.calcCms_of hne']; rfl, fun j hj => ?_⟩
  · have hg : ∀ (j : ℕ) (p : ℚ), C.periods[j]? = some p → Spec.period C j = (p : ℝ) := fun j p hp => by
      simp [Spec.period, List.getD_eq_getElem?_getD, hp]
    rcases hout with ⟨a, b⟩ | ⟨a, b⟩
    · left; intro j hj p hp; rw [← hg j p hp]; exact a.trans_le (b j hj)
    · right; intro j hj p hp; rw [← hg j p hp]; exact (b j hj).trans_lt a
  · have gy : o.lnResp.getD i F.nan = y := by rw [List.getD_eq_getElem?_getD, hy]; rfl
    have gs : ss.getD i F.nan = sd := by rw [List.getD_eq_getElem?_getD, hsd]; rfl
    have fin : ∀ f : BJ08.Point → ℝ,
        (npInterp ((C.indicesPsa.map (pt C o ss)).map fun p => (p.period, F.ofReal (f p))) T).val = f (pt C o ss i) := by
      intro f
      rw [BJ08.interp_val]
      refine interpR_end (e := ((pt C o ss i).period, f (pt C o ss i))) ?_ ?_ ?_
      · unfold Interp.Sorted
        rw [List.pairwise_map]
        exact hsp.sorted
      · exact List.mem_map.2 ⟨_, List.mem_map_of_mem hi, rfl⟩
      · have all : ∀ P : ℝ → Prop, (∀ j ∈ C.indicesPsa, P (Spec.period C j)) →
            ∀ p ∈ (C.indicesPsa.map (pt C o ss)).map fun p => (p.period, f p), P p.1 := by
          intro P hP p hp
          obtain ⟨q, hq, rfl⟩ := List.mem_map.1 hp
          obtain ⟨j, hj, rfl⟩ := List.mem_map.1 hq
          exact hP j hj
        rcases hout with ⟨a, b⟩ | ⟨a, b⟩
        · exact Or.inl ⟨a, all (Spec.period C i ≤ ·) b⟩
        · exact Or.inr ⟨a, all (· ≤ Spec.period C i) b⟩
    have hjm := List.getElem_mem hj
    obtain ⟨z, hz, hz'⟩ := resp_val hc hu hjm
    obtain ⟨d, hd, hd'⟩ := std_val hc hu hjm
    have k1 := BJ08.epsilon_ok hsp hne' T x
    obtain ⟨r, hr1, k2, -⟩ := C34_range [Spec.period C C.indicesPsa[j]] _ T 0 rfl (hr _ hjm).1 (hr _ hjm).2 hT1 hT2
    have hr2 : r = BJ08.correl (Spec.period C C.indicesPsa[j]) T := by simpa [BJ08.calcCorrels] using hr1.symm
    refine ⟨_, _, z, d, r, BJ08.map_get (pt_get hj) _, hz, hd, by rw [hr2]; rfl, ?_, k2, ?_⟩
    · simp only [pt, fsimp, k1, ← hr2, k2]
    · simp only [pt, F.val_add, F.val_mul, F.val_ofReal, hz', hd', ← hr2, BJ08.epsilon, F.val_div, F.val_sub]
      rw [fin BJ08.Point.lnPsa, fin BJ08.Point.lnStd]
      simp only [pt, gy, gs]

/-- a shipped class (by its table of attributes) and an instance that C118 calls finite -/
theorem Pipeline.usable {C : GmmClass} {o : GmmOut} {n : ℕ} (hn : C.periods.length = n) (h : Spec.Finite n o) :
    ∃ ss, Spec.Usable C o ss := by
  obtain ⟨l, p, sd, e, l', p'⟩ := h
  exact ⟨sd, l.trans hn.symm, p, e, l'.trans hn.symm, p'⟩

/-- Within the declared limits (under the side conditions of C118) the instances are usable: the theorems above
apply to every construction from a recommended scenario. -/
theorem C130_usable (s : Scenario) (ph : Spec.Physical s) :
    (Spec.AllRecommended Decls.c03 s → ∃ o ss, Gives C03.cls s o ∧ Spec.Usable GmmClass.c03 o ss) ∧
    (Spec.AllRecommended Decls.tp05 s → ∃ o ss, Gives TP05.cls s o ∧ Spec.Usable GmmClass.tp05 o ss) ∧
    (Spec.AllRecommended Decls.pea11 s → ∃ o ss, Gives Pea11.cls s o ∧ Spec.Usable GmmClass.pea11 o ss) ∧
    (Spec.AllRecommended Decls.i14 s → ∃ o ss, Gives I14.cls s o ∧ Spec.Usable GmmClass.i14 o ss) ∧
    (Spec.AllRecommended Decls.dbc14 s → ∃ o ss, Gives DBC14.cls s o ∧ Spec.Usable GmmClass.dbc14 o ss) ∧
    (Spec.AllRecommended Decls.akb14 s →
      s.get "dist_jb" ≠ .none ∨ s.get "dist_hyp" ≠ .none ∨ s.get "dist_epi" ≠ .none →
      ∃ o ss, Gives AKB14.cls s o ∧ Spec.Usable GmmClass.akb14 o ss) ∧
    (Spec.AllRecommended Decls.bssa14 s → ∃ o ss, Gives BSSA14.cls s o ∧ Spec.Usable GmmClass.bssa14 o.gmm ss) ∧
    (Spec.AllRecommended Decls.cy14 s → ∃ o ss, Gives CY14.cls s o ∧ Spec.Usable GmmClass.cy14 o.gmm ss) ∧
    (Spec.AllRecommended Decls.ask14 s →
      (s.get "on_hanging_wall" = .bool true → s.get "dist_x" ≠ .none ∧ ∀ d, s.get "dip" = .num d → d < 90) →
      ∃ o ss, Gives ASK14.cls s o ∧ Spec.Usable GmmClass.ask14 o.gmm ss) ∧
    (Spec.AllRecommended Decls.cb14 s →
      (∀ x d m, s.get "dist_x" = .num x → s.get "dip" = .num d → s.get "mag" = .num m → 0 ≤ x →
        d < 90 ∧ ∃ w, s.get "width" = .num w ∧ 62 * m - 350 ≠ w * Real.cos (d * (Real.pi / 180))) →
      ∃ o ss, Gives CB14.cls s o ∧ Spec.Usable GmmClass.cb14 o.gmm ss) ∧
    (Spec.AllRecommended Decls.ab06 s → (∀ r, s.get "dist_rup" = .num r → 0 < r) → (∀ v, s.get "v_s30" = .num v → 0 ≤ v) →
      ∃ o ss, Gives AB06.cls s o ∧ Spec.Usable GmmClass.ab06 o ss) ∧
    (∀ (a : AGA16.Adjust) (c4 sc : ℝ), (∀ l, a ≠ .array l) → Spec.AllRecommended Decls.aga16 s →
      (s.get "event_type" = .str "interface" → s.get "dist_rup" ≠ .none) →
      (s.get "event_type" = .str "intraslab" → s.get "dist_hyp" ≠ .none ∧ s.get "depth_hyp" ≠ .none) →
      ∃ o ss, Gives (AGA16.cls a c4 sc) s o ∧ Spec.Usable GmmClass.aga16 o.gmm ss) ∧
    (∀ sc : ℝ, Spec.AllRecommended Decls.coppersmith s → s.get "dist_rup" ≠ .none →
      ∃ o ss, Gives (CoppersmithBommer.cls sc) s o ∧ Spec.Usable GmmClass.coppersmith o ss) := by
  have fin : ∀ {Out : Type} {M : ModelClass Out} {C : GmmClass} {n : ℕ} (f : Out → GmmOut), C.periods.length = n →
      (∃ o, Gives M s o ∧ Spec.Finite n (f o)) → ∃ o ss, Gives M s o ∧ Spec.Usable C (f o) ss := by
    rintro Out M C n f hn ⟨o, g, h⟩
    obtain ⟨ss, hu⟩ := Pipeline.usable hn h
    exact ⟨o, ss, g, hu⟩
  exact ⟨fun h => fin id (by decide +kernel) (C118_c03 s h), fun h => fin id (by decide +kernel) (C118_tp05 s h ph),
    fun h => fin id (by decide +kernel) (C118_pea11 s h), fun h => fin id (by decide +kernel) (C118_i14 s h ph),
    fun h => fin id (by decide +kernel) (C118_dbc14 s h), fun h hd => fin id (by decide +kernel) (C118_akb14 s h hd),
    fun h => fin BSSA14.Out.gmm (by decide +kernel) (C118_bssa14 s h), fun h => fin CY14.Out.gmm (by decide +kernel) (C118_cy14 s h),
    fun h hw => fin ASK14.Out.gmm (by decide +kernel) (C118_ask14 s h ph hw), fun h hw => fin CB14.Out.gmm (by decide +kernel) (C118_cb14 s h ph hw),
    fun h hr hv => fin id (by decide +kernel) (C118_ab06 s h hr hv),
    fun a c4 sc ha h hi hs => fin AGA16.Out.gmm (by decide +kernel) (C118_aga16 s a c4 sc ha h ph hi hs),
    fun sc h hd => fin id (by decide +kernel) (C118_coppersmith s sc h ph hd)⟩

/-- Campbell (2003): from the scenario to the spectrum, for every magnitude and distance. -/
theorem C130_campbell (s : Scenario) (m R : ℝ) (hm : s.get "mag" = .num m) (hr : s.get "dist_rup" = .num R) :
    ∃ o ss, Gives C03.cls s o ∧ Spec.Usable GmmClass.c03 o ss := by
  obtain ⟨o, sd, g, e, l, p⟩ := C54_std_positive s m R hm hr
  have u := g.unique (C03.gives s hm hr)
  refine ⟨o, sd, g, ?_, ?_, e, l, p⟩
  · rw [u]; simp [C03.out, C03.table]; rfl
  · rw [u]; intro y hy
    obtain ⟨c, hc, rfl⟩ := List.mem_map.1 hy
    exact C03.lnResp_ok hc m R

example : ∃ s : Scenario, s.get "mag" = .num 6 ∧ s.get "dist_rup" = .num 20 := ⟨⟨[("mag", .num 6), ("dist_rup", .num 20)], []⟩, rfl, rfl⟩
