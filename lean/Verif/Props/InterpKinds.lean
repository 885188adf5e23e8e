import Verif.InterpKinds
import Verif.Props.Accessors

/-!
# C129: which value the interpolation methods return for each `kind`

For every shipped class, every instance with one response per row and every positive period.
-/

set_option linter.unusedSimpArgs false

/-- spectral period of row `i` -/
noncomputable def Spec.period (C : GmmClass) (i : ℕ) : ℝ := ((C.periods.getD i 0 : ℚ) : ℝ)

/-- `T` lies between the shortest and the longest spectral period -/
def Spec.Tabulated (C : GmmClass) (T : ℝ) : Prop :=
  (∃ i ∈ C.indicesPsa, Spec.period C i ≤ T) ∧ ∃ i ∈ C.indicesPsa, T ≤ Spec.period C i

/-- distance of two periods on the logarithmic axis -/
noncomputable def Spec.logDist (a b : ℝ) : ℝ := |Real.log a - Real.log b|

/-- `r` is the entry of `rows` at one of the spectral rows `i`, which satisfies `P` -/
def Spec.Picks (C : GmmClass) (rows : List F) (r : Except PyErr F) (P : ℕ → Prop) : Prop :=
  ∃ i ∈ C.indicesPsa, P i ∧ ∃ y, rows[i]? = some y ∧ r = .ok y

namespace Kinds

variable (spline : String → List ℝ → List F → ℝ → Py F)

/-- the abscissae -/
noncomputable def logs (C : GmmClass) : List ℝ := C.indicesPsa.map fun i => Real.log (Spec.period C i)

theorem logs_length (C : GmmClass) : (logs C).length = C.indicesPsa.length := by simp [logs]

theorem logs_get (C : GmmClass) (k : ℕ) (h : k < (logs C).length) :
    (logs C)[k] = Real.log (Spec.period C (C.indicesPsa[k]'(by rwa [logs_length] at h))) := by simp [logs]

theorem period_pos {C : GmmClass} (hc : Spec.Coherent C) {i : ℕ} (h : i ∈ C.indicesPsa) : 0 < Spec.period C i := by
  have := hc.psa_pos i h
  unfold Spec.period
  exact_mod_cast this

theorem logs_sorted {C : GmmClass} (hc : Spec.Coherent C) : (logs C).Pairwise (· < ·) := by
  have h := hc.psa_increasing
  rw [List.pairwise_map] at h
  unfold logs
  rw [List.pairwise_map]
  refine h.imp_of_mem fun {a b} ha hb hab => ?_
  exact Real.log_lt_log (period_pos hc ha) (by unfold Spec.period; exact_mod_cast hab)

/-- what the methods hand over to `interp1d` -/
theorem resp_eq {C : GmmClass} (hc : Spec.Coherent C) {o : GmmOut} (hlen : o.lnResp.length = C.periods.length) (kind : String) (T : ℝ) :
    interpLnSpecAccels spline C o kind T
      = interp spline kind (logs C) (C.indicesPsa.map fun i => o.lnResp.getD i F.nan) (Real.log T) := by
  simp only [interpLnSpecAccels, Gmm.periods]
  rw [pyTake_eq _ _ hc.psa_exist 0, pyTake_eq _ _ (by rw [hlen]; exact hc.psa_exist) F.nan, Py.pure_bind', Py.pure_bind', List.map_map]
  rfl

theorem std_eq {C : GmmClass} (hc : Spec.Coherent C) {o : GmmOut} {ss : List F} (hs : o.lnStd = some ss)
    (hlen : ss.length = C.periods.length) (kind : String) (T : ℝ) :
    interpLnStds spline C o kind T
      = interp spline kind (logs C) (C.indicesPsa.map fun i => ss.getD i F.nan) (Real.log T) := by
  simp only [interpLnStds, Gmm.periods, hs]
  rw [pyTake_eq _ _ hc.psa_exist 0, pyTake_eq _ _ (by rw [hlen]; exact hc.psa_exist) F.nan, Py.pure_bind', Py.pure_bind', List.map_map]
  rfl

theorem head_le {C : GmmClass} (hc : Spec.Coherent C) {T : ℝ} (hr : Spec.Tabulated C T) :
    ∃ h : 0 < (logs C).length, (logs C)[0] ≤ Real.log T := by
  obtain ⟨⟨i, hi, hT⟩, -⟩ := hr
  obtain ⟨k, hk, rfl⟩ := List.mem_iff_getElem.1 hi
  have hk' : k < (logs C).length := by rwa [logs_length]
  refine ⟨by omega, (get_le (logs_sorted hc) hk' (Nat.zero_le k)).trans ?_⟩
  rw [logs_get]
  exact Real.log_le_log (period_pos hc hi) hT

theorem le_last {C : GmmClass} (hc : Spec.Coherent C) {T : ℝ} (hT0 : 0 < T) (hr : Spec.Tabulated C T) :
    ∃ h : 0 < (logs C).length, Real.log T ≤ (logs C)[(logs C).length - 1] := by
  obtain ⟨-, ⟨i, hi, hT⟩⟩ := hr
  obtain ⟨k, hk, rfl⟩ := List.mem_iff_getElem.1 hi
  have hk' : k < (logs C).length := by rwa [logs_length]
  refine ⟨by omega, le_trans ?_ (get_le (logs_sorted hc) (j := (logs C).length - 1) (by omega) (by omega : k ≤ _))⟩
  rw [logs_get]
  exact Real.log_le_log hT0 hT

theorem range_pos {C : GmmClass} (hc : Spec.Coherent C) {T : ℝ} (hr : Spec.Tabulated C T) : 0 < T := by
  obtain ⟨⟨i, hi, hT⟩, -⟩ := hr
  exact (period_pos hc hi).trans_le hT

/-- in the range `interp` returns the ordinate at the position chosen -/
theorem interp_pick {C : GmmClass} (hc : Spec.Coherent C) {rows : List F} (hlen : rows.length = C.periods.length)
    {kind : String} (h1 : kind ≠ "linear") (h2 : kind ∉ splines) {T : ℝ} (hr : Spec.Tabulated C T) {k : ℕ} (hk : k < (logs C).length)
    (hp : pick kind (logs C) (Real.log T) = some k) (P : ℕ → Prop) (hP : P (C.indicesPsa[k]'(by rwa [logs_length] at hk))) :
    Spec.Picks C rows (interp spline kind (logs C) (C.indicesPsa.map fun i => rows.getD i F.nan) (Real.log T)).res P := by
  have hk' : k < C.indicesPsa.length := by rwa [logs_length] at hk
  have hi := List.getElem_mem hk'
  have hlt : C.indicesPsa[k] < rows.length := by rw [hlen]; exact hc.psa_exist _ hi
  refine ⟨_, hi, hP, rows[C.indicesPsa[k]], List.getElem?_eq_getElem hlt, ?_⟩
  obtain ⟨hpos, ha⟩ := head_le hc hr
  obtain ⟨_, hb⟩ := le_last hc (range_pos hc hr) hr
  have hh : (logs C).head? = some (logs C)[0] := by rw [List.head?_eq_getElem?, List.getElem?_eq_getElem hpos]
  have hl : (logs C).getLast? = some ((logs C)[(logs C).length - 1]'(by omega)) := by
    rw [List.getLast?_eq_getElem?, List.getElem?_eq_getElem (by omega)]
  have hcond : (∀ a ∈ (logs C).head?, a ≤ Real.log T) ∧ (∀ a ∈ (logs C).getLast?, Real.log T ≤ a) := by
    rw [hh, hl]
    constructor
    · intro a h; rw [Option.mem_some_iff] at h; rw [← h]; exact ha
    · intro a h; rw [Option.mem_some_iff] at h; rw [← h]; exact hb
  simp only [interp, h1, h2, if_false, hp]
  rw [if_pos hcond]
  simp [hk', hlt]

end Kinds

variable (spline : String → List ℝ → List F → ℝ → Py F)

/-- both methods at once: `C129` below says each thing of the medians and of the standard deviations -/
def Spec.Both (C : GmmClass) (o : GmmOut) (kind : String) (T : ℝ) (P : ℕ → Prop) : Prop :=
  Spec.Picks C o.lnResp (Kinds.interpLnSpecAccels spline C o kind T).res P ∧
  ∀ ss, o.lnStd = some ss → ss.length = C.periods.length → Spec.Picks C ss (Kinds.interpLnStds spline C o kind T).res P

/-- `kind="linear"` is the default interpolation of C12. -/
theorem C129_linear (C : GmmClass) (o : GmmOut) (T : ℝ) (hT : 0 < T) :
    Kinds.interpLnSpecAccels spline C o "linear" T = Gmm.interpLnSpecAccels C o T ∧
    Kinds.interpSpecAccels spline C o "linear" T = Gmm.interpSpecAccels C o T ∧
    Kinds.interpLnStds spline C o "linear" T = Gmm.interpLnStds C o T := by
  have key : Kinds.interpLnSpecAccels spline C o "linear" T = Gmm.interpLnSpecAccels C o T := by
    simp only [Kinds.interpLnSpecAccels, Gmm.interpLnSpecAccels, Kinds.interp, Gmm.interpAt, hT, if_true]
  refine ⟨key, ?_, ?_⟩
  · simp only [Kinds.interpSpecAccels, Gmm.interpSpecAccels, key]
  · cases h : o.lnStd with
    | none => simp only [Kinds.interpLnStds, Gmm.interpLnStds, h]
    | some ss => simp only [Kinds.interpLnStds, Gmm.interpLnStds, h, Kinds.interp, Gmm.interpAt, hT, if_true]

/-- `kind="nearest"`: the value of a spectral row whose period is closest on the logarithmic axis; of two equally close ones
the shorter period. -/
theorem C129_nearest (name : String) (C : GmmClass) (h : (name, C) ∈ GmmClass.all) (o : GmmOut)
    (hlen : o.lnResp.length = C.periods.length) (T : ℝ) (hr : Spec.Tabulated C T) :
    Spec.Both spline C o "nearest" T fun i => ∀ j ∈ C.indicesPsa,
      Spec.logDist T (Spec.period C i) ≤ Spec.logDist T (Spec.period C j) ∧
      (Spec.period C j < Spec.period C i → Spec.logDist T (Spec.period C i) < Spec.logDist T (Spec.period C j)) := by
  have hc := C13_period_tables_coherent name C h
  obtain ⟨hpos, -⟩ := Kinds.head_le hc hr
  obtain ⟨k, hk, hp, hm⟩ := Kinds.nearest_spec (Kinds.logs_sorted hc) (List.length_pos_iff.1 hpos) (Real.log T)
  have hP : ∀ j ∈ C.indicesPsa,
      Spec.logDist T (Spec.period C (C.indicesPsa[k]'(by rwa [Kinds.logs_length] at hk))) ≤ Spec.logDist T (Spec.period C j) ∧
      (Spec.period C j < Spec.period C (C.indicesPsa[k]'(by rwa [Kinds.logs_length] at hk)) →
        Spec.logDist T (Spec.period C (C.indicesPsa[k]'(by rwa [Kinds.logs_length] at hk))) < Spec.logDist T (Spec.period C j)) := by
    intro j hj
    obtain ⟨m, hm', rfl⟩ := List.mem_iff_getElem.1 hj
    have hm1 : m < (Kinds.logs C).length := by rwa [Kinds.logs_length]
    have h1 := hm m hm1
    rw [Kinds.logs_get, Kinds.logs_get] at h1
    refine ⟨h1.1, fun hlt => h1.2 ?_⟩
    by_contra hge
    have := Kinds.get_le (Kinds.logs_sorted hc) hm1 (not_lt.1 hge)
    rw [Kinds.logs_get, Kinds.logs_get] at this
    exact absurd (Real.log_lt_log (Kinds.period_pos hc hj) hlt) (not_lt.2 this)
  refine ⟨?_, fun ss hs hl => ?_⟩
  · rw [Kinds.resp_eq spline hc hlen]
    exact Kinds.interp_pick spline hc hlen (by decide) (by decide) hr hk hp _ hP
  · rw [Kinds.std_eq spline hc hs hl]
    exact Kinds.interp_pick spline hc hl (by decide) (by decide) hr hk hp _ hP

/-- `kind="nearest-up"`: the same with the longer period of two equally close ones. -/
theorem C129_nearest_up (name : String) (C : GmmClass) (h : (name, C) ∈ GmmClass.all) (o : GmmOut)
    (hlen : o.lnResp.length = C.periods.length) (T : ℝ) (hr : Spec.Tabulated C T) :
    Spec.Both spline C o "nearest-up" T fun i => ∀ j ∈ C.indicesPsa,
      Spec.logDist T (Spec.period C i) ≤ Spec.logDist T (Spec.period C j) ∧
      (Spec.period C i < Spec.period C j → Spec.logDist T (Spec.period C i) < Spec.logDist T (Spec.period C j)) := by
  have hc := C13_period_tables_coherent name C h
  obtain ⟨hpos, -⟩ := Kinds.head_le hc hr
  obtain ⟨k, hk, hp, hm⟩ := Kinds.nearest_up_spec (Kinds.logs_sorted hc) (List.length_pos_iff.1 hpos) (Real.log T)
  have hk' : k < C.indicesPsa.length := by rwa [Kinds.logs_length] at hk
  have hP : ∀ j ∈ C.indicesPsa,
      Spec.logDist T (Spec.period C C.indicesPsa[k]) ≤ Spec.logDist T (Spec.period C j) ∧
      (Spec.period C C.indicesPsa[k] < Spec.period C j →
        Spec.logDist T (Spec.period C C.indicesPsa[k]) < Spec.logDist T (Spec.period C j)) := by
    intro j hj
    obtain ⟨m, hm', rfl⟩ := List.mem_iff_getElem.1 hj
    have hm1 : m < (Kinds.logs C).length := by rwa [Kinds.logs_length]
    have h1 := hm m hm1
    rw [Kinds.logs_get, Kinds.logs_get] at h1
    refine ⟨h1.1, fun hlt => h1.2 ?_⟩
    by_contra hge
    have := Kinds.get_le (Kinds.logs_sorted hc) hk (not_lt.1 hge)
    rw [Kinds.logs_get, Kinds.logs_get] at this
    exact absurd (Real.log_lt_log (Kinds.period_pos hc (List.getElem_mem hk')) hlt) (not_lt.2 this)
  refine ⟨?_, fun ss hs hl => ?_⟩
  · rw [Kinds.resp_eq spline hc hlen]
    exact Kinds.interp_pick spline hc hlen (by decide) (by decide) hr hk hp _ hP
  · rw [Kinds.std_eq spline hc hs hl]
    exact Kinds.interp_pick spline hc hl (by decide) (by decide) hr hk hp _ hP

/-- `kind="previous"`: the value at the longest spectral period that does not exceed `T`. -/
theorem C129_previous (name : String) (C : GmmClass) (h : (name, C) ∈ GmmClass.all) (o : GmmOut)
    (hlen : o.lnResp.length = C.periods.length) (T : ℝ) (hr : Spec.Tabulated C T) :
    Spec.Both spline C o "previous" T fun i => Spec.period C i ≤ T ∧
      ∀ j ∈ C.indicesPsa, Spec.period C j ≤ T → Spec.period C j ≤ Spec.period C i := by
  have hc := C13_period_tables_coherent name C h
  have hT := Kinds.range_pos hc hr
  obtain ⟨k, hk, hp, hle, hm⟩ := Kinds.previous_spec (Kinds.logs_sorted hc) (Real.log T) (Kinds.head_le hc hr)
  have hk' : k < C.indicesPsa.length := by rwa [Kinds.logs_length] at hk
  have hki := Kinds.period_pos hc (List.getElem_mem hk')
  have hP : Spec.period C C.indicesPsa[k] ≤ T ∧
      ∀ j ∈ C.indicesPsa, Spec.period C j ≤ T → Spec.period C j ≤ Spec.period C C.indicesPsa[k] := by
    rw [Kinds.logs_get] at hle
    refine ⟨(Real.log_le_log_iff hki hT).1 hle, fun j hj hjT => ?_⟩
    obtain ⟨m, hm', rfl⟩ := List.mem_iff_getElem.1 hj
    have hm1 : m < (Kinds.logs C).length := by rwa [Kinds.logs_length]
    have h1 := hm m hm1 (by rw [Kinds.logs_get]; exact Real.log_le_log (Kinds.period_pos hc hj) hjT)
    have := Kinds.get_le (Kinds.logs_sorted hc) hk h1
    rw [Kinds.logs_get, Kinds.logs_get] at this
    exact (Real.log_le_log_iff (Kinds.period_pos hc hj) hki).1 this
  refine ⟨?_, fun ss hs hl => ?_⟩
  · rw [Kinds.resp_eq spline hc hlen]
    exact Kinds.interp_pick spline hc hlen (by decide) (by decide) hr hk hp _ hP
  · rw [Kinds.std_eq spline hc hs hl]
    exact Kinds.interp_pick spline hc hl (by decide) (by decide) hr hk hp _ hP

/-- `kind="next"`: the value at the shortest spectral period that is not below `T`. -/
theorem C129_next (name : String) (C : GmmClass) (h : (name, C) ∈ GmmClass.all) (o : GmmOut)
    (hlen : o.lnResp.length = C.periods.length) (T : ℝ) (hr : Spec.Tabulated C T) :
    Spec.Both spline C o "next" T fun i => T ≤ Spec.period C i ∧
      ∀ j ∈ C.indicesPsa, T ≤ Spec.period C j → Spec.period C i ≤ Spec.period C j := by
  have hc := C13_period_tables_coherent name C h
  have hT := Kinds.range_pos hc hr
  obtain ⟨k, hk, hp, hle, hm⟩ := Kinds.next_spec (Kinds.logs_sorted hc) (Real.log T) (Kinds.le_last hc hT hr)
  have hk' : k < C.indicesPsa.length := by rwa [Kinds.logs_length] at hk
  have hki := Kinds.period_pos hc (List.getElem_mem hk')
  have hP : T ≤ Spec.period C C.indicesPsa[k] ∧
      ∀ j ∈ C.indicesPsa, T ≤ Spec.period C j → Spec.period C C.indicesPsa[k] ≤ Spec.period C j := by
    rw [Kinds.logs_get] at hle
    refine ⟨(Real.log_le_log_iff hT hki).1 hle, fun j hj hjT => ?_⟩
    obtain ⟨m, hm', rfl⟩ := List.mem_iff_getElem.1 hj
    have hm1 : m < (Kinds.logs C).length := by rwa [Kinds.logs_length]
    have h1 := hm m hm1 (by rw [Kinds.logs_get]; exact Real.log_le_log hT hjT)
    have := Kinds.get_le (Kinds.logs_sorted hc) hm1 h1
    rw [Kinds.logs_get, Kinds.logs_get] at this
    exact (Real.log_le_log_iff hki (Kinds.period_pos hc hj)).1 this
  refine ⟨?_, fun ss hs hl => ?_⟩
  · rw [Kinds.resp_eq spline hc hlen]
    exact Kinds.interp_pick spline hc hlen (by decide) (by decide) hr hk hp _ hP
  · rw [Kinds.std_eq spline hc hs hl]
    exact Kinds.interp_pick spline hc hl (by decide) (by decide) hr hk hp _ hP

/-- At a tabulated period each of these four kinds returns the tabulated value of that very row. -/
theorem C129_at_nodes (name : String) (C : GmmClass) (h : (name, C) ∈ GmmClass.all) (o : GmmOut)
    (hlen : o.lnResp.length = C.periods.length) (i : ℕ) (hi : i ∈ C.indicesPsa) (kind : String)
    (hk : kind ∈ ["nearest", "nearest-up", "previous", "next"]) :
    (∃ y, o.lnResp[i]? = some y ∧ (Kinds.interpLnSpecAccels spline C o kind (Spec.period C i)).res = .ok y) ∧
    ∀ ss, o.lnStd = some ss → ss.length = C.periods.length →
      ∃ y, ss[i]? = some y ∧ (Kinds.interpLnStds spline C o kind (Spec.period C i)).res = .ok y := by
  have hc := C13_period_tables_coherent name C h
  have hr : Spec.Tabulated C (Spec.period C i) := ⟨⟨i, hi, le_rfl⟩, ⟨i, hi, le_rfl⟩⟩
  have inj : ∀ j ∈ C.indicesPsa, Spec.period C j = Spec.period C i → j = i := by
    intro j hj he
    obtain ⟨a, ha, rfl⟩ := List.mem_iff_getElem.1 hi
    obtain ⟨b, hb, rfl⟩ := List.mem_iff_getElem.1 hj
    have ha' : a < (Kinds.logs C).length := by rwa [Kinds.logs_length]
    have hb' : b < (Kinds.logs C).length := by rwa [Kinds.logs_length]
    have e : (Kinds.logs C)[b] = (Kinds.logs C)[a] := by rw [Kinds.logs_get, Kinds.logs_get, he]
    have : b = a := by
      rcases lt_trichotomy b a with h | h | h
      · exact absurd e (ne_of_lt (Kinds.get_lt (Kinds.logs_sorted hc) ha' h))
      · exact h
      · exact absurd e.symm (ne_of_lt (Kinds.get_lt (Kinds.logs_sorted hc) hb' h))
    subst this; rfl
  have logz : ∀ j ∈ C.indicesPsa, Spec.logDist (Spec.period C i) (Spec.period C j) ≤ 0 → Spec.period C j = Spec.period C i := by
    intro j hj hle
    have h0 := abs_eq_zero.1 (le_antisymm hle (abs_nonneg _))
    exact Real.log_injOn_pos (Set.mem_Ioi.2 (Kinds.period_pos hc hj)) (Set.mem_Ioi.2 (Kinds.period_pos hc hi)) (by linarith)
  have fin : ∀ P : ℕ → Prop, (∀ j ∈ C.indicesPsa, P j → Spec.period C j = Spec.period C i) →
      Spec.Both spline C o kind (Spec.period C i) P →
      (∃ y, o.lnResp[i]? = some y ∧ (Kinds.interpLnSpecAccels spline C o kind (Spec.period C i)).res = .ok y) ∧
      ∀ ss, o.lnStd = some ss → ss.length = C.periods.length →
        ∃ y, ss[i]? = some y ∧ (Kinds.interpLnStds spline C o kind (Spec.period C i)).res = .ok y := by
    have one : ∀ (P : ℕ → Prop), (∀ j ∈ C.indicesPsa, P j → Spec.period C j = Spec.period C i) → ∀ rows r,
        Spec.Picks C rows r P → ∃ y, rows[i]? = some y ∧ r = .ok y := by
      rintro P hP rows r ⟨j, hj, hPj, y, hy, hres⟩
      have := inj j hj (hP j hj hPj)
      subst this
      exact ⟨y, hy, hres⟩
    exact fun P hP hb => ⟨one P hP _ _ hb.1, fun ss hs hl => one P hP _ _ (hb.2 ss hs hl)⟩
  simp only [List.mem_cons, List.not_mem_nil, or_false] at hk
  rcases hk with rfl | rfl | rfl | rfl
  · exact fin _ (fun j hj hP => logz j hj (by simpa [Spec.logDist] using (hP i hi).1)) (C129_nearest spline name C h o hlen _ hr)
  · exact fin _ (fun j hj hP => logz j hj (by simpa [Spec.logDist] using (hP i hi).1)) (C129_nearest_up spline name C h o hlen _ hr)
  · exact fin _ (fun j hj hP => le_antisymm hP.1 (hP.2 i hi le_rfl)) (C129_previous spline name C h o hlen _ hr)
  · exact fin _ (fun j hj hP => le_antisymm (hP.2 i hi le_rfl) hP.1) (C129_next spline name C h o hlen _ hr)

/-- Outside the tabulated range each of these four kinds returns nan: nothing is extrapolated. -/
theorem C129_outside (name : String) (C : GmmClass) (h : (name, C) ∈ GmmClass.all) (o : GmmOut)
    (hlen : o.lnResp.length = C.periods.length) (T : ℝ) (hT : 0 < T) (hr : ¬ Spec.Tabulated C T) (kind : String)
    (hk : kind ∈ ["nearest", "nearest-up", "previous", "next"]) :
    (Kinds.interpLnSpecAccels spline C o kind T).res = .ok F.nan ∧
    ∀ ss, o.lnStd = some ss → ss.length = C.periods.length → (Kinds.interpLnStds spline C o kind T).res = .ok F.nan := by
  have hc := C13_period_tables_coherent name C h
  have hne : 0 < (Kinds.logs C).length := by
    rw [Kinds.logs_length]
    have key : ∀ c ∈ GmmClass.all, 0 < c.2.indicesPsa.length := by decide +kernel
    exact key _ h
  have hh : (Kinds.logs C).head? = some (Kinds.logs C)[0] := by rw [List.head?_eq_getElem?, List.getElem?_eq_getElem hne]
  have hl : (Kinds.logs C).getLast? = some ((Kinds.logs C)[(Kinds.logs C).length - 1]'(by omega)) := by
    rw [List.getLast?_eq_getElem?, List.getElem?_eq_getElem (by omega)]
  have hcond : ¬ ((∀ a ∈ (Kinds.logs C).head?, a ≤ Real.log T) ∧ (∀ a ∈ (Kinds.logs C).getLast?, Real.log T ≤ a)) := by
    rintro ⟨h1, h2⟩
    have h1 := h1 _ hh
    have h2 := h2 _ hl
    rw [Kinds.logs_get] at h1 h2
    have hne' := hne
    rw [Kinds.logs_length] at hne'
    have m0 := List.getElem_mem hne'
    have m1 : C.indicesPsa[(Kinds.logs C).length - 1]'(by rw [Kinds.logs_length]; omega) ∈ C.indicesPsa := List.getElem_mem _
    exact hr ⟨⟨_, m0, (Real.log_le_log_iff (Kinds.period_pos hc m0) hT).1 h1⟩,
      ⟨_, m1, (Real.log_le_log_iff hT (Kinds.period_pos hc m1)).1 h2⟩⟩
  simp only [List.mem_cons, List.not_mem_nil, or_false] at hk
  have pk : ∃ k, Kinds.pick kind (Kinds.logs C) (Real.log T) = some k := by
    rcases hk with rfl | rfl | rfl | rfl <;> exact ⟨_, by simp [Kinds.pick]; rfl⟩
  obtain ⟨k, pk⟩ := pk
  have hs : kind ≠ "linear" ∧ kind ∉ Kinds.splines := by
    rcases hk with rfl | rfl | rfl | rfl <;> decide
  have fin : ∀ ys, (Kinds.interp spline kind (Kinds.logs C) ys (Real.log T)).res = .ok F.nan := by
    intro ys
    simp only [Kinds.interp, hs.1, hs.2, if_false, pk]
    rw [if_neg hcond]
    rfl
  refine ⟨by rw [Kinds.resp_eq spline hc hlen]; exact fin _, fun ss hss hl => ?_⟩
  rw [Kinds.std_eq spline hc hss hl]
  exact fin _

/-- Any other string raises `NotImplementedError`, from each method. -/
theorem C129_unknown (name : String) (C : GmmClass) (h : (name, C) ∈ GmmClass.all) (o : GmmOut)
    (hlen : o.lnResp.length = C.periods.length) (hstd : ∀ ss, o.lnStd = some ss → ss.length = C.periods.length) (T : ℝ) (kind : String)
    (hk : kind ∉ ["linear", "nearest", "nearest-up", "previous", "next", "zero", "slinear", "quadratic", "cubic"]) :
    (Kinds.interpLnSpecAccels spline C o kind T).res = .error .notImplemented ∧
    (Kinds.interpSpecAccels spline C o kind T).res = .error .notImplemented ∧
    (Kinds.interpLnStds spline C o kind T).res = .error .notImplemented := by
  have hc := C13_period_tables_coherent name C h
  simp only [List.mem_cons, List.not_mem_nil, or_false, not_or] at hk
  obtain ⟨h1, h2, h3, h4, h5, h6, h7, h8, h9⟩ := hk
  have hi : ∀ xs ys x, Kinds.interp spline kind xs ys x = Py.raise .notImplemented := by
    intro xs ys x
    simp [Kinds.interp, Kinds.pick, Kinds.splines, h1, h2, h3, h4, h5, h6, h7, h8, h9]
  have e : Kinds.interpLnSpecAccels spline C o kind T = Py.raise .notImplemented := by
    rw [Kinds.resp_eq spline hc hlen, hi]
  refine ⟨by rw [e]; rfl, by simp only [Kinds.interpSpecAccels, e]; rfl, ?_⟩
  cases hs : o.lnStd with
  | none => simp [Kinds.interpLnStds, hs]
  | some ss => rw [Kinds.std_eq spline hc hs (hstd ss hs), hi]; rfl

/-- `interp_spec_accels` is the exponential of `interp_ln_spec_accels` for every kind, splines included. -/
theorem C129_exp (C : GmmClass) (o : GmmOut) (kind : String) (T : ℝ) :
    (∀ y, (Kinds.interpLnSpecAccels spline C o kind T).res = .ok y →
      ∃ v, (Kinds.interpSpecAccels spline C o kind T).res = .ok v ∧ (v.ok ↔ y.ok) ∧ v.val = Real.exp y.val) ∧
    (∀ e, (Kinds.interpLnSpecAccels spline C o kind T).res = .error e → (Kinds.interpSpecAccels spline C o kind T).res = .error e) := by
  constructor
  · intro y hy
    refine ⟨y.exp, ?_, by simp, by simp⟩
    rw [Kinds.interpSpecAccels, Py.bind_res_ok hy]; rfl
  · intro e he
    rw [Kinds.interpSpecAccels, Py.bind_res_error he]

/-- 0.11 s lies in the range of the table of AbrahamsonSilvaKamai2014 -/
example : ("AbrahamsonSilvaKamai2014", GmmClass.ask14) ∈ GmmClass.all ∧ Spec.Tabulated GmmClass.ask14 ((11 / 100 : ℚ) : ℝ) := by
  refine ⟨by simp [GmmClass.all], ?_⟩
  have h : (∃ i ∈ GmmClass.ask14.indicesPsa, GmmClass.ask14.periods.getD i 0 ≤ 11 / 100) ∧
      ∃ i ∈ GmmClass.ask14.indicesPsa, 11 / 100 ≤ GmmClass.ask14.periods.getD i 0 := by decide +kernel
  obtain ⟨⟨i, hi, h1⟩, ⟨j, hj, h2⟩⟩ := h
  refine ⟨⟨i, hi, ?_⟩, ⟨j, hj, ?_⟩⟩
  · unfold Spec.period; exact Rat.cast_le.2 h1
  · unfold Spec.period; exact Rat.cast_le.2 h2
