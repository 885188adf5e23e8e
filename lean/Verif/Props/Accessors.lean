import Verif.GMMLemmas
import Verif.GMMClasses

/-!
# C11, C12, C13: accessors, interpolation and period tables of ground-motion models

`C : GmmClass` holds the class attributes, `o : GmmOut` what the constructor of an
instance left in `_ln_resp` / `_ln_std`.
-/

/-! ## C13 -/

/-- numpy's reading of an index into an array of length `n` -/
def Spec.position (n : ℕ) (i : ℤ) : ℤ := if 0 ≤ i then i else n + i

/-- Specification of a coherent class description. -/
structure Spec.Coherent (C : GmmClass) : Prop where
  /-- spectral rows exist -/
  psa_exist : ∀ i ∈ C.indicesPsa, i < C.periods.length
  /-- spectral periods are positive -/
  psa_pos : ∀ i ∈ C.indicesPsa, 0 < C.periods.getD i 0
  /-- and strictly increasing in the order they are listed -/
  psa_increasing : (C.indicesPsa.map fun i => C.periods.getD i 0).Pairwise (· < ·)
  /-- they are one contiguous block of rows -/
  psa_block : ∃ a b, C.indicesPsa = arange a b
  /-- peak rows exist -/
  peak_exist : ∀ i, (C.indexPga = some i ∨ C.indexPgv = some i ∨ C.indexPgd = some i) →
    0 ≤ Spec.position C.periods.length i ∧
      Spec.position C.periods.length i < C.periods.length
  /-- the velocity row carries the code -1 and is not a spectral row -/
  pgv_code : ∀ i, C.indexPgv = some i →
    C.periods.getD (Spec.position C.periods.length i).toNat 0 = -1 ∧
      (Spec.position C.periods.length i).toNat ∉ C.indicesPsa
  /-- the displacement row carries the code -2 and is not a spectral row -/
  pgd_code : ∀ i, C.indexPgd = some i →
    C.periods.getD (Spec.position C.periods.length i).toNat 0 = -2 ∧
      (Spec.position C.periods.length i).toNat ∉ C.indicesPsa
  /-- the acceleration row has period 0 and is no spectral row, or it is the spectral row
  of period 0.01 s, the shortest one -/
  pga_code : ∀ i, C.indexPga = some i →
    (C.periods.getD (Spec.position C.periods.length i).toNat 1 = 0 ∧
      (Spec.position C.periods.length i).toNat ∉ C.indicesPsa) ∨
    (C.periods.getD (Spec.position C.periods.length i).toNat 0 = 0.01 ∧
      C.indicesPsa.head? = some (Spec.position C.periods.length i).toNat)

/-- the same requirements in directly decidable form -/
abbrev Spec.CoherentCheck (C : GmmClass) : Prop :=
  (∀ i ∈ C.indicesPsa, i < C.periods.length) ∧
  (∀ i ∈ C.indicesPsa, 0 < C.periods.getD i 0) ∧
  List.IsChain (· < ·) (C.indicesPsa.map fun i => C.periods.getD i 0) ∧
  C.indicesPsa = arange (C.indicesPsa.headD 0) (C.indicesPsa.headD 0 + C.indicesPsa.length) ∧
  (∀ i ∈ C.indexPga.toList ++ C.indexPgv.toList ++ C.indexPgd.toList,
    0 ≤ Spec.position C.periods.length i ∧
      Spec.position C.periods.length i < C.periods.length) ∧
  (∀ i ∈ C.indexPgv.toList,
    C.periods.getD (Spec.position C.periods.length i).toNat 0 = -1 ∧
      (Spec.position C.periods.length i).toNat ∉ C.indicesPsa) ∧
  (∀ i ∈ C.indexPgd.toList,
    C.periods.getD (Spec.position C.periods.length i).toNat 0 = -2 ∧
      (Spec.position C.periods.length i).toNat ∉ C.indicesPsa) ∧
  (∀ i ∈ C.indexPga.toList,
    (C.periods.getD (Spec.position C.periods.length i).toNat 1 = 0 ∧
      (Spec.position C.periods.length i).toNat ∉ C.indicesPsa) ∨
    (C.periods.getD (Spec.position C.periods.length i).toNat 0 = 0.01 ∧
      C.indicesPsa.head? = some (Spec.position C.periods.length i).toNat))

theorem Spec.coherent_of {C : GmmClass} (h : Spec.CoherentCheck C) : Spec.Coherent C := by
  obtain ⟨h1, h2, h3, h4, h5, h6, h7, h8⟩ := h
  refine ⟨h1, h2, List.isChain_iff_pairwise.1 h3, ⟨_, _, h4⟩, ?_, ?_, ?_, ?_⟩
  · rintro i (h | h | h) <;> exact h5 i (by simp [h])
  · intro i h; exact h6 i (by simp [h])
  · intro i h; exact h7 i (by simp [h])
  · intro i h; exact h8 i (by simp [h])

/-- Every shipped ground-motion model has a coherent period table. -/
theorem C13_period_tables_coherent (name : String) (C : GmmClass)
    (h : (name, C) ∈ GmmClass.all) : Spec.Coherent C := by
  have key : ∀ c ∈ GmmClass.all, Spec.CoherentCheck c.2 := by decide +kernel
  exact Spec.coherent_of (key _ h)

/-- Models that switch between coefficient tables list the same periods in each of
them, so `PERIODS` describes whichever table is used. -/
theorem C13_alternative_tables_agree :
    AKB14.hyp.map (·.period) = AKB14.jb.map (·.period) ∧
    AKB14.epi.map (·.period) = AKB14.jb.map (·.period) ∧
    AB06.rock.map (·.period) = AB06.bc.map (·.period) ∧
    I14.large.map (·.period) = I14.small.map (·.period) := by decide +kernel

/-- the `periods` property succeeds and lists positive, strictly increasing periods -/
theorem C13_periods_property (name : String) (C : GmmClass) (h : (name, C) ∈ GmmClass.all) :
    ∃ ps, (Gmm.periods C).res = .ok ps ∧ ps.length = C.indicesPsa.length ∧
      (∀ p ∈ ps, 0 < p) ∧ ps.Pairwise (· < ·) := by
  have hc := C13_period_tables_coherent name C h
  refine ⟨_, ?_, ?_, ?_, hc.psa_increasing⟩
  · simp only [Gmm.periods]; rw [pyTake_eq _ _ hc.psa_exist 0]; rfl
  · simp
  · intro p hp
    obtain ⟨i, hi, rfl⟩ := List.mem_map.1 hp
    exact hc.psa_pos i hi

example : ("AbrahamsonSilvaKamai2014", GmmClass.ask14) ∈ GmmClass.all := by simp [GmmClass.all]

/-! ## C11 -/

theorem Spec.pyIndex_ok {α : Type} {l : List α} {i : ℤ}
    (h : 0 ≤ Spec.position l.length i ∧ Spec.position l.length i < l.length) :
    ∃ a, l[(Spec.position l.length i).toNat]? = some a ∧ pyIndex l i = pure a := by
  have hlt : (Spec.position l.length i).toNat < l.length := by omega
  refine ⟨l[(Spec.position l.length i).toNat], List.getElem?_eq_getElem hlt, ?_⟩
  unfold pyIndex
  change (if 0 ≤ Spec.position l.length i then _ else _) = _
  simp only [h.1, if_true]
  have : (if 0 ≤ i then i else (l.length : ℤ) + i) = Spec.position l.length i := rfl
  rw [this, List.getElem?_eq_getElem hlt]

/-- What `pga`, `pgv`, `pgd` have to return for the index `i` and the unit scale `k`:
`k * exp` of the log response in that row; defined when that row is, and then positive. -/
def Spec.IsPeak (C : GmmClass) (o : GmmOut) (i : ℤ) (k : ℚ) (r : Except PyErr F) : Prop :=
  ∃ y, o.lnResp[(Spec.position C.periods.length i).toNat]? = some y ∧
    ∃ v, r = .ok v ∧ (v.ok ↔ y.ok) ∧ v.val = k * Real.exp y.val ∧ (0 < k → 0 < v.val)

theorem Spec.peak_row {C : GmmClass} {o : GmmOut} (hlen : o.lnResp.length = C.periods.length)
    {i : ℤ} (hi : 0 ≤ Spec.position C.periods.length i ∧
      Spec.position C.periods.length i < C.periods.length) :
    ∃ y, o.lnResp[(Spec.position C.periods.length i).toNat]? = some y ∧
      pyIndex o.lnResp i = pure y := by
  rw [← hlen] at hi ⊢
  exact Spec.pyIndex_ok hi

/-- `pga` of every shipped class and every instance with one response per row. -/
theorem C11_pga (name : String) (C : GmmClass) (h : (name, C) ∈ GmmClass.all) (o : GmmOut)
    (hlen : o.lnResp.length = C.periods.length) :
    (C.indexPga = none → (Gmm.pga C o).res = .error .notImplemented) ∧
    (∀ i, C.indexPga = some i → Spec.IsPeak C o i 1 (Gmm.pga C o).res) := by
  have hc := C13_period_tables_coherent name C h
  refine ⟨fun hn => by simp [Gmm.pga, hn], fun i hi => ?_⟩
  obtain ⟨y, hy, hp⟩ := Spec.peak_row hlen (hc.peak_exist i (Or.inl hi))
  refine ⟨y, hy, y.exp, ?_, by simp, by simp, fun _ => Real.exp_pos _⟩
  simp [Gmm.pga, hi, Gmm.resp1, hp]

/-- `pgv` of every shipped class and every instance with one response per row. -/
theorem C11_pgv (name : String) (C : GmmClass) (h : (name, C) ∈ GmmClass.all) (o : GmmOut)
    (hlen : o.lnResp.length = C.periods.length) :
    (C.indexPgv = none → (Gmm.pgv C o).res = .error .notImplemented) ∧
    (∀ i, C.indexPgv = some i → Spec.IsPeak C o i C.pgvScale (Gmm.pgv C o).res) := by
  have hc := C13_period_tables_coherent name C h
  refine ⟨fun hn => by simp [Gmm.pgv, hn], fun i hi => ?_⟩
  obtain ⟨y, hy, hp⟩ := Spec.peak_row hlen (hc.peak_exist i (Or.inr (Or.inl hi)))
  refine ⟨y, hy, y.exp * F.ofRat C.pgvScale, ?_, by simp, by simp [mul_comm], fun hk => ?_⟩
  · simp [Gmm.pgv, hi, Gmm.resp1, hp]
  · simp only [F.val_mul, F.val_exp, F.val_ofRat]
    have : (0 : ℝ) < C.pgvScale := by exact_mod_cast hk
    exact mul_pos (Real.exp_pos _) this

/-- `pgd` of every shipped class and every instance with one response per row. -/
theorem C11_pgd (name : String) (C : GmmClass) (h : (name, C) ∈ GmmClass.all) (o : GmmOut)
    (hlen : o.lnResp.length = C.periods.length) :
    (C.indexPgd = none → (Gmm.pgd C o).res = .error .notImplemented) ∧
    (∀ i, C.indexPgd = some i → Spec.IsPeak C o i C.pgdScale (Gmm.pgd C o).res) := by
  have hc := C13_period_tables_coherent name C h
  refine ⟨fun hn => by simp [Gmm.pgd, hn], fun i hi => ?_⟩
  obtain ⟨y, hy, hp⟩ := Spec.peak_row hlen (hc.peak_exist i (Or.inr (Or.inr hi)))
  refine ⟨y, hy, y.exp * F.ofRat C.pgdScale, ?_, by simp, by simp [mul_comm], fun hk => ?_⟩
  · simp [Gmm.pgd, hi, Gmm.resp1, hp]
  · simp only [F.val_mul, F.val_exp, F.val_ofRat]
    have : (0 : ℝ) < C.pgdScale := by exact_mod_cast hk
    exact mul_pos (Real.exp_pos _) this

/-- Only AtkinsonBoore2006 offers `pgd`; no shipped class rescales. -/
theorem C11_which_measures (name : String) (C : GmmClass) (h : (name, C) ∈ GmmClass.all) :
    (C.indexPgd.isSome ↔ name = "AtkinsonBoore2006") ∧ C.pgvScale = 1 ∧ C.pgdScale = 1 ∧
    (C.indexPga = none ↔ name = "Campbell2003") := by
  have key : ∀ c ∈ GmmClass.all, (c.2.indexPgd.isSome ↔ c.1 = "AtkinsonBoore2006") ∧
      c.2.pgvScale = 1 ∧ c.2.pgdScale = 1 ∧ (c.2.indexPga = none ↔ c.1 = "Campbell2003") := by
    decide +kernel
  exact key _ h

/-- `spec_accels`: entry by entry the exponential of the log response at the spectral
rows, hence positive. -/
theorem C11_spec_accels (name : String) (C : GmmClass) (h : (name, C) ∈ GmmClass.all) (o : GmmOut)
    (hlen : o.lnResp.length = C.periods.length) :
    ∃ vs, (Gmm.specAccels C o).res = .ok vs ∧ vs.length = C.indicesPsa.length ∧
      ∀ k (hk : k < C.indicesPsa.length), ∃ y v, o.lnResp[C.indicesPsa[k]]? = some y ∧
        vs[k]? = some v ∧ (v.ok ↔ y.ok) ∧ v.val = Real.exp y.val ∧ 0 < v.val := by
  have hc := C13_period_tables_coherent name C h
  have hex : ∀ i ∈ C.indicesPsa, i < o.lnResp.length := by rw [hlen]; exact hc.psa_exist
  refine ⟨(C.indicesPsa.map fun i => o.lnResp.getD i F.nan).map F.exp, ?_, ?_, ?_⟩
  · simp only [Gmm.specAccels]; rw [pyTake_eq _ _ hex F.nan, Py.pure_bind']; rfl
  · simp
  · intro k hk
    have hi := hex _ (List.getElem_mem hk)
    refine ⟨o.lnResp[C.indicesPsa[k]], (o.lnResp[C.indicesPsa[k]]).exp,
      List.getElem?_eq_getElem hi, ?_, by simp, by simp, Real.exp_pos _⟩
    have hg : o.lnResp.getD C.indicesPsa[k] F.nan = o.lnResp[C.indicesPsa[k]] :=
      getD_getElem hi _
    simp only [List.map_map, List.getElem?_map, List.getElem?_eq_getElem hk, Option.map_some,
      Function.comp_apply, hg]

/-- `ln_stds` raises exactly when the model has no standard deviation; otherwise it lists
the standard deviations at the spectral rows. -/
theorem C11_ln_stds (name : String) (C : GmmClass) (h : (name, C) ∈ GmmClass.all) (o : GmmOut) :
    (o.lnStd = none → (Gmm.lnStds C o).res = .error .notImplemented) ∧
    (∀ ss, o.lnStd = some ss → ss.length = C.periods.length →
      (Gmm.lnStds C o).res = .ok (C.indicesPsa.map fun i => ss.getD i F.nan)) := by
  have hc := C13_period_tables_coherent name C h
  refine ⟨fun hn => by simp [Gmm.lnStds, hn], fun ss hss hl => ?_⟩
  simp only [Gmm.lnStds, hss]
  rw [pyTake_eq _ _ (by rw [hl]; exact hc.psa_exist) F.nan]; rfl

/-- A model without standard deviation: `ln_std_pga` raises `TypeError` (not
`NotImplementedError`) whenever the class has a PGA row. -/
theorem C11_ln_std_pga_without_std (C : GmmClass) (o : GmmOut) (hn : o.lnStd = none) :
    (Gmm.lnStdPga C o).res =
      .error (if C.indexPga.isSome then .typeError else .notImplemented) := by
  cases hi : C.indexPga <;> simp [Gmm.lnStdPga, hi, Gmm.stdAt, hn]

example : (⟨List.replicate 27 (1 : F), none⟩ : GmmOut).lnResp.length =
    GmmClass.ab06.periods.length := by
  rw [List.length_replicate]; decide +kernel

/-! ## C12 -/

theorem Spec.nodes_sorted {C : GmmClass} (hc : Spec.Coherent C) (ys : List F) :
    SortedNodes (List.zip ((C.indicesPsa.map fun i => C.periods.getD i 0).map
      fun p : ℚ => Real.log (p : ℝ)) (C.indicesPsa.map fun i => ys.getD i F.nan)) := by
  rw [List.map_map, List.zip_map']
  unfold SortedNodes
  rw [List.pairwise_map]
  have h := hc.psa_increasing
  rw [List.pairwise_map] at h
  refine List.Pairwise.imp_of_mem ?_ h
  intro a b ha hb hab
  have h0 : (0 : ℝ) < C.periods.getD a 0 := by exact_mod_cast hc.psa_pos a ha
  exact Real.log_lt_log h0 (by exact_mod_cast hab)

theorem Spec.interp_res {C : GmmClass} (hc : Spec.Coherent C) (o : GmmOut)
    (hlen : o.lnResp.length = C.periods.length) (T : ℝ) :
    (Gmm.interpLnSpecAccels C o T).res =
      .ok (Gmm.interpAt (C.indicesPsa.map fun i => C.periods.getD i 0)
        (C.indicesPsa.map fun i => o.lnResp.getD i F.nan) T) := by
  simp only [Gmm.interpLnSpecAccels, Gmm.periods]
  rw [pyTake_eq _ _ hc.psa_exist 0, Py.pure_bind',
    pyTake_eq _ _ (by rw [hlen]; exact hc.psa_exist) F.nan, Py.pure_bind']
  rfl

theorem Spec.interp_std_res {C : GmmClass} (hc : Spec.Coherent C) (o : GmmOut) (ss : List F)
    (hs : o.lnStd = some ss) (hlen : ss.length = C.periods.length) (T : ℝ) :
    (Gmm.interpLnStds C o T).res =
      .ok (Gmm.interpAt (C.indicesPsa.map fun i => C.periods.getD i 0)
        (C.indicesPsa.map fun i => ss.getD i F.nan) T) := by
  simp only [Gmm.interpLnStds, Gmm.periods, hs]
  rw [pyTake_eq _ _ hc.psa_exist 0, Py.pure_bind',
    pyTake_eq _ _ (by rw [hlen]; exact hc.psa_exist) F.nan, Py.pure_bind']
  rfl

theorem Spec.interpAt_own {C : GmmClass} (hc : Spec.Coherent C) (ys : List F)
    {i : ℕ} (hi : i ∈ C.indicesPsa) :
    Gmm.interpAt (C.indicesPsa.map fun i => C.periods.getD i 0)
        (C.indicesPsa.map fun i => ys.getD i F.nan) (C.periods.getD i 0 : ℚ) =
      ys.getD i F.nan := by
  have h0 : (0 : ℝ) < (C.periods.getD i 0 : ℚ) := by exact_mod_cast hc.psa_pos i hi
  simp only [Gmm.interpAt, h0, if_true]
  apply interpLinear_node (Spec.nodes_sorted hc ys)
  rw [List.map_map, List.zip_map']
  exact List.mem_map.2 ⟨i, hi, rfl⟩

theorem Spec.interpAt_between {C : GmmClass} (hc : Spec.Coherent C) (ys : List F)
    {i : ℕ} (hi : i ∈ C.indicesPsa) (hi' : i + 1 ∈ C.indicesPsa) {T : ℝ}
    (h0 : ((C.periods.getD i 0 : ℚ) : ℝ) < T) (h1 : T < (C.periods.getD (i + 1) 0 : ℚ))
    (ho : (ys.getD i F.nan).ok) (ho' : (ys.getD (i + 1) F.nan).ok) :
    ∃ v, Gmm.interpAt (C.indicesPsa.map fun i => C.periods.getD i 0)
        (C.indicesPsa.map fun i => ys.getD i F.nan) T = v ∧ v.ok ∧
      min (ys.getD i F.nan).val (ys.getD (i + 1) F.nan).val ≤ v.val ∧
      v.val ≤ max (ys.getD i F.nan).val (ys.getD (i + 1) F.nan).val := by
  have hp : (0 : ℝ) < (C.periods.getD i 0 : ℚ) := by exact_mod_cast hc.psa_pos i hi
  have hT : 0 < T := hp.trans h0
  refine ⟨_, rfl, ?_⟩
  simp only [Gmm.interpAt, hT, if_true]
  have hl0 := Real.log_lt_log hp h0
  have hl1 := Real.log_lt_log hT h1
  rw [interpLinear_between (Spec.nodes_sorted hc ys) (x0 := Real.log (C.periods.getD i 0 : ℚ))
    (x1 := Real.log (C.periods.getD (i + 1) 0 : ℚ)) (y0 := ys.getD i F.nan)
    (y1 := ys.getD (i + 1) F.nan)
    (by rw [List.map_map, List.zip_map']; exact List.mem_map.2 ⟨i, hi, rfl⟩)
    (by rw [List.map_map, List.zip_map']; exact List.mem_map.2 ⟨i + 1, hi', rfl⟩) hl0 hl1 ?_]
  · generalize Real.log (C.periods.getD i 0 : ℚ) = a at *
    generalize Real.log (C.periods.getD (i + 1) 0 : ℚ) = b at *
    generalize Real.log T = x at *
    generalize ys.getD i F.nan = y at *
    generalize ys.getD (i + 1) F.nan = z at *
    have hab : 0 < b - a := by linarith
    refine ⟨by simp [ho, ho', sub_ne_zero.2 (ne_of_gt (hl0.trans hl1))], ?_, ?_⟩
    · simp only [F.val_add, F.val_mul, F.val_div, F.val_sub, F.val_ofReal]
      have e : (z.val - y.val) / (b - a) * (x - a) + y.val =
          (y.val * (b - x) + z.val * (x - a)) / (b - a) := by field_simp; ring
      rw [e, le_div_iff₀ hab]
      have m1 := min_le_left y.val z.val
      have m2 := min_le_right y.val z.val
      nlinarith [mul_le_mul_of_nonneg_right m1 (by linarith : (0 : ℝ) ≤ b - x),
        mul_le_mul_of_nonneg_right m2 (by linarith : (0 : ℝ) ≤ x - a)]
    · simp only [F.val_add, F.val_mul, F.val_div, F.val_sub, F.val_ofReal]
      have e : (z.val - y.val) / (b - a) * (x - a) + y.val =
          (y.val * (b - x) + z.val * (x - a)) / (b - a) := by field_simp; ring
      rw [e, div_le_iff₀ hab]
      have m1 := le_max_left y.val z.val
      have m2 := le_max_right y.val z.val
      nlinarith [mul_le_mul_of_nonneg_right m1 (by linarith : (0 : ℝ) ≤ b - x),
        mul_le_mul_of_nonneg_right m2 (by linarith : (0 : ℝ) ≤ x - a)]
  · intro p hpn
    rw [List.map_map, List.zip_map'] at hpn
    obtain ⟨j, hj, rfl⟩ := List.mem_map.1 hpn
    rintro ⟨ha, hb⟩
    have hpj : (0 : ℝ) < (C.periods.getD j 0 : ℚ) := by exact_mod_cast hc.psa_pos j hj
    simp only [Function.comp_apply] at ha hb
    rw [Real.log_lt_log_iff hp hpj] at ha
    rw [Real.log_lt_log_iff hpj (by exact_mod_cast hc.psa_pos _ hi')] at hb
    -- positions: increasing rows give increasing periods
    obtain ⟨a, b, hab⟩ := hc.psa_block
    have hmono : ∀ m n, m ∈ C.indicesPsa → n ∈ C.indicesPsa → m < n →
        C.periods.getD m 0 < C.periods.getD n 0 := by
      intro m n hm hn hmn
      have hpw := hc.psa_increasing
      rw [hab] at hm hn hpw
      simp only [arange, List.mem_map, List.mem_range] at hm hn
      obtain ⟨m', hm', rfl⟩ := hm
      obtain ⟨n', hn', rfl⟩ := hn
      rw [List.pairwise_iff_getElem] at hpw
      have := hpw m' n' (by simp [arange]; omega) (by simp [arange]; omega) (by omega)
      simpa [arange] using this
    rcases Nat.lt_or_ge i j with hij | hij
    · rcases Nat.lt_or_ge j (i + 1) with hji | hji
      · omega
      · rcases Nat.eq_or_lt_of_le hji with he | hlt
        · rw [← he] at hb; exact lt_irrefl _ hb
        · have := hmono _ _ hi' hj hlt
          exact absurd hb (not_lt.2 (le_of_lt (by exact_mod_cast this)))
    · rcases Nat.eq_or_lt_of_le hij with he | hlt
      · rw [he] at ha; exact lt_irrefl _ ha
      · have := hmono _ _ hj hi hlt
        exact absurd ha (not_lt.2 (le_of_lt (by exact_mod_cast this)))

theorem Spec.interpAt_outside {C : GmmClass} (hc : Spec.Coherent C) (ys : List F) {T : ℝ}
    (h : (∀ i ∈ C.indicesPsa, T < (C.periods.getD i 0 : ℚ)) ∨
      ∀ i ∈ C.indicesPsa, ((C.periods.getD i 0 : ℚ) : ℝ) < T) :
    Gmm.interpAt (C.indicesPsa.map fun i => C.periods.getD i 0)
        (C.indicesPsa.map fun i => ys.getD i F.nan) T = F.nan := by
  unfold Gmm.interpAt
  split
  · rename_i hT
    apply interpLinear_outside (Spec.nodes_sorted hc ys)
    rw [List.map_map, List.zip_map']
    rcases h with h | h
    · left
      intro p hp
      obtain ⟨i, hi, rfl⟩ := List.mem_map.1 hp
      exact Real.log_lt_log hT (h i hi)
    · right
      intro p hp
      obtain ⟨i, hi, rfl⟩ := List.mem_map.1 hp
      have hpi : (0 : ℝ) < (C.periods.getD i 0 : ℚ) := by exact_mod_cast hc.psa_pos i hi
      exact Real.log_lt_log hpi (h i hi)
  · rfl

/-- At one of the model's own periods the interpolation returns exactly the model's
value. -/
theorem C12_at_own_period (name : String) (C : GmmClass) (h : (name, C) ∈ GmmClass.all)
    (o : GmmOut) (hlen : o.lnResp.length = C.periods.length) (i : ℕ) (hi : i ∈ C.indicesPsa)
    (T : ℚ) (hT : C.periods[i]? = some T) :
    ∃ y, o.lnResp[i]? = some y ∧ (Gmm.interpLnSpecAccels C o T).res = .ok y := by
  have hc := C13_period_tables_coherent name C h
  have hlt : i < o.lnResp.length := by rw [hlen]; exact hc.psa_exist i hi
  refine ⟨o.lnResp[i], List.getElem?_eq_getElem hlt, ?_⟩
  have hT' : C.periods.getD i 0 = T := by rw [List.getD_eq_getElem?_getD, hT]; rfl
  rw [Spec.interp_res hc o hlen, ← hT', Spec.interpAt_own hc o.lnResp hi,
    getD_getElem hlt]

/-- Between two neighbouring model periods the interpolated value is defined and lies
between the two neighbouring values. -/
theorem C12_between (name : String) (C : GmmClass) (h : (name, C) ∈ GmmClass.all)
    (o : GmmOut) (hlen : o.lnResp.length = C.periods.length) (i : ℕ)
    (hi : i ∈ C.indicesPsa) (hi' : i + 1 ∈ C.indicesPsa) (T0 T1 : ℚ) (y0 y1 : F)
    (hT0 : C.periods[i]? = some T0) (hT1 : C.periods[i + 1]? = some T1)
    (hy0 : o.lnResp[i]? = some y0) (hy1 : o.lnResp[i + 1]? = some y1) (ho0 : y0.ok) (ho1 : y1.ok)
    (T : ℝ) (h0 : (T0 : ℝ) < T) (h1 : T < T1) :
    ∃ v, (Gmm.interpLnSpecAccels C o T).res = .ok v ∧ v.ok ∧
      min y0.val y1.val ≤ v.val ∧ v.val ≤ max y0.val y1.val := by
  have hc := C13_period_tables_coherent name C h
  have e0 : C.periods.getD i 0 = T0 := by rw [List.getD_eq_getElem?_getD, hT0]; rfl
  have e1 : C.periods.getD (i + 1) 0 = T1 := by rw [List.getD_eq_getElem?_getD, hT1]; rfl
  have f0 : o.lnResp.getD i F.nan = y0 := by rw [List.getD_eq_getElem?_getD, hy0]; rfl
  have f1 : o.lnResp.getD (i + 1) F.nan = y1 := by rw [List.getD_eq_getElem?_getD, hy1]; rfl
  obtain ⟨v, hv, hvo, hv1, hv2⟩ := Spec.interpAt_between hc o.lnResp hi hi' (T := T)
    (by rw [e0]; exact h0) (by rw [e1]; exact h1) (by rw [f0]; exact ho0) (by rw [f1]; exact ho1)
  rw [f0, f1] at hv1 hv2
  exact ⟨v, by rw [Spec.interp_res hc o hlen, hv], hvo, hv1, hv2⟩

/-- Outside the range of the model's periods (in particular for every period that is not
positive) the result is undefined (`nan`), not an error. -/
theorem C12_outside (name : String) (C : GmmClass) (h : (name, C) ∈ GmmClass.all)
    (o : GmmOut) (hlen : o.lnResp.length = C.periods.length) (T : ℝ)
    (hT : (∀ i ∈ C.indicesPsa, ∀ p, C.periods[i]? = some p → T < (p : ℝ)) ∨
      ∀ i ∈ C.indicesPsa, ∀ p, C.periods[i]? = some p → (p : ℝ) < T) :
    ∃ v, (Gmm.interpLnSpecAccels C o T).res = .ok v ∧ ¬ v.ok := by
  have hc := C13_period_tables_coherent name C h
  refine ⟨F.nan, ?_, by simp⟩
  rw [Spec.interp_res hc o hlen, Spec.interpAt_outside hc o.lnResp]
  have hg : ∀ i ∈ C.indicesPsa, C.periods[i]? = some (C.periods.getD i 0) := by
    intro i hi
    have := hc.psa_exist i hi
    rw [getD_getElem this, List.getElem?_eq_getElem this]
  rcases hT with hT | hT
  · left; intro i hi; exact hT i hi _ (hg i hi)
  · right; intro i hi; exact hT i hi _ (hg i hi)

/-- `interp_spec_accels` is the exponential of `interp_ln_spec_accels`: same exceptions,
same definedness. -/
theorem C12_interp_spec_accels (C : GmmClass) (o : GmmOut) (T : ℝ) (y : F)
    (h : (Gmm.interpLnSpecAccels C o T).res = .ok y) :
    ∃ v, (Gmm.interpSpecAccels C o T).res = .ok v ∧ v.val = Real.exp y.val ∧ (v.ok ↔ y.ok) := by
  refine ⟨y.exp, ?_, by simp, by simp⟩
  simp only [Gmm.interpSpecAccels]
  rw [Py.bind_res_ok h]; rfl

/-- `interp_ln_stds`: the same rules, and `NotImplementedError` without standard
deviations. -/
theorem C12_interp_ln_stds (name : String) (C : GmmClass) (h : (name, C) ∈ GmmClass.all)
    (o : GmmOut) :
    (o.lnStd = none → ∀ T, (Gmm.interpLnStds C o T).res = .error .notImplemented) ∧
    (∀ ss, o.lnStd = some ss → ss.length = C.periods.length → ∀ T,
      (Gmm.interpLnStds C o T).res = (Gmm.interpLnSpecAccels C ⟨ss, none⟩ T).res) := by
  have hc := C13_period_tables_coherent name C h
  refine ⟨fun hn T => by simp [Gmm.interpLnStds, hn], fun ss hss hl T => ?_⟩
  rw [Spec.interp_std_res hc o ss hss hl, Spec.interp_res hc ⟨ss, none⟩ hl]

example : (0 : ℕ) ∈ GmmClass.c03.indicesPsa ∧ 0 + 1 ∈ GmmClass.c03.indicesPsa ∧
    GmmClass.c03.periods[0]? = some (0.01 : ℚ) ∧
    GmmClass.c03.periods[1]? = some (0.02 : ℚ) := by
  decide +kernel
