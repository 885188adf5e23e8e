import Verif.Models.AB20

/-! # C16: Abrahamson & Bhasin (2020) -/

namespace AB20

theorem init_error (s : Scenario) (psa pgaArg psa1sArg : Arg) :
    ∃ e, (init s psa pgaArg psa1sArg).res = .error e := by
  cases h : (init s psa pgaArg psa1sArg).res with
  | error e => exact ⟨e, rfl⟩
  | ok u =>
    exfalso
    unfold init at h
    split at h
    · simp at h
    · rw [Py.bind_ok_iff] at h; obtain ⟨_, -, h⟩ := h
      rw [Py.bind_ok_iff] at h; obtain ⟨_, -, h⟩ := h
      rw [Py.bind_ok_iff] at h; obtain ⟨_, -, h⟩ := h
      simp only [Coeffs.getVs30, Py.raise_bind, Py.raise_res] at h
      cases h

end AB20

/-- AbrahamsonBhasin2020 cannot be constructed: whatever the scenario and the arguments, an
exception is raised. -/
theorem C16_always_raises (s : Scenario) (psa pga psa1s : AB20.Arg) :
    ∃ e, (AB20.new s psa pga psa1s).res = .error e := by
  have h : ParamsOk (AB20.cls s psa pga psa1s).params := by
    change ParamsOk Decls.ab20
    decide +kernel
  unfold AB20.new ModelClass.new
  rw [ModelClass.newFrom_eq _ h]
  cases h1 : (Model.checkVals (AB20.cls s psa pga psa1s).params s.get).res with
  | error e => exact ⟨e, Py.bind_res_error h1 _⟩
  | ok d =>
    rw [Py.bind_res_ok h1]
    obtain ⟨e, he⟩ := AB20.init_error s psa pga psa1s
    refine ⟨e, ?_⟩
    change ((Pure.pure _ : Py Scenario) >>= _).res = _
    rw [Py.pure_bind']
    exact Py.bind_res_error he _

/-- With the three required numbers given: `psa` left at its default, or given as anything
but `None`, is NotImplementedError; so the plain call `AbrahamsonBhasin2020(scenario)` always
ends there. -/
theorem C16_not_implemented (s : Scenario) (psa pga psa1s : AB20.Arg) (m r v : ℝ)
    (hm : s.get "mag" = .num m) (hr : s.get "dist_rup" = .num r) (hv : s.get "v_s30" = .num v)
    (hpsa : psa ≠ .given .none) :
    (AB20.new s psa pga psa1s).res = .error .notImplemented := by
  apply fails_of (by change ParamsOk Decls.ab20; decide +kernel) rfl
  · simp only [AB20.cls, Decls.ab20, List.forall_mem_cons]
    exact ⟨pass_num hr, pass_num hm, pass_num hv, fun _ h => by simp at h⟩
  · intro d _
    have : psa.isNotNone = true := by
      cases psa with
      | default => rfl
      | given w => cases w <;> first | rfl | exact absurd rfl hpsa
    simp [AB20.cls, AB20.init, this]

/-- With psa=None and a numeric pga (or psa_1s) the missing coefficient `v_s30` is looked up
and KeyError is raised. -/
theorem C16_key_error (s : Scenario) (pga psa1s : AB20.Arg) (m r v x : ℝ)
    (hm : s.get "mag" = .num m) (hr : s.get "dist_rup" = .num r) (hv : s.get "v_s30" = .num v)
    (hs : s.attrs = [])
    (harg : pga = .given (.num x) ∨ pga = .given .none ∧ psa1s = .given (.num x)) :
    (AB20.new s (.given .none) pga psa1s).res = .error (.keyError "v_s30") := by
  apply fails_of (by change ParamsOk Decls.ab20; decide +kernel) rfl
  · simp only [AB20.cls, Decls.ab20, List.forall_mem_cons]
    exact ⟨pass_num hr, pass_num hm, pass_num hv, fun _ h => by simp at h⟩
  · intro d _
    have key : ∀ {k : String} {x : ℝ}, s.get k = .num x → s.num k = pure (F.ofReal x) := by
      intro k x hk
      obtain ⟨data, attrs⟩ := s
      simp only at hs
      subst hs
      apply Scenario.num_of
      simp only [Scenario.get] at hk
      cases h : Dict.get? data k with
      | none => simp [h] at hk
      | some w => simp [h] at hk; rw [hk]
    rcases harg with rfl | ⟨rfl, rfl⟩ <;>
      simp [AB20.cls, AB20.init, AB20.Arg.isNotNone, AB20.npLog, Val.toF, key hm, key hr,
        AB20.Coeffs.getVs30]

example : (AB20.new ⟨[("mag", .num 6), ("dist_rup", .num 20), ("v_s30", .num 500)], []⟩
    .default .default .default).res = .error .notImplemented :=
  C16_not_implemented _ _ _ _ 6 20 500 (by simp [Scenario.get, Dict.get?])
    (by simp [Scenario.get, Dict.get?]) (by simp [Scenario.get, Dict.get?]) (by simp)
example : (AB20.new ⟨[("mag", .num 6), ("dist_rup", .num 20), ("v_s30", .num 500)], []⟩
    (.given .none) (.given (.num 0.2)) .default).res = .error (.keyError "v_s30") :=
  C16_key_error _ _ _ 6 20 500 0.2 (by simp [Scenario.get, Dict.get?])
    (by simp [Scenario.get, Dict.get?]) (by simp [Scenario.get, Dict.get?]) rfl (Or.inl rfl)

/-- The one part of the class that works without an instance, `ln_period_pgv`: a number for every
magnitude; the period is `exp (-0.13)` s at magnitude 6 and is multiplied by `exp 0.66` by every
further unit of magnitude. -/
theorem C16_period (m : ℝ) :
    (AB20.lnPeriodPgv (F.ofReal m)).ok ∧
    Real.exp (AB20.lnPeriodPgv (F.ofReal m)).val =
      Real.exp (-0.13) * Real.exp 0.66 ^ (m - 6) := by
  refine ⟨by simp only [AB20.lnPeriodPgv, fsimp], ?_⟩
  simp only [AB20.lnPeriodPgv, fsimp]
  rw [← Real.exp_mul, ← Real.exp_add]
  congr 1
  norm_num
  ring
