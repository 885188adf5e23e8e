import Verif.Props.Limits
import Verif.Props.Decls
import Verif.Props.HKR14

/-!
# C121: when a construction succeeds

For scenarios whose numeric parameters are numbers and whose other parameters are strings or truth
values, as far as they are given at all, the construction of each class succeeds exactly under the
condition stated here; arithmetic that has no result (`nan`, or a division by zero) is not counted as a failure.
-/

set_option linter.unusedSimpArgs false

/-! ### Specification -/

namespace Spec

/-- the value has the type of the parameter, or is missing -/
def TypedAs (p : Param) (v : Val) : Prop :=
  v = .none ∨
  match p.kind with
  | .numeric _ _ => ∃ x, v = .num x
  | .categorical opts => (∃ t u, .str t ∈ opts ∧ v = .str u) ∨ ∃ a b, .bool a ∈ opts ∧ v = .bool b

/-- all declared parameters have values of their type, or are missing -/
def Typed (ps : List Param) (s : Scenario) : Prop := ∀ p ∈ ps, TypedAs p (s.get p.name)

/-- every required parameter is given -/
def RequiredGiven (ps : List Param) (s : Scenario) : Prop := ∀ p ∈ ps, p.required = true → s.get p.name ≠ .none

/-- the construction returns an object -/
def Succeeds {Out : Type} (C : ModelClass Out) (s : Scenario) : Prop := ∃ inst, (C.new s).res = .ok inst

/-- the parameter is given -/
def IsGiven (s : Scenario) (k : String) : Prop := s.get k ≠ .none

end Spec

open Spec

namespace Success

variable {ps : List Param} {s : Scenario} {Out : Type}

theorem required {C : ModelClass Out} (hC : ParamsOk C.params) (h : Succeeds C s) : RequiredGiven C.params s := by
  intro p hp hr hn
  obtain ⟨pre, q, post, -, -, e⟩ := C05_missing_required_fails C hC s p hp hr hn
  obtain ⟨i, hi⟩ := h
  rcases e with ⟨-, -, e⟩ | ⟨-, e⟩ <;> rw [hi] at e <;> cases e

theorem of_gives {C : ModelClass Out} {o : Out} (h : Gives C s o) : Succeeds C s := by
  obtain ⟨i, hi, -⟩ := h
  exact ⟨i, hi⟩

theorem of_error {C : ModelClass Out} {e : PyErr} (h : (C.new s).res = .error e) : ¬ Succeeds C s := by
  rintro ⟨i, hi⟩
  rw [h] at hi; cases hi

theorem num (h : Typed ps s) (hr : RequiredGiven ps s) {n : String} {lo hi : Option ℚ} {df : Lit}
    (hp : numP n true lo hi df ∈ ps) : ∃ x, s.get n = .num x := by
  rcases h _ hp with hv | hx
  · exact absurd hv (hr _ hp rfl)
  · exact hx

theorem opt (h : Typed ps s) {n : String} {r : Bool} {lo hi : Option ℚ} {df : Lit}
    (hp : numP n r lo hi df ∈ ps) : ∃ o : Option ℝ, s.get n = Val.ofOpt o := by
  rcases h _ hp with hv | ⟨x, hx⟩
  · exact ⟨none, hv⟩
  · exact ⟨some x, hx⟩

theorem catOpt (h : Typed ps s) {n : String} {r : Bool} {opts : List String} {df : Lit}
    (hp : catP n r opts df ∈ ps) : s.get n = .none ∨ ∃ t, s.get n = .str t := by
  rcases h _ hp with hv | ⟨t, u, -, hx⟩ | ⟨a, b, ha, -⟩
  · exact .inl hv
  · exact .inr ⟨u, hx⟩
  · obtain ⟨t, -, ht⟩ := List.mem_map.1 ha; cases ht

theorem cat (h : Typed ps s) (hr : RequiredGiven ps s) {n : String} {opts : List String} {df : Lit}
    (hp : catP n true opts df ∈ ps) : ∃ t, s.get n = .str t :=
  (catOpt h hp).resolve_left (hr _ hp rfl)

theorem given_iff {o : Option ℝ} {k : String} (h : s.get k = Val.ofOpt o) : IsGiven s k ↔ ∃ x, o = some x := by
  unfold IsGiven
  rw [h]
  cases o <;> simp [Val.ofOpt]

end Success

open Success

/-! ### Classes that only need their required parameters -/

/-- Idriss (2014) -/
theorem C121_i14 (s : Scenario) (t : Typed Decls.i14 s) : Succeeds I14.cls s ↔ RequiredGiven Decls.i14 s := by
  refine ⟨required (C := I14.cls) (by change ParamsOk Decls.i14; decide +kernel), fun r => ?_⟩
  obtain ⟨R, hR⟩ := num t r (n := "dist_rup") (by mem_tac)
  obtain ⟨m, hm⟩ := num t r (n := "mag") (by mem_tac)
  obtain ⟨v, hv⟩ := num t r (n := "v_s30") (by mem_tac)
  obtain ⟨u, hu⟩ := cat t r (n := "mechanism") (by mem_tac)
  exact of_gives (I14.gives s hm hR hv hu)

/-- Campbell (2003) -/
theorem C121_c03 (s : Scenario) (t : Typed Decls.c03 s) : Succeeds C03.cls s ↔ RequiredGiven Decls.c03 s := by
  refine ⟨required (C := C03.cls) (by change ParamsOk Decls.c03; decide +kernel), fun r => ?_⟩
  obtain ⟨R, hR⟩ := num t r (n := "dist_rup") (by mem_tac)
  obtain ⟨m, hm⟩ := num t r (n := "mag") (by mem_tac)
  exact of_gives (C03.gives s hm hR)

/-- Tavakoli & Pezeshk (2005) -/
theorem C121_tp05 (s : Scenario) (t : Typed Decls.tp05 s) : Succeeds TP05.cls s ↔ RequiredGiven Decls.tp05 s := by
  refine ⟨required (C := TP05.cls) (by change ParamsOk Decls.tp05; decide +kernel), fun r => ?_⟩
  obtain ⟨R, hR⟩ := num t r (n := "dist_rup") (by mem_tac)
  obtain ⟨m, hm⟩ := num t r (n := "mag") (by mem_tac)
  exact of_gives (TP05.gives s hm hR)

/-- Pezeshk, Zandieh & Tavakoli (2011) -/
theorem C121_pea11 (s : Scenario) (t : Typed Decls.pea11 s) : Succeeds Pea11.cls s ↔ RequiredGiven Decls.pea11 s := by
  refine ⟨required (C := Pea11.cls) (by change ParamsOk Decls.pea11; decide +kernel), fun r => ?_⟩
  obtain ⟨R, hR⟩ := num t r (n := "dist_rup") (by mem_tac)
  obtain ⟨m, hm⟩ := num t r (n := "mag") (by mem_tac)
  exact of_gives (Pea11.gives s hm hR)

/-- Atkinson & Boore (2006) -/
theorem C121_ab06 (s : Scenario) (t : Typed Decls.ab06 s) : Succeeds AB06.cls s ↔ RequiredGiven Decls.ab06 s := by
  refine ⟨required (C := AB06.cls) (by change ParamsOk Decls.ab06; decide +kernel), fun r => ?_⟩
  obtain ⟨R, hR⟩ := num t r (n := "dist_rup") (by mem_tac)
  obtain ⟨m, hm⟩ := num t r (n := "mag") (by mem_tac)
  obtain ⟨v, hv⟩ := num t r (n := "v_s30") (by mem_tac)
  exact of_gives (AB06.gives s hm hR hv)

/-- Gülerce & Abrahamson (2011) -/
theorem C121_ga11 (s : Scenario) (t : Typed Decls.ga11 s) : Succeeds GA11.cls s ↔ RequiredGiven Decls.ga11 s := by
  refine ⟨required (C := GA11.cls) (by change ParamsOk Decls.ga11; decide +kernel), fun r => ?_⟩
  obtain ⟨R, hR⟩ := num t r (n := "dist_rup") (by mem_tac)
  obtain ⟨m, hm⟩ := num t r (n := "mag") (by mem_tac)
  obtain ⟨v, hv⟩ := num t r (n := "v_s30") (by mem_tac)
  obtain ⟨p, hp⟩ := num t r (n := "pga_ref") (by mem_tac)
  obtain ⟨u, hu⟩ := cat t r (n := "mechanism") (by mem_tac)
  exact of_gives (GA11.gives s hm hR hv hp hu)

/-- Boore, Stewart, Seyhan & Atkinson (2014) -/
theorem C121_bssa14 (s : Scenario) (t : Typed Decls.bssa14 s) : Succeeds BSSA14.cls s ↔ RequiredGiven Decls.bssa14 s := by
  refine ⟨required (C := BSSA14.cls) (by change ParamsOk Decls.bssa14; decide +kernel), fun r => ?_⟩
  obtain ⟨R, hR⟩ := num t r (n := "dist_jb") (by mem_tac)
  obtain ⟨m, hm⟩ := num t r (n := "mag") (by mem_tac)
  obtain ⟨v, hv⟩ := num t r (n := "v_s30") (by mem_tac)
  obtain ⟨z, hz⟩ := opt t (n := "depth_1_0") (r := false) (by mem_tac)
  exact of_gives (BSSA14.gives (g := { mag := m, jb := R, v := v, z1 := z }) ⟨hm, hR, hv, hz⟩)

/-- Chiou & Youngs (2014) -/
theorem C121_cy14 (s : Scenario) (t : Typed Decls.cy14 s) : Succeeds CY14.cls s ↔ RequiredGiven Decls.cy14 s := by
  refine ⟨required (C := CY14.cls) (by change ParamsOk Decls.cy14; decide +kernel), fun r => ?_⟩
  obtain ⟨R, hR⟩ := num t r (n := "dist_rup") (by mem_tac)
  obtain ⟨jb, hjb⟩ := num t r (n := "dist_jb") (by mem_tac)
  obtain ⟨x, hx⟩ := num t r (n := "dist_x") (by mem_tac)
  obtain ⟨m, hm⟩ := num t r (n := "mag") (by mem_tac)
  obtain ⟨v, hv⟩ := num t r (n := "v_s30") (by mem_tac)
  obtain ⟨dip, hdip⟩ := num t r (n := "dip") (by mem_tac)
  obtain ⟨z, hz⟩ := opt t (n := "depth_1_0") (r := false) (by mem_tac)
  obtain ⟨tor, htor⟩ := opt t (n := "depth_tor") (r := false) (by mem_tac)
  obtain ⟨dpp, hdpp⟩ := opt t (n := "dpp_centered") (r := false) (by mem_tac)
  exact of_gives (CY14.gives (g := ⟨m, R, jb, x, dip, v, tor, z, dpp⟩) ⟨hm, hR, hjb, hx, hdip, hv, htor, hz, hdpp⟩)

/-- Bayless & Abrahamson (2019) -/
theorem C121_ba19 (s : Scenario) (t : Typed Decls.ba19 s) : Succeeds BA19.cls s ↔ RequiredGiven Decls.ba19 s := by
  refine ⟨required (C := BA19.cls) (by change ParamsOk Decls.ba19; decide +kernel), fun r => ?_⟩
  obtain ⟨R, hR⟩ := num t r (n := "dist_rup") (by mem_tac)
  obtain ⟨m, hm⟩ := num t r (n := "mag") (by mem_tac)
  obtain ⟨v, hv⟩ := num t r (n := "v_s30") (by mem_tac)
  obtain ⟨tor, htor⟩ := num t r (n := "depth_tor") (by mem_tac)
  obtain ⟨z, hz⟩ := opt t (n := "depth_1_0") (r := false) (by mem_tac)
  exact of_gives (BA19.gives (g := { mag := m, rup := R, v := v, tor := tor, z1 := z }) ⟨hR, hm, hv, htor, hz⟩)

/-- Abrahamson & Silva (1996) -/
theorem C121_as96 (s : Scenario) (t : Typed Decls.as96 s) : Succeeds AS96.cls s ↔ RequiredGiven Decls.as96 s := by
  refine ⟨required (C := AS96.cls) (by change ParamsOk Decls.as96; decide +kernel), fun r => ?_⟩
  obtain ⟨R, hR⟩ := num t r (n := "dist_rup") (by mem_tac)
  obtain ⟨m, hm⟩ := num t r (n := "mag") (by mem_tac)
  obtain ⟨u, hu⟩ := cat t r (n := "site_cond") (by mem_tac)
  exact of_gives (AS96.gives s hm hR hu)

/-- Kempton & Stewart (2006) -/
theorem C121_ks06 (s : Scenario) (t : Typed Decls.ks06 s) : Succeeds KS06.cls s ↔ RequiredGiven Decls.ks06 s := by
  refine ⟨required (C := KS06.cls) (by change ParamsOk Decls.ks06; decide +kernel), fun r => ?_⟩
  obtain ⟨R, hR⟩ := num t r (n := "dist_rup") (by mem_tac)
  obtain ⟨m, hm⟩ := num t r (n := "mag") (by mem_tac)
  obtain ⟨v, hv⟩ := num t r (n := "v_s30") (by mem_tac)
  exact of_gives (KS06.gives s hm hR hv)

/-- Afshari & Stewart (2016) -/
theorem C121_as16 (s : Scenario) (t : Typed Decls.as16 s) : Succeeds AS16.cls s ↔ RequiredGiven Decls.as16 s := by
  refine ⟨required (C := AS16.cls) (by change ParamsOk Decls.as16; decide +kernel), fun r => ?_⟩
  obtain ⟨R, hR⟩ := num t r (n := "dist_rup") (by mem_tac)
  obtain ⟨m, hm⟩ := num t r (n := "mag") (by mem_tac)
  obtain ⟨v, hv⟩ := num t r (n := "v_s30") (by mem_tac)
  obtain ⟨z, hz⟩ := opt t (n := "depth_1_0") (r := false) (by mem_tac)
  obtain ⟨u, hu⟩ := cat t r (n := "mechanism") (by mem_tac)
  exact of_gives (AS16.gives s hm hR hv hz hu)

/-- Pinilla-Ramos et al. (2023) -/
theorem C121_pr23 (s : Scenario) (t : Typed Decls.pr23 s) : Succeeds PR23.cls s ↔ RequiredGiven Decls.pr23 s := by
  refine ⟨required (C := PR23.cls) (by change ParamsOk Decls.pr23; decide +kernel), fun r => ?_⟩
  obtain ⟨R, hR⟩ := num t r (n := "dist_rup") (by mem_tac)
  obtain ⟨m, hm⟩ := num t r (n := "mag") (by mem_tac)
  obtain ⟨v, hv⟩ := num t r (n := "v_s30") (by mem_tac)
  obtain ⟨i, hi, -⟩ := PR23.built s hm hR hv
  exact ⟨i, hi⟩

/-! ### Classes with a further condition -/

/-- Akkar, Sandıkkaya & Bommer (2014): one of the three distances -/
theorem C121_akb14 (s : Scenario) (t : Typed Decls.akb14 s) : Succeeds AKB14.cls s ↔
    RequiredGiven Decls.akb14 s ∧ (IsGiven s "dist_jb" ∨ IsGiven s "dist_hyp" ∨ IsGiven s "dist_epi") := by
  obtain ⟨a, ha⟩ := opt t (n := "dist_jb") (r := false) (by mem_tac)
  obtain ⟨b, hb⟩ := opt t (n := "dist_hyp") (r := false) (by mem_tac)
  obtain ⟨c, hc⟩ := opt t (n := "dist_epi") (r := false) (by mem_tac)
  have main : RequiredGiven Decls.akb14 s → (Succeeds AKB14.cls s ↔
      (IsGiven s "dist_jb" ∨ IsGiven s "dist_hyp" ∨ IsGiven s "dist_epi")) := by
    intro r
    obtain ⟨m, hm⟩ := num t r (n := "mag") (by mem_tac)
    obtain ⟨v, hv⟩ := num t r (n := "v_s30") (by mem_tac)
    obtain ⟨u, hu⟩ := cat t r (n := "mechanism") (by mem_tac)
    rw [given_iff ha, given_iff hb, given_iff hc]
    cases hp : AKB14.spec a b c with
    | some p =>
      refine iff_of_true (of_gives (AKB14.gives s hm hv hu ha hb hc hp)) ?_
      cases a <;> cases b <;> cases c <;> simp [AKB14.spec] at hp ⊢
    | none =>
      obtain ⟨rfl, rfl, rfl⟩ : a = none ∧ b = none ∧ c = none := by
        cases a <;> cases b <;> cases c <;> simp [AKB14.spec] at hp ⊢
      refine iff_of_false (of_error (C23_no_distance s m v u hm hv hu ha hb hc)) (by simp)
  constructor
  · intro h
    have r := required (C := AKB14.cls) (by change ParamsOk Decls.akb14; decide +kernel) h
    exact ⟨r, (main r).1 h⟩
  · rintro ⟨r, h⟩
    exact (main r).2 h

/-- Derras, Bard & Cotton (2014): one of the three mechanisms -/
theorem C121_dbc14 (s : Scenario) (t : Typed Decls.dbc14 s) : Succeeds DBC14.cls s ↔
    RequiredGiven Decls.dbc14 s ∧ ∃ u ∈ ["SS", "NS", "RS"], s.get "mechanism" = .str u := by
  have main : RequiredGiven Decls.dbc14 s → (Succeeds DBC14.cls s ↔
      ∃ u ∈ ["SS", "NS", "RS"], s.get "mechanism" = .str u) := by
    intro r
    obtain ⟨R, hR⟩ := num t r (n := "dist_jb") (by mem_tac)
    obtain ⟨m, hm⟩ := num t r (n := "mag") (by mem_tac)
    obtain ⟨v, hv⟩ := num t r (n := "v_s30") (by mem_tac)
    obtain ⟨z, hz⟩ := num t r (n := "depth_hyp") (by mem_tac)
    obtain ⟨u, hu⟩ := cat t r (n := "mechanism") (by mem_tac)
    by_cases hin : u ∈ ["SS", "NS", "RS"]
    · exact iff_of_true (of_gives (DBC14.gives' s hm hR hv hz hu hin)) ⟨u, hin, hu⟩
    · refine iff_of_false (of_error (C57_unknown_mechanism s m R v z u hm hR hv hz hu hin)) ?_
      rintro ⟨u', hin', hu'⟩
      rw [hu] at hu'; cases hu'; exact hin hin'
  constructor
  · intro h
    have r := required (C := DBC14.cls) (by change ParamsOk Decls.dbc14; decide +kernel) h
    exact ⟨r, (main r).1 h⟩
  · rintro ⟨r, h⟩
    exact (main r).2 h

/-- Abrahamson, Silva & Kamai (2014): on the hanging wall also `dist_x` -/
theorem C121_ask14 (s : Scenario) (t : Typed Decls.ask14 s) : Succeeds ASK14.cls s ↔
    RequiredGiven Decls.ask14 s ∧ (s.get "on_hanging_wall" = .bool true → IsGiven s "dist_x") := by
  obtain ⟨x, hx⟩ := opt t (n := "dist_x") (r := false) (by mem_tac)
  obtain ⟨y0, hy0⟩ := opt t (n := "dist_y0") (r := false) (by mem_tac)
  obtain ⟨w, hw⟩ := opt t (n := "width") (r := false) (by mem_tac)
  obtain ⟨tor, htor⟩ := opt t (n := "depth_tor") (r := false) (by mem_tac)
  obtain ⟨z, hz⟩ := opt t (n := "depth_1_0") (r := false) (by mem_tac)
  obtain ⟨cr, hcr⟩ := opt t (n := "dist_crjb") (r := false) (by mem_tac)
  have main : RequiredGiven Decls.ask14 s → (Succeeds ASK14.cls s ↔
      (s.get "on_hanging_wall" = .bool true → IsGiven s "dist_x")) := by
    intro r
    obtain ⟨R, hR⟩ := num t r (n := "dist_rup") (by mem_tac)
    obtain ⟨jb, hjb⟩ := num t r (n := "dist_jb") (by mem_tac)
    obtain ⟨m, hm⟩ := num t r (n := "mag") (by mem_tac)
    obtain ⟨v, hv⟩ := num t r (n := "v_s30") (by mem_tac)
    obtain ⟨dip, hdip⟩ := num t r (n := "dip") (by mem_tac)
    obtain ⟨u, hu⟩ := cat t r (n := "mechanism") (by mem_tac)
    have src : ASK14.Source s
        { mag := m, rup := R, jb := jb, dip := dip, v := v, x := x, y0 := y0, width := w, tor := tor, z1 := z, crjb := cr } := ⟨hm, hR, hjb, hdip, hv, hx, hy0, hw, htor, hz, hcr, by rw [hu]; simp⟩
    have hon : (s.get "on_hanging_wall").isOn ↔ s.get "on_hanging_wall" = .bool true := by
      rcases t (boolP "on_hanging_wall" false (.bool false)) (by simp [Decls.ask14]) with e | ⟨a, b, ha, -⟩ | ⟨a, b, -, e⟩
      · rw [show s.get "on_hanging_wall" = .none from e]; simp [Val.isOn, Val.pyEq]
      · simp [boolP] at ha
      · rw [show s.get "on_hanging_wall" = .bool b from e]; simp [Val.isOn, Val.pyEq]
    rw [given_iff hx]
    by_cases hh : s.get "on_hanging_wall" = .bool true
    · cases x with
      | none => exact iff_of_false (of_error (C66_hanging_wall_needs_dist_x s _ src (hon.2 hh) rfl)) (by simp [hh])
      | some x => exact iff_of_true (of_gives (ASK14.gives src (by simp))) (by simp)
    · refine iff_of_true (of_gives (ASK14.gives src ?_)) (by simp [hh])
      intro e
      exact absurd (hon.1 (by simpa [ASK14.kindOf] using e)) hh
  constructor
  · intro h
    have r := required (C := ASK14.cls) (by change ParamsOk Decls.ask14; decide +kernel) h
    exact ⟨r, (main r).1 h⟩
  · rintro ⟨r, h⟩
    exact (main r).2 h

/-- Campbell & Bozorgnia (2014), with a velocity other than 0 -/
theorem C121_cb14 (s : Scenario) (t : Typed Decls.cb14 s) (hv0 : s.get "v_s30" ≠ .num 0) :
    Succeeds CB14.cls s ↔ RequiredGiven Decls.cb14 s := by
  refine ⟨required (C := CB14.cls) (by change ParamsOk Decls.cb14; decide +kernel), fun r => ?_⟩
  obtain ⟨R, hR⟩ := num t r (n := "dist_rup") (by mem_tac)
  obtain ⟨jb, hjb⟩ := num t r (n := "dist_jb") (by mem_tac)
  obtain ⟨x, hx⟩ := num t r (n := "dist_x") (by mem_tac)
  obtain ⟨m, hm⟩ := num t r (n := "mag") (by mem_tac)
  obtain ⟨v, hv⟩ := num t r (n := "v_s30") (by mem_tac)
  obtain ⟨dip, hdip⟩ := num t r (n := "dip") (by mem_tac)
  obtain ⟨u, hu⟩ := cat t r (n := "mechanism") (by mem_tac)
  obtain ⟨bot, hbot⟩ := opt t (n := "depth_bot") (r := false) (by mem_tac)
  obtain ⟨z1, hz1⟩ := opt t (n := "depth_1_0") (r := false) (by mem_tac)
  obtain ⟨z25, hz25⟩ := opt t (n := "depth_2_5") (r := false) (by mem_tac)
  obtain ⟨bor, hbor⟩ := opt t (n := "depth_bor") (r := false) (by mem_tac)
  obtain ⟨hyp, hhyp⟩ := opt t (n := "depth_hyp") (r := false) (by mem_tac)
  obtain ⟨tor, htor⟩ := opt t (n := "depth_tor") (r := false) (by mem_tac)
  obtain ⟨w, hw⟩ := opt t (n := "width") (r := false) (by mem_tac)
  have e0 : v ≠ 0 := by rintro rfl; exact hv0 hv
  exact of_gives (CB14.gives (g := ⟨m, R, jb, x, dip, v, bot, z1, z25, bor, hyp, tor, w⟩)
    ⟨hm, hR, hjb, hx, hdip, hv, hbot, hz1, hz25, hbor, hhyp, htor, hw, by rw [hu]; simp⟩ e0)

/-- Pinilla-Ramos et al. (2024): a known event type and region, and not an interface event in Taiwan -/
theorem C121_pr24 (s : Scenario) (t : Typed Decls.pr24 s) : Succeeds PR24.cls s ↔
    RequiredGiven Decls.pr24 s ∧ ∃ k ∈ ["interface", "slab"], ∃ g ∈ ["Japan", "New Zealand", "South America", "Taiwan"],
      s.get "event_type" = .str k ∧ s.get "region" = .str g ∧ ¬ (k = "interface" ∧ g = "Taiwan") := by
  have main : RequiredGiven Decls.pr24 s → (Succeeds PR24.cls s ↔
      ∃ k ∈ ["interface", "slab"], ∃ g ∈ ["Japan", "New Zealand", "South America", "Taiwan"],
      s.get "event_type" = .str k ∧ s.get "region" = .str g ∧ ¬ (k = "interface" ∧ g = "Taiwan")) := by
    intro r
    obtain ⟨R, hR⟩ := num t r (n := "dist_rup") (by mem_tac)
    obtain ⟨m, hm⟩ := num t r (n := "mag") (by mem_tac)
    obtain ⟨v, hv⟩ := num t r (n := "v_s30") (by mem_tac)
    obtain ⟨c1, c2⟩ := C25_construction s m R v ⟨hm, hR, hv⟩
    have e : (∃ k g, s.get "event_type" = .str (PR24.Kind.name k) ∧ s.get "region" = .str (PR24.Region.name g) ∧
        PR24.Supported k g) ↔ ∃ k ∈ ["interface", "slab"], ∃ g ∈ ["Japan", "New Zealand", "South America", "Taiwan"],
        s.get "event_type" = .str k ∧ s.get "region" = .str g ∧ ¬ (k = "interface" ∧ g = "Taiwan") := by
      constructor
      · rintro ⟨k, g, h1, h2, h3⟩
        refine ⟨k.name, ?_, g.name, ?_, h1, h2, ?_⟩
        · cases k <;> simp [PR24.Kind.name]
        · cases g <;> simp [PR24.Region.name]
        · cases k <;> cases g <;> simp [PR24.Kind.name, PR24.Region.name, PR24.Supported] at h3 ⊢
      · rintro ⟨k, hk, g, hg, h1, h2, h3⟩
        simp only [List.mem_cons, List.not_mem_nil, or_false] at hk hg
        rcases hk with rfl | rfl
        · rcases hg with rfl | rfl | rfl | rfl
          · exact ⟨.interface, .japan, h1, h2, by simp [PR24.Supported]⟩
          · exact ⟨.interface, .newZealand, h1, h2, by simp [PR24.Supported]⟩
          · exact ⟨.interface, .southAmerica, h1, h2, by simp [PR24.Supported]⟩
          · exact absurd ⟨rfl, rfl⟩ h3
        · rcases hg with rfl | rfl | rfl | rfl
          · exact ⟨.slab, .japan, h1, h2, by simp [PR24.Supported]⟩
          · exact ⟨.slab, .newZealand, h1, h2, by simp [PR24.Supported]⟩
          · exact ⟨.slab, .southAmerica, h1, h2, by simp [PR24.Supported]⟩
          · exact ⟨.slab, .taiwan, h1, h2, by simp [PR24.Supported]⟩
    rw [← e]
    by_cases h : ∃ k g, s.get "event_type" = .str (PR24.Kind.name k) ∧ s.get "region" = .str (PR24.Region.name g) ∧
        PR24.Supported k g
    · exact iff_of_true (c1 h) h
    · obtain ⟨u, hu⟩ := c2 h
      exact iff_of_false (of_error hu) h
  constructor
  · intro h
    have r := required (C := PR24.cls) (by change ParamsOk Decls.pr24; decide +kernel) h
    exact ⟨r, (main r).1 h⟩
  · rintro ⟨r, h⟩
    exact (main r).2 h

/-- Coppersmith & Bommer (2014): the distance, which is declared optional -/
theorem C121_coppersmith (sc : ℝ) (s : Scenario) (t : Typed Decls.coppersmith s) : Succeeds (CoppersmithBommer.cls sc) s ↔
    RequiredGiven Decls.coppersmith s ∧ IsGiven s "dist_rup" := by
  have hC : ParamsOk (CoppersmithBommer.cls sc).params := by change ParamsOk Decls.coppersmith; decide +kernel
  obtain ⟨a, ha⟩ := opt t (n := "dist_rup") (r := false) (by mem_tac)
  have main : RequiredGiven Decls.coppersmith s → (Succeeds (CoppersmithBommer.cls sc) s ↔ IsGiven s "dist_rup") := by
    intro r
    obtain ⟨m, hm⟩ := num t r (n := "mag") (by mem_tac)
    obtain ⟨v, hv⟩ := num t r (n := "v_s30") (by mem_tac)
    obtain ⟨u, hu⟩ := cat t r (n := "event_type") (by mem_tac)
    rw [given_iff ha]
    cases a with
    | some d => exact iff_of_true (of_gives (CoppersmithBommer.gives s hm ha hv hu sc)) ⟨d, rfl⟩
    | none =>
      refine iff_of_false (of_error (e := .typeError) (fails_of hC rfl _ _ ?_ ?_)) (by simp)
      · simp only [CoppersmithBommer.cls, Decls.coppersmith, List.forall_mem_cons]
        exact ⟨pass_num hm, pass_opt (o := none) ha, pass_num hv, pass_cat hu, fun _ h => by simp at h⟩
      · intro dd hdd
        have hn : (Decls.coppersmith.map Param.name).Nodup := by decide +kernel
        have h1 := Checked.num hdd hn (name := "mag") (by mem_tac) hm
        have h2 := Checked.opt hdd hn (name := "dist_rup") (by mem_tac) (o := none) ha
        have h3 := Checked.cat_val hdd hn (name := "event_type") (by mem_tac)
        have h4 : ∀ ev, AGA16.adjust (CoppersmithBommer.table.map (·.period)) ev .default = pure (CoppersmithBommer.adj ev) :=
          fun ev => rfl
        simp only [CoppersmithBommer.cls, Scenario.getAttr_of h3, Py.pure_bind', h4, Scenario.num_of h1,
          Scenario.num_of_none h2, Py.raise_bind, Py.raise_res]
  constructor
  · intro h
    have r := required hC h
    exact ⟨r, (main r).1 h⟩
  · rintro ⟨r, h⟩
    exact (main r).2 h

/-- Abrahamson, Gregor & Addo (2016): the distance (and depth) the event type asks for, a known event type in the
backarc, and an adjustment that is a number or has one entry per period -/
theorem C121_aga16 (a : AGA16.Adjust) (c4 sc : ℝ) (s : Scenario) (t : Typed Decls.aga16 s)
    (hl : ∀ l, a = .array l → l.length = 23) : Succeeds (AGA16.cls a c4 sc) s ↔
    RequiredGiven Decls.aga16 s ∧
      (s.get "event_type" = .str "intraslab" → IsGiven s "dist_hyp" ∧ IsGiven s "depth_hyp") ∧
      (s.get "event_type" ≠ .str "intraslab" → IsGiven s "dist_rup") ∧
      (s.get "tectonic_region" = .str "backarc" →
        s.get "event_type" = .str "intraslab" ∨ s.get "event_type" = .str "interface") := by
  have hC : ParamsOk (AGA16.cls a c4 sc).params := by change ParamsOk Decls.aga16; decide +kernel
  have hlen : (AGA16.table.map (·.period)).length = 23 := by decide +kernel
  obtain ⟨rup, hrup⟩ := opt t (n := "dist_rup") (r := false) (by mem_tac)
  obtain ⟨hyp, hhyp⟩ := opt t (n := "dist_hyp") (r := false) (by mem_tac)
  obtain ⟨z, hz⟩ := opt t (n := "depth_hyp") (r := false) (by mem_tac)
  have hadj : ∀ ev, ∃ adj, AGA16.adjust (AGA16.table.map (·.period)) ev a = pure adj := by
    intro ev
    cases a with
    | default => exact ⟨_, rfl⟩
    | scalar x => exact ⟨_, rfl⟩
    | array l => exact ⟨_, by rw [AGA16.adjust, if_pos (by rw [hlen]; exact hl l rfl)]⟩
  have main : RequiredGiven Decls.aga16 s → (Succeeds (AGA16.cls a c4 sc) s ↔
      (s.get "event_type" = .str "intraslab" → IsGiven s "dist_hyp" ∧ IsGiven s "depth_hyp") ∧
      (s.get "event_type" ≠ .str "intraslab" → IsGiven s "dist_rup") ∧
      (s.get "tectonic_region" = .str "backarc" →
        s.get "event_type" = .str "intraslab" ∨ s.get "event_type" = .str "interface")) := by
    intro r
    obtain ⟨m, hm⟩ := num t r (n := "mag") (by mem_tac)
    obtain ⟨v, hv⟩ := num t r (n := "v_s30") (by mem_tac)
    obtain ⟨u, hu⟩ := cat t r (n := "event_type") (by mem_tac)
    obtain ⟨g, hg⟩ : ∃ g : Option String, s.get "tectonic_region" = (match g with | none => .none | some t => .str t) := by
      rcases catOpt t (n := "tectonic_region") (r := false) (by mem_tac) with e | ⟨w, e⟩
      · exact ⟨none, e⟩
      · exact ⟨some w, e⟩
    have hgb : s.get "tectonic_region" = .str "backarc" ↔ g = some "backarc" := by
      rw [hg]; cases g <;> simp
    have src : AGA16.Source s m v u g rup hyp z := ⟨hm, hv, hu, hg, hrup, hhyp, hz⟩
    obtain ⟨adj, ha⟩ := hadj (AGA16.evFor u)
    obtain ⟨hp, hc⟩ := AGA16.checked src
    rw [given_iff hrup, given_iff hhyp, given_iff hz, hgb, hu]
    simp only [Val.str.injEq]
    by_cases hu1 : u = "intraslab"
    · subst hu1
      have ev : AGA16.evFor "intraslab" = .intraslab := by decide
      simp only [true_imp_iff, ne_eq, not_true_eq_false, false_imp_iff, true_or, implies_true, and_true, true_and]
      cases hyp with
      | none =>
        refine iff_of_false (of_error (e := .typeError) (fails_of hC rfl _ _ hp ?_)) (by simp)
        intro dd hdd
        obtain ⟨h1, h2, ⟨w, h3, hw⟩, ⟨w', h4, hw'⟩, h5, h6, h7⟩ := hc dd hdd
        rw [ev] at hw ha
        have hb : (⟨dd, []⟩ : Scenario).num "dist_hyp" = Py.raise .typeError := Scenario.num_of_none h6
        simp only [if_true, AGA16.cls, Scenario.getAttr_of h3, Py.pure_bind', hw, ha, hb, Py.raise_bind, Py.raise_res]
      | some d =>
        cases z with
        | some z0 =>
          exact iff_of_true (of_gives (AGA16.gives (z0 := z0) src (by rw [ev]; rfl) (by simp) (by rw [ev]; simp) c4 sc ha))
            (by simp)
        | none =>
          refine iff_of_false (of_error (e := .typeError) (fails_of hC rfl _ _ hp ?_)) (by simp)
          intro dd hdd
          obtain ⟨h1, h2, ⟨w, h3, hw⟩, ⟨w', h4, hw'⟩, h5, h6, h7⟩ := hc dd hdd
          rw [ev] at hw ha
          have hb : (⟨dd, []⟩ : Scenario).num "dist_hyp" = pure (F.ofReal d) := Scenario.num_of h6
          have hbk : ∃ b, AGA16.backarcOf .intraslab w' = pure b := by
            unfold AGA16.backarcOf; split <;> exact ⟨_, rfl⟩
          obtain ⟨b, hbk⟩ := hbk
          have hdp : AGA16.depthOf (⟨dd, []⟩ : Scenario) .intraslab = Py.raise .typeError := Scenario.num_of_none h7
          simp only [if_true, AGA16.cls, Scenario.getAttr_of h3, Scenario.getAttr_of h4, Py.pure_bind', hw, ha, hb,
            Scenario.num_of h1, hbk, hdp, Py.raise_bind, Py.raise_res]
    · have ev : AGA16.evFor u ≠ .intraslab := by
        unfold AGA16.evFor; rw [if_neg hu1]; split <;> simp
      simp only [hu1, false_imp_iff, ne_eq, not_false_eq_true, true_imp_iff, true_and, false_or]
      cases rup with
      | none =>
        refine iff_of_false (of_error (e := .typeError) (fails_of hC rfl _ _ hp ?_)) (by simp [hu1])
        intro dd hdd
        obtain ⟨h1, h2, ⟨w, h3, hw⟩, ⟨w', h4, hw'⟩, h5, h6, h7⟩ := hc dd hdd
        have hb : (⟨dd, []⟩ : Scenario).num (if AGA16.evFor u = .intraslab then "dist_hyp" else "dist_rup") =
          Py.raise .typeError := by rw [if_neg ev]; exact Scenario.num_of_none h5
        simp only [AGA16.cls, Scenario.getAttr_of h3, Py.pure_bind', hw, ha, hb, Py.raise_bind, Py.raise_res]
      | some d =>
        by_cases hb : g = some "backarc"
        · subst hb
          by_cases hu2 : u = "interface"
          · refine iff_of_true (of_gives (AGA16.gives (z0 := 0) src (by rw [if_neg ev]) (fun h => absurd h ev) ?_ c4 sc ha))
              (by simp [hu2])
            intro _; rw [hu2]; decide
          · obtain ⟨adj', ha'⟩ := hadj .interface
            exact iff_of_false (of_error (C24_unknown_backarc s m v d u hyp z a c4 sc adj' ha' hu1 hu2 src))
              (by simp [hu1, hu2])
        · exact iff_of_true (of_gives (AGA16.gives (z0 := 0) src (by rw [if_neg ev]) (fun h => absurd h ev)
            (fun h => absurd h hb) c4 sc ha)) (by simp [hb])
  constructor
  · intro h
    have r := required hC h
    exact ⟨r, (main r).1 h⟩
  · rintro ⟨r, h⟩
    exact (main r).2 h

/-! ### Concrete cases -/

/-- a complete typed scenario outside the limits, which still succeeds -/
example : Succeeds C03.cls ⟨[("mag", .num 9), ("dist_rup", .num (-3))], []⟩ := by
  rw [C121_c03]
  · intro p hp hr
    simp only [Decls.c03, List.mem_cons, List.not_mem_nil, or_false] at hp
    rcases hp with rfl | rfl <;> simp [numP, Scenario.get, Dict.get?]
  · intro p hp
    simp only [Decls.c03, List.mem_cons, List.not_mem_nil, or_false] at hp
    rcases hp with rfl | rfl <;> simp [TypedAs, numP, Scenario.get, Dict.get?]

/-- all required parameters given, and still no object -/
example : ¬ Succeeds (CoppersmithBommer.cls 1)
    ⟨[("mag", .num 7), ("v_s30", .num 400), ("event_type", .str "interface")], []⟩ := by
  rw [C121_coppersmith]
  · rintro ⟨-, h⟩
    exact h (by simp [Scenario.get, Dict.get?])
  · intro p hp
    simp only [Decls.coppersmith, List.mem_cons, List.not_mem_nil, or_false] at hp
    rcases hp with rfl | rfl | rfl | rfl <;> simp [TypedAs, numP, catP, Scenario.get, Dict.get?]
