import Verif.Props.ASK14
import Verif.Props.BSSA14
import Verif.Props.CB14
import Verif.Props.CY14
import Verif.Props.I14
import Verif.Props.C03
import Verif.Props.TP05
import Verif.Props.Pea11
import Verif.Props.AKB14
import Verif.Props.AGA16
import Verif.Props.AB06
import Verif.Props.BA19
import Verif.Props.DBC14
import Verif.Props.GA11
import Verif.Props.Durations
import Verif.Props.PR23
import Verif.Props.PR24

/-!
# C118: what the declared limits promise

A scenario inside every limit a class declares, with distances and depths that are not negative,
gives a finite number for every ordinate and its standard deviation.  Where that is false the
exception is part of the statement, and shown to be needed.
-/

set_option linter.unusedSimpArgs false

/-! ### Specification -/

namespace Spec

/-- a number between the declared limits, as far as there are any -/
def InRange (lo hi : Option ℚ) (x : ℝ) : Prop :=
  (∀ l, lo = some l → (l : ℝ) ≤ x) ∧ ∀ h, hi = some h → x ≤ (h : ℝ)

/-- the value the caller gives for a declared parameter is what the declaration asks for: a number
between the limits, one of the options, or, for an optional parameter, nothing -/
def Recommended (p : Param) (v : Val) : Prop :=
  (v = .none ∧ p.required = false) ∨
  match p.kind with
  | .numeric lo hi => ∃ x, v = .num x ∧ InRange lo hi x
  | .categorical opts => ∃ o ∈ opts, v = o.toVal ∧ v ≠ .none

/-- every declared parameter has a recommended value -/
def AllRecommended (ps : List Param) (s : Scenario) : Prop := ∀ p ∈ ps, Recommended p (s.get p.name)

/-- no distance and no depth is negative, a dip is an angle of a plane, a width is positive -/
structure Physical (s : Scenario) : Prop where
  dist : ∀ k ∈ ["dist_rup", "dist_jb", "dist_hyp", "dist_epi"], ∀ x, s.get k = .num x → 0 ≤ x
  depth : ∀ k ∈ ["depth_1_0", "depth_2_5", "depth_tor", "depth_hyp", "depth_bor"], ∀ x, s.get k = .num x → 0 ≤ x
  dip : ∀ x, s.get "dip" = .num x → 0 < x ∧ x ≤ 90
  width : ∀ x, s.get "width" = .num x → 0 < x

/-- `n` finite medians and `n` finite standard deviations -/
def Finite (n : ℕ) (o : GmmOut) : Prop :=
  o.lnResp.length = n ∧ (∀ y ∈ o.lnResp, y.ok) ∧
    ∃ sd, o.lnStd = some sd ∧ sd.length = n ∧ ∀ y ∈ sd, y.ok ∧ 0 < y.val

end Spec

open Spec

namespace Limits

variable {ps : List Param} {s : Scenario}

theorem num (h : AllRecommended ps s) {n : String} {lo hi : Option ℚ} {df : Lit}
    (hp : numP n true lo hi df ∈ ps) : ∃ x, s.get n = .num x ∧ InRange lo hi x := by
  rcases h _ hp with ⟨-, hb⟩ | hx
  · exact absurd hb (by simp [numP])
  · exact hx

theorem opt (h : AllRecommended ps s) {n : String} {r : Bool} {lo hi : Option ℚ} {df : Lit}
    (hp : numP n r lo hi df ∈ ps) : ∃ o : Option ℝ, s.get n = Val.ofOpt o ∧ ∀ x, o = some x → InRange lo hi x := by
  rcases h _ hp with ⟨hv, -⟩ | ⟨x, hx, hr⟩
  · exact ⟨none, hv, by simp⟩
  · exact ⟨some x, hx, by rintro _ ⟨⟩; exact hr⟩

theorem cat (h : AllRecommended ps s) {n : String} {opts : List String} {df : Lit}
    (hp : catP n true opts df ∈ ps) : ∃ t ∈ opts, s.get n = .str t := by
  rcases h _ hp with ⟨-, hb⟩ | ⟨o, ho, hx, -⟩
  · exact absurd hb (by simp [catP])
  · obtain ⟨t, ht, rfl⟩ := List.mem_map.1 ho
    exact ⟨t, ht, hx⟩

theorem catOpt (h : AllRecommended ps s) {n : String} {r : Bool} {opts : List String} {df : Lit}
    (hp : catP n r opts df ∈ ps) : s.get n = .none ∨ ∃ t ∈ opts, s.get n = .str t := by
  rcases h _ hp with ⟨hv, -⟩ | ⟨o, ho, hx, -⟩
  · exact .inl hv
  · obtain ⟨t, ht, rfl⟩ := List.mem_map.1 ho
    exact .inr ⟨t, ht, hx⟩

theorem lo {l : ℚ} {hi : Option ℚ} {x : ℝ} (h : InRange (some l) hi x) : (l : ℝ) ≤ x := h.1 _ rfl
theorem hi {lo : Option ℚ} {u : ℚ} {x : ℝ} (h : InRange lo (some u) x) : x ≤ (u : ℝ) := h.2 _ rfl

theorem pos_of_getD {l : List F} {n : ℕ} (hl : l.length = n) (h : ∀ i, i < n → (l.getD i F.nan).ok ∧ 0 < (l.getD i F.nan).val) :
    ∀ y ∈ l, y.ok ∧ 0 < y.val := by
  intro y hy
  obtain ⟨k, hk, rfl⟩ := List.mem_iff_getElem.1 hy
  have := h k (hl ▸ hk)
  rwa [List.getD_eq_getElem?_getD, List.getElem?_eq_getElem hk, Option.getD_some] at this

theorem all_of_getD {l : List F} {n : ℕ} (hl : l.length = n) (h : ∀ i, i < n → (l.getD i F.nan).ok) :
    ∀ y ∈ l, y.ok := by
  intro y hy
  obtain ⟨k, hk, rfl⟩ := List.mem_iff_getElem.1 hy
  have := h k (hl ▸ hk)
  rwa [List.getD_eq_getElem?_getD, List.getElem?_eq_getElem hk, Option.getD_some] at this

theorem given {s : Scenario} {k : String} {o : Option ℝ} (h : s.get k = Val.ofOpt o) {x : ℝ} (e : o = some x) :
    s.get k = .num x := by rw [h, e]; rfl

end Limits

open Limits

/-! ### The ground-motion models -/

/-- Idriss (2014) -/
theorem C118_i14 (s : Scenario) (h : AllRecommended Decls.i14 s) (ph : Physical s) :
    ∃ o, Gives I14.cls s o ∧ Finite 22 o := by
  obtain ⟨R, hR, -⟩ := num h (n := "dist_rup") (by mem_tac)
  obtain ⟨m, hm, -⟩ := num h (n := "mag") (by mem_tac)
  obtain ⟨v, hv, hv'⟩ := num h (n := "v_s30") (by mem_tac)
  obtain ⟨t, -, ht⟩ := cat h (n := "mechanism") (by mem_tac)
  have v0 : 0 < v := by have := lo hv'; norm_num at this; linarith
  have r0 : 0 ≤ R := ph.dist _ (by simp) _ hR
  refine ⟨_, I14.gives s hm hR hv ht, by simp [I14.out, I14.coeff_length], ?_, _, rfl, by simp [I14.small], ?_⟩
  · intro y hy
    obtain ⟨c, -, rfl⟩ := List.mem_map.1 hy
    exact I14.lnResp_ok c _ r0 v0
  · intro y hy
    obtain ⟨c, -, rfl⟩ := List.mem_map.1 hy
    have : (0 : ℝ) < min (max (c.period : ℝ) 0.05) 3 :=
      lt_min (lt_of_lt_of_le (by norm_num) (le_max_right _ _)) (by norm_num)
    refine ⟨by simpa [I14.lnStd, fsimp] using this, ?_⟩
    have t0 : (0.05 : ℝ) ≤ min (max (c.period : ℝ) 0.05) 3 := le_min (le_max_right _ _) (by norm_num)
    have t1 := Real.one_sub_inv_le_log_of_pos this
    have t2 : (min (max (c.period : ℝ) 0.05) 3)⁻¹ ≤ 20 := by
      rw [inv_le_comm₀ this (by norm_num)]; norm_num at t0 ⊢
    have t3 : min (max m 5) (15 / 2) ≤ (15 / 2 : ℝ) := min_le_right _ _
    have t4 : (-19 : ℝ) ≤ Real.log (min (max (c.period : ℝ) 0.05) 3) := by linarith
    simp only [I14.lnStd, fsimp]
    norm_num at t4 ⊢
    linarith

/-- Campbell (2003) -/
theorem C118_c03 (s : Scenario) (h : AllRecommended Decls.c03 s) : ∃ o, Gives C03.cls s o ∧ Finite 16 o := by
  obtain ⟨R, hR, -⟩ := num h (n := "dist_rup") (by mem_tac)
  obtain ⟨m, hm, -⟩ := num h (n := "mag") (by mem_tac)
  obtain ⟨o, sd, g, e, l, p⟩ := C54_std_positive s m R hm hR
  have u := g.unique (C03.gives s hm hR)
  refine ⟨o, g, ?_, ?_, sd, e, l, p⟩
  · rw [u]; simp [C03.out, C03.table]
  · rw [u]; intro y hy
    obtain ⟨c, hc, rfl⟩ := List.mem_map.1 hy
    exact C03.lnResp_ok hc m R

/-- Tavakoli & Pezeshk (2005) -/
theorem C118_tp05 (s : Scenario) (h : AllRecommended Decls.tp05 s) (ph : Physical s) :
    ∃ o, Gives TP05.cls s o ∧ Finite 14 o := by
  obtain ⟨R, hR, -⟩ := num h (n := "dist_rup") (by mem_tac)
  obtain ⟨m, hm, hm'⟩ := num h (n := "mag") (by mem_tac)
  obtain ⟨o, sd, g, e, l, p⟩ := C55_std_positive s m R hm hR
  obtain ⟨o', g', l', p'⟩ := C55_domain s m R hm hR
  cases g.unique g'
  have m8 : m ≤ 8.5 := by have := hi hm'; norm_num at this; norm_num; linarith
  have r0 : 0 ≤ R := ph.dist _ (by simp) _ hR
  exact ⟨o, g, l', fun y hy => (p' y hy).2 ⟨m8, by linarith⟩, sd, e, l, p⟩

/-- Pezeshk, Zandieh & Tavakoli (2011) -/
theorem C118_pea11 (s : Scenario) (h : AllRecommended Decls.pea11 s) : ∃ o, Gives Pea11.cls s o ∧ Finite 23 o := by
  obtain ⟨R, hR, -⟩ := num h (n := "dist_rup") (by mem_tac)
  obtain ⟨m, hm, hm'⟩ := num h (n := "mag") (by mem_tac)
  obtain ⟨o, sd, g, e, l, l', p, p', q⟩ := C56_defined s m R hm hR
  have m40 : m ≤ 40 := by have := hi hm'; norm_num at this; linarith
  refine ⟨o, g, l, p, sd, e, l', fun y hy => ⟨p' y hy, ?_⟩⟩
  have key : ∀ x ∈ Pea11.table.map Pea11.Row.sigma_reg, 0 < x := by decide +kernel
  obtain ⟨k, hk, rfl⟩ := List.mem_iff_getElem.1 hy
  have f := q m40
  have hk' : k < (Pea11.table.map Pea11.Row.sigma_reg).length := by rw [← f.length_eq]; exact hk
  have pos : (0 : ℝ) < ((Pea11.table.map Pea11.Row.sigma_reg)[k] : ℚ) := by exact_mod_cast key _ (List.getElem_mem hk')
  exact pos.trans (List.forall₂_iff_get.1 f |>.2 k hk hk')

/-- Akkar, Sandıkkaya & Bommer (2014): one of the three distances has to be there -/
theorem C118_akb14 (s : Scenario) (h : AllRecommended Decls.akb14 s)
    (hd : s.get "dist_jb" ≠ .none ∨ s.get "dist_hyp" ≠ .none ∨ s.get "dist_epi" ≠ .none) :
    ∃ o, Gives AKB14.cls s o ∧ Finite 64 o := by
  obtain ⟨a, ha, -⟩ := opt h (n := "dist_jb") (r := false) (by mem_tac)
  obtain ⟨b, hb, -⟩ := opt h (n := "dist_hyp") (r := false) (by mem_tac)
  obtain ⟨c, hc, -⟩ := opt h (n := "dist_epi") (r := false) (by mem_tac)
  obtain ⟨m, hm, -⟩ := num h (n := "mag") (by mem_tac)
  obtain ⟨v, hv, hv'⟩ := num h (n := "v_s30") (by mem_tac)
  obtain ⟨t, -, ht⟩ := cat h (n := "mechanism") (by mem_tac)
  have v0 : 0 < v := by have := lo hv'; norm_num at this; linarith
  have some' : a.isSome ∨ b.isSome ∨ c.isSome := by
    rw [ha, hb, hc] at hd
    cases a <;> cases b <;> cases c <;> simp_all [Val.ofOpt]
  obtain ⟨o, sd, g, e, l, l', p, p'⟩ := C61_defined s m v t a b c v0 some' hm hv ht ha hb hc
  exact ⟨o, g, l, p, sd, e, l', p'⟩

/-- Abrahamson, Gregor & Addo (2016), with the default or a uniform adjustment: interface events
need the rupture distance, intraslab events the hypocentral distance and depth -/
theorem C118_aga16 (s : Scenario) (a : AGA16.Adjust) (c4 sc : ℝ) (hadj : ∀ l, a ≠ .array l)
    (h : AllRecommended Decls.aga16 s) (ph : Physical s)
    (hi : s.get "event_type" = .str "interface" → s.get "dist_rup" ≠ .none)
    (hs : s.get "event_type" = .str "intraslab" → s.get "dist_hyp" ≠ .none ∧ s.get "depth_hyp" ≠ .none) :
    ∃ o, Gives (AGA16.cls a c4 sc) s o ∧ Finite 23 o.gmm := by
  obtain ⟨rup, hrup, -⟩ := opt h (n := "dist_rup") (r := false) (by mem_tac)
  obtain ⟨hyp, hhyp, -⟩ := opt h (n := "dist_hyp") (r := false) (by mem_tac)
  obtain ⟨z, hz, -⟩ := opt h (n := "depth_hyp") (r := false) (by mem_tac)
  obtain ⟨m, hm, -⟩ := num h (n := "mag") (by mem_tac)
  obtain ⟨v, hv, hv'⟩ := num h (n := "v_s30") (by mem_tac)
  obtain ⟨e, he, hev⟩ := cat h (n := "event_type") (by mem_tac)
  have hr := catOpt h (n := "tectonic_region") (r := false) (by mem_tac)
  have v0 : 0 < v := by have := lo hv'; norm_num at this; linarith
  obtain ⟨r, hr⟩ : ∃ r : Option String, s.get "tectonic_region" = (match r with | none => .none | some t => .str t) := by
    rcases hr with hr | ⟨t, -, hr⟩
    · exact ⟨none, hr⟩
    · exact ⟨some t, hr⟩
  have src : AGA16.Source s m v e r rup hyp z := ⟨hm, hv, hev, hr, hrup, hhyp, hz⟩
  obtain ⟨adj, ha⟩ : ∃ adj, AGA16.adjust (AGA16.table.map (·.period)) (AGA16.evFor e) a = pure adj := by
    cases a with
    | default => exact ⟨_, rfl⟩
    | scalar x => exact ⟨_, rfl⟩
    | array l => exact absurd rfl (hadj l)
  simp only [List.mem_cons, List.not_mem_nil, or_false] at he
  rcases he with rfl | rfl
  · obtain ⟨d, rfl⟩ : ∃ d, rup = some d := by
      have := hi hev
      rw [hrup] at this
      cases rup with
      | none => exact absurd rfl this
      | some d => exact ⟨d, rfl⟩
    obtain ⟨o, sd, g, e1, l, p, l', p'⟩ := C62_defined s m v d 0 "interface" r (some d) hyp z a c4 sc adj v0
      (ph.dist _ (by simp) _ (given hrup rfl)) src (by simp [AGA16.evFor]) (by simp [AGA16.evFor])
      (by simp [AGA16.evFor]) ha
    exact ⟨o, g, l, p, sd, e1, l', p'⟩
  · obtain ⟨hd1, hd2⟩ := hs hev
    obtain ⟨d, rfl⟩ : ∃ d, hyp = some d := by
      rw [hhyp] at hd1
      cases hyp with
      | none => exact absurd rfl hd1
      | some d => exact ⟨d, rfl⟩
    obtain ⟨z0, rfl⟩ : ∃ z0, z = some z0 := by
      rw [hz] at hd2
      cases z with
      | none => exact absurd rfl hd2
      | some d => exact ⟨d, rfl⟩
    obtain ⟨o, sd, g, e1, l, p, l', p'⟩ := C62_defined s m v d z0 "intraslab" r rup (some d) (some z0) a c4 sc adj v0
      (ph.dist _ (by simp) _ (given hhyp rfl)) src (by simp [AGA16.evFor]) (by simp [AGA16.evFor])
      (by simp [AGA16.evFor]) ha
    exact ⟨o, g, l, p, sd, e1, l', p'⟩

/-- Coppersmith & Bommer (2014): the rupture distance has to be there -/
theorem C118_coppersmith (s : Scenario) (sc : ℝ) (h : AllRecommended Decls.coppersmith s) (ph : Physical s)
    (hd : s.get "dist_rup" ≠ .none) : ∃ o, Gives (CoppersmithBommer.cls sc) s o ∧ Finite 14 o := by
  obtain ⟨rup, hrup, -⟩ := opt h (n := "dist_rup") (r := false) (by mem_tac)
  obtain ⟨m, hm, -⟩ := num h (n := "mag") (by mem_tac)
  obtain ⟨v, hv, hv'⟩ := num h (n := "v_s30") (by mem_tac)
  obtain ⟨e, he, hev⟩ := cat h (n := "event_type") (by mem_tac)
  have v0 : 0 < v := by have := lo hv'; norm_num at this; linarith
  obtain ⟨d, rfl⟩ : ∃ d, rup = some d := by
    rw [hrup] at hd
    cases rup with
    | none => exact absurd rfl hd
    | some d => exact ⟨d, rfl⟩
  obtain ⟨o, sd, g, e1, l, p, l', p'⟩ := C62_coppersmith_defined s m d v sc e
    (ph.dist _ (by simp) _ (given hrup rfl)) v0 hm (given hrup rfl) hv hev
  exact ⟨o, g, l, all_of_getD l p, sd, e1, l', p'⟩

/-- Derras, Bard & Cotton (2014) -/
theorem C118_dbc14 (s : Scenario) (h : AllRecommended Decls.dbc14 s) :
    ∃ o, Gives DBC14.cls s o ∧ Finite 64 o := by
  obtain ⟨r, hr, hr'⟩ := num h (n := "dist_jb") (by mem_tac)
  obtain ⟨m, hm, -⟩ := num h (n := "mag") (by mem_tac)
  obtain ⟨v, hv, hv'⟩ := num h (n := "v_s30") (by mem_tac)
  obtain ⟨z, hz, -⟩ := num h (n := "depth_hyp") (by mem_tac)
  obtain ⟨t, ht', ht⟩ := cat h (n := "mechanism") (by mem_tac)
  have v0 : 0 < v := by have := lo hv'; norm_num at this; linarith
  have r0 : 0 < r := by have := lo hr'; norm_num at this; linarith
  obtain ⟨o, g, l, p, -⟩ := C57_bounded s m r v z t r0 v0 hm hr hv hz ht ht'
  obtain ⟨x, hg⟩ := DBC14.gives s hm hr hv hz ht ht'
  have u := g.unique hg
  refine ⟨o, g, l, p, DBC14.table.map DBC14.lnStd, by rw [u]; rfl, by simp [DBC14.table], ?_⟩
  intro y hy
  obtain ⟨c, hc, rfl⟩ := List.mem_map.1 hy
  have : (0 : ℝ) < (10 : ℝ) ^ (c.stdTotal : ℝ) := by positivity
  refine ⟨by simp [DBC14.lnStd, fsimp, this], ?_⟩
  have key : ∀ c ∈ DBC14.table, 0 < c.stdTotal := by decide +kernel
  have pos : (0 : ℝ) < (c.stdTotal : ℝ) := by exact_mod_cast key c hc
  simp only [DBC14.lnStd, fsimp]
  exact Real.log_pos (Real.one_lt_rpow (by norm_num) pos)

/-- Boore, Stewart, Seyhan & Atkinson (2014) -/
theorem C118_bssa14 (s : Scenario) (h : AllRecommended Decls.bssa14 s) :
    ∃ o, Gives BSSA14.cls s o ∧ Finite 107 o.gmm := by
  obtain ⟨z, hz, -⟩ := opt h (n := "depth_1_0") (r := false) (by mem_tac)
  obtain ⟨r, hr, -⟩ := num h (n := "dist_jb") (by mem_tac)
  obtain ⟨m, hm, -⟩ := num h (n := "mag") (by mem_tac)
  obtain ⟨v, hv, hv'⟩ := num h (n := "v_s30") (by mem_tac)
  have v0 : 0 < v := by have := lo hv'; norm_num at this; linarith
  have src : BSSA14.Source s ⟨m, r, v, z⟩ := ⟨hm, hr, hv, hz⟩
  obtain ⟨-, o, g, l, p⟩ := C46_bssa14_defined s _ src v0
  obtain ⟨o', sd, g', e, l', -, -, p'⟩ := C52_std s _ src v0
  cases g.unique g'
  refine ⟨o, g, l, p, sd, e, l', pos_of_getD l' fun i hi => ?_⟩
  obtain ⟨a1, -, -, a4, a5, a6, -, a8, -⟩ := p' i hi
  exact ⟨a1, by nlinarith⟩

/-- Chiou & Youngs (2014) -/
theorem C118_cy14 (s : Scenario) (h : AllRecommended Decls.cy14 s) : ∃ o, Gives CY14.cls s o ∧ Finite 26 o.gmm := by
  obtain ⟨tor, htor, -⟩ := opt h (n := "depth_tor") (r := false) (by mem_tac)
  obtain ⟨z, hz, -⟩ := opt h (n := "depth_1_0") (r := false) (by mem_tac)
  obtain ⟨dpp, hdpp, -⟩ := opt h (n := "dpp_centered") (r := false) (by mem_tac)
  obtain ⟨r, hr, hr'⟩ := num h (n := "dist_rup") (by mem_tac)
  obtain ⟨jb, hjb, -⟩ := num h (n := "dist_jb") (by mem_tac)
  obtain ⟨x, hx, -⟩ := num h (n := "dist_x") (by mem_tac)
  obtain ⟨dip, hdip, -⟩ := num h (n := "dip") (by mem_tac)
  obtain ⟨m, hm, -⟩ := num h (n := "mag") (by mem_tac)
  obtain ⟨v, hv, hv'⟩ := num h (n := "v_s30") (by mem_tac)
  have v0 : 0 < v := by have := lo hv'; norm_num at this; linarith
  have r0 : 0 ≤ r := by have := lo hr'; simpa using this
  have src : CY14.Source s ⟨m, r, jb, x, dip, v, tor, z, dpp⟩ := ⟨hm, hr, hjb, hx, hdip, hv, htor, hz, hdpp⟩
  obtain ⟨o, sd, g, e, l, -, -, p⟩ := C49_std s _ src r0
  have u := g.unique (CY14.gives src)
  refine ⟨o, g, ?_, ?_, sd, e, l, pos_of_getD l fun i hi => ⟨(p i hi).1, (p i hi).2.2.2.1⟩⟩
  · rw [u]; simp [CY14.out, CY14.table_length]
  · rw [u]; intro y hy
    simp only [CY14.out, List.mem_map] at hy
    obtain ⟨c, hc, rfl⟩ := hy
    exact CY14.lnResp_ok hc (g := ⟨m, r, jb, x, dip, v, tor, z, dpp⟩) r0 v0 _

/-- Abrahamson, Silva & Kamai (2014): on the hanging wall the site coordinate has to be there and
the fault must not be vertical -/
theorem C118_ask14 (s : Scenario) (h : AllRecommended Decls.ask14 s) (ph : Physical s)
    (hhw : s.get "on_hanging_wall" = .bool true → s.get "dist_x" ≠ .none ∧ ∀ d, s.get "dip" = .num d → d < 90) :
    ∃ o, Gives ASK14.cls s o ∧ Finite 24 o.gmm := by
  obtain ⟨x, hx, -⟩ := opt h (n := "dist_x") (r := false) (by mem_tac)
  obtain ⟨y0, hy0, -⟩ := opt h (n := "dist_y0") (r := false) (by mem_tac)
  obtain ⟨w, hw, -⟩ := opt h (n := "width") (r := false) (by mem_tac)
  obtain ⟨tor, htor, -⟩ := opt h (n := "depth_tor") (r := false) (by mem_tac)
  obtain ⟨z, hz, -⟩ := opt h (n := "depth_1_0") (r := false) (by mem_tac)
  obtain ⟨cr, hcr, -⟩ := opt h (n := "dist_crjb") (r := false) (by mem_tac)
  obtain ⟨r, hr, -⟩ := num h (n := "dist_rup") (by mem_tac)
  obtain ⟨jb, hjb, -⟩ := num h (n := "dist_jb") (by mem_tac)
  obtain ⟨dip, hdip, -⟩ := num h (n := "dip") (by mem_tac)
  obtain ⟨m, hm, -⟩ := num h (n := "mag") (by mem_tac)
  obtain ⟨v, hv, hv'⟩ := num h (n := "v_s30") (by mem_tac)
  obtain ⟨t, -, ht⟩ := cat h (n := "mechanism") (by mem_tac)
  have v0 : 0 < v := by have := lo hv'; norm_num at this; linarith
  have src : ASK14.Source s ⟨m, r, jb, dip, v, x, y0, w, tor, z, cr⟩ :=
    ⟨hm, hr, hjb, hdip, hv, hx, hy0, hw, htor, hz, hcr, by rw [ht]; simp⟩
  have hwall : (s.get "on_hanging_wall").isOn → x ≠ none ∧ 0 < dip ∧ dip < 90 ∧ ∀ w', w = some w' → 0 < w' := by
    intro on
    have hb : s.get "on_hanging_wall" = .bool true := by
      rcases h (boolP "on_hanging_wall" false (.bool false)) (by mem_tac) with ⟨hv, -⟩ | ⟨o, ho, hx, -⟩
      · have : s.get "on_hanging_wall" = .none := hv
        rw [this] at on; simp [Val.isOn] at on
      · simp only [boolP, List.mem_cons, List.not_mem_nil, or_false] at ho
        have hx' : s.get "on_hanging_wall" = o.toVal := hx
        rcases ho with rfl | rfl
        · exact hx'
        · rw [hx'] at on; simp [Val.isOn, Lit.toVal] at on
    obtain ⟨h1, h2⟩ := hhw hb
    refine ⟨?_, (ph.dip _ hdip).1, h2 _ hdip, fun w' e => ph.width _ (given hw e)⟩
    rintro rfl; exact h1 hx
  obtain ⟨-, o, g, l, p⟩ := C46_ask14_defined s _ src hwall
    (fun z' e => by have := ph.depth "depth_1_0" (by simp) z' (given hz e); linarith) v0
  obtain ⟨o', sd, g', e, l', -, -, p'⟩ := C45_std s _ src hwall v0
  cases g.unique g'
  refine ⟨o, g, l, p, sd, e, l', pos_of_getD l' fun i hi => ?_⟩
  obtain ⟨a1, -, -, -, -, a6, -⟩ := p' i hi
  exact ⟨a1, lt_of_lt_of_le (by norm_num) a6⟩

/-- Campbell & Bozorgnia (2014): on the footwall; on the hanging wall of a fault that is not vertical
if the width is given and its horizontal projection is not `62 mag - 350` km -/
theorem C118_cb14 (s : Scenario) (h : AllRecommended Decls.cb14 s) (ph : Physical s)
    (hhw : ∀ x d m, s.get "dist_x" = .num x → s.get "dip" = .num d → s.get "mag" = .num m → 0 ≤ x →
      d < 90 ∧ ∃ w, s.get "width" = .num w ∧ 62 * m - 350 ≠ w * Real.cos (d * (Real.pi / 180))) :
    ∃ o, Gives CB14.cls s o ∧ Finite 23 o.gmm := by
  obtain ⟨z1, hz1, -⟩ := opt h (n := "depth_1_0") (r := false) (by mem_tac)
  obtain ⟨z25, hz25, -⟩ := opt h (n := "depth_2_5") (r := false) (by mem_tac)
  obtain ⟨bor, hbor, -⟩ := opt h (n := "depth_bor") (r := false) (by mem_tac)
  obtain ⟨bot, hbot, -⟩ := opt h (n := "depth_bot") (r := false) (by mem_tac)
  obtain ⟨hyp, hhyp, -⟩ := opt h (n := "depth_hyp") (r := false) (by mem_tac)
  obtain ⟨tor, htor, -⟩ := opt h (n := "depth_tor") (r := false) (by mem_tac)
  obtain ⟨w, hw, -⟩ := opt h (n := "width") (r := false) (by mem_tac)
  obtain ⟨r, hr, -⟩ := num h (n := "dist_rup") (by mem_tac)
  obtain ⟨jb, hjb, -⟩ := num h (n := "dist_jb") (by mem_tac)
  obtain ⟨x, hx, -⟩ := num h (n := "dist_x") (by mem_tac)
  obtain ⟨dip, hdip, -⟩ := num h (n := "dip") (by mem_tac)
  obtain ⟨m, hm, -⟩ := num h (n := "mag") (by mem_tac)
  obtain ⟨v, hv, hv'⟩ := num h (n := "v_s30") (by mem_tac)
  obtain ⟨t, -, ht⟩ := cat h (n := "mechanism") (by mem_tac)
  have v0 : 0 < v := by have := lo hv'; norm_num at this; linarith
  obtain ⟨d0, d90⟩ := ph.dip _ hdip
  have src : CB14.Source s ⟨m, r, jb, x, dip, v, bot, z1, z25, bor, hyp, tor, w⟩ :=
    ⟨hm, hr, hjb, hx, hdip, hv, hbot, hz1, hz25, hbor, hhyp, htor, hw, by rw [ht]; simp⟩
  have reg : CB14.Regular ⟨m, r, jb, x, dip, v, bot, z1, z25, bor, hyp, tor, w⟩ (CB14.mechOf (s.get "mechanism")) := by
    refine ⟨fun _ => ⟨d0, by dsimp only; linarith⟩, fun x0 => ?_⟩
    obtain ⟨dl, w', hw', ne⟩ := hhw x dip m hx hdip hm x0
    have ew : w = some w' := by
      rw [hw] at hw'
      cases w with
      | none => simp [Val.ofOpt] at hw'
      | some a => simpa [Val.ofOpt] using hw'
    subst ew
    have hc : 0 < Real.cos (dip * (Real.pi / 180)) := by
      have := Real.pi_pos
      apply Real.cos_pos_of_mem_Ioo
      constructor <;> nlinarith
    have w0 := ph.width _ hw'
    simp only [CB14.Given.effWidth, F.orEst, fsimp]
    exact ⟨fun _ => (mul_pos w0 hc).ne', fun _ => sub_ne_zero.2 ne⟩
  obtain ⟨o, g, l, p⟩ := C46_cb14_defined s _ src v0 reg
  obtain ⟨o', sd, g', e, l', -, -, p'⟩ := C50_std s _ src v0 reg
  cases g.unique g'
  refine ⟨o, g, l, p, sd, e, l', pos_of_getD l' fun i hi => ?_⟩
  obtain ⟨a1, -, -, -, -, -, -, a8⟩ := p' i (by rw [CB14.table_length]; exact hi)
  exact ⟨a1, a8⟩

/-- Atkinson & Boore (2006) declares no limits: all numbers with a positive distance and velocity,
and the velocity 0 that selects hard rock -/
theorem C118_ab06 (s : Scenario) (h : AllRecommended Decls.ab06 s)
    (hr0 : ∀ r, s.get "dist_rup" = .num r → 0 < r) (hv0 : ∀ v, s.get "v_s30" = .num v → 0 ≤ v) :
    ∃ o, Gives AB06.cls s o ∧ Finite 27 o := by
  obtain ⟨r, hr, -⟩ := num h (n := "dist_rup") (by mem_tac)
  obtain ⟨m, hm, -⟩ := num h (n := "mag") (by mem_tac)
  obtain ⟨v, hv, -⟩ := num h (n := "v_s30") (by mem_tac)
  have r0 := hr0 _ hr
  rcases (hv0 _ hv).eq_or_lt with rfl | v0
  · refine ⟨_, AB06.gives s hm hr hv, ?_⟩
    simp only [if_true, AB06.out]
    refine ⟨by simp [AB06.rock], ?_, _, rfl, by simp [AB06.bc], ?_⟩
    · intro y hy
      obtain ⟨c, -, rfl⟩ := List.mem_map.1 hy
      exact AB06.toLn_ok (AB06.log10Base_ok c m r0)
    · intro y hy
      obtain ⟨c, -, rfl⟩ := List.mem_map.1 hy
      simp only [fsimp]; norm_num
  · refine ⟨_, AB06.gives s hm hr hv, ?_⟩
    simp only [if_neg v0.ne', AB06.out]
    refine ⟨by simp [AB06.bc], ?_, _, rfl, by simp [AB06.bc], ?_⟩
    · intro y hy
      obtain ⟨c, -, rfl⟩ := List.mem_map.1 hy
      exact AB06.toLn_ok ⟨AB06.log10Base_ok c m r0, AB06.log10Site_ok _ v0 (AB06.pgaBc_ok m r0)⟩
    · intro y hy
      obtain ⟨c, -, rfl⟩ := List.mem_map.1 hy
      simp only [fsimp]; norm_num

/-- Gülerce & Abrahamson (2011): the 24 ratios of vertical to horizontal motion -/
theorem C118_ga11 (s : Scenario) (h : AllRecommended Decls.ga11 s) :
    ∃ o, Gives GA11.cls s o ∧ o.lnRatio.length = 24 ∧ o.lnStd.length = 24 ∧
      (∀ y ∈ o.lnRatio, y.ok) ∧ ∀ y ∈ o.lnStd, y.ok ∧ 0 < y.val := by
  obtain ⟨r, hr, -⟩ := num h (n := "dist_rup") (by mem_tac)
  obtain ⟨m, hm, -⟩ := num h (n := "mag") (by mem_tac)
  obtain ⟨v, hv, hv'⟩ := num h (n := "v_s30") (by mem_tac)
  obtain ⟨p, hp, hp'⟩ := num h (n := "pga_ref") (by mem_tac)
  obtain ⟨t, -, ht⟩ := cat h (n := "mechanism") (by mem_tac)
  have v0 : 0 < v := by have := lo hv'; norm_num at this; linarith
  have p0 : 0 ≤ p := by have := lo hp'; norm_num at this; linarith
  obtain ⟨o, g, l, l', q, q'⟩ := C60_defined s m r v p t v0 p0 hm hr hv hp ht
  refine ⟨o, g, l, l', fun y hy => ?_, q'⟩
  have := (q _ (List.mem_map_of_mem hy)).1
  simpa using this

/-- Bayless & Abrahamson (2019): 301 finite amplitudes; the standard deviation is finite exactly
below 24 Hz (62 of the 301 frequencies have none, C41) -/
theorem C118_ba19 (s : Scenario) (h : AllRecommended Decls.ba19 s) (ph : Physical s) :
    ∃ o, Gives BA19.cls s o ∧ o.lnEas.length = 301 ∧ (∀ y ∈ o.lnEas, y.ok) ∧ o.lnStd.length = 301 ∧
      ∀ (k : ℕ) (c : BA19.Row), BA19.table[k]? = some c → ((o.lnStd.getD k F.nan).ok ↔ c.freq_hz < 24) := by
  obtain ⟨r, hr, hr'⟩ := num h (n := "dist_rup") (by mem_tac)
  obtain ⟨m, hm, -⟩ := num h (n := "mag") (by mem_tac)
  obtain ⟨v, hv, hv'⟩ := num h (n := "v_s30") (by mem_tac)
  obtain ⟨t, ht, -⟩ := num h (n := "depth_tor") (by mem_tac)
  obtain ⟨z, hz, -⟩ := opt h (n := "depth_1_0") (r := false) (by mem_tac)
  have v0 : 0 < v := by have := lo hv'; norm_num at this; linarith
  have r0 : 0 ≤ r := by have := lo hr'; simpa using this
  have src : BA19.Source s ⟨r, m, v, t, z⟩ := ⟨hr, hm, hv, ht, hz⟩
  have ok : BA19.Given.Ok ⟨r, m, v, t, z⟩ := ⟨r0, v0, fun z' e => ph.depth "depth_1_0" (by simp) z' (given hz e)⟩
  obtain ⟨o, g, l, p, -⟩ := C42_high_frequency s _ src ok
  obtain ⟨o', g', l', p'⟩ := C41_std s _ src
  cases g.unique g'
  refine ⟨o, g, l, p, l', fun k c hc => ⟨fun hok => ?_, fun hf => ((p' k c hc).2 hf).1⟩⟩
  by_contra hf
  exact (p' k c hc).1 (not_lt.1 hf) hok

/-! ### The durations -/

/-- Abrahamson & Silva (1996) -/
theorem C118_as96 (s : Scenario) (h : AllRecommended Decls.as96 s) :
    ∃ o d, Gives AS96.cls s o ∧ o.duration = [d] ∧ d.ok ∧ 0 < d.val := by
  obtain ⟨r, hr, -⟩ := num h (n := "dist_rup") (by mem_tac)
  obtain ⟨m, hm, -⟩ := num h (n := "mag") (by mem_tac)
  obtain ⟨t, -, ht⟩ := cat h (n := "site_cond") (by mem_tac)
  exact C31_defined s m r t hm hr ht

/-- Kempton & Stewart (2006): up to 960 m/s; at 1000 m/s, still within the limits, the third
duration of a magnitude-5 event at distance 0 is the logarithm of a negative number -/
theorem C118_ks06 (s : Scenario) (h : AllRecommended Decls.ks06 s)  :
    ((∀ v, s.get "v_s30" = .num v → v ≤ 960) →
      ∃ o, Gives KS06.cls s o ∧ o.duration.length = 4 ∧ ∀ d ∈ o.duration, d.ok ∧ 0 < d.val) ∧
    (s.get "v_s30" = .num 1000 → s.get "dist_rup" = .num 0 → s.get "mag" = .num 5 →
      ∃ o, Gives KS06.cls s o ∧ ¬ (o.duration.getD 2 0).ok) := by
  obtain ⟨r, hr, hr'⟩ := num h (n := "dist_rup") (by mem_tac)
  obtain ⟨m, hm, hm'⟩ := num h (n := "mag") (by mem_tac)
  obtain ⟨v, hv, -⟩ := num h (n := "v_s30") (by mem_tac)
  have r0 : 0 ≤ r := by have := lo hr'; simpa using this
  have m5 : 5 ≤ m := by have := lo hm'; norm_num at this; exact this
  exact ⟨fun hv' => C30_defined s m r v m5 r0 (hv' _ hv) hm hr hv,
    fun e1 e2 e3 => C30_undefined s 5 0 1000 le_rfl le_rfl le_rfl e3 e2 e1⟩

/-- Afshari & Stewart (2016) -/
theorem C118_as16 (s : Scenario) (h : AllRecommended Decls.as16 s) :
    ∃ o, Gives AS16.cls s o ∧ o.duration.length = 3 ∧ (∀ d ∈ o.duration, d.ok ∧ 0 < d.val) ∧
      o.stdErr.length = 3 ∧ ∀ e ∈ o.stdErr, e.ok := by
  obtain ⟨r, hr, hr'⟩ := num h (n := "dist_rup") (by mem_tac)
  obtain ⟨m, hm, -⟩ := num h (n := "mag") (by mem_tac)
  obtain ⟨v, hv, hv'⟩ := num h (n := "v_s30") (by mem_tac)
  obtain ⟨t, -, ht⟩ := cat h (n := "mechanism") (by mem_tac)
  obtain ⟨z, hz, -⟩ := opt h (n := "depth_1_0") (r := false) (by mem_tac)
  have v0 : 0 < v := by have := lo hv'; norm_num at this; linarith
  have r0 : 0 ≤ r := by have := lo hr'; simpa using this
  exact C33_defined s m r v z t r0 v0 hm hr hv hz ht

/-- Pinilla-Ramos et al. (2023) -/
theorem C118_pr23 (s : Scenario) (h : AllRecommended Decls.pr23 s) :
    ∃ o, Gives PR23.cls s o ∧ o.median.ok ∧ o.plus.ok ∧ o.minus.ok ∧ 0 < o.minus.val := by
  obtain ⟨r, hr, hr'⟩ := num h (n := "dist_rup") (by mem_tac)
  obtain ⟨m, hm, hm'⟩ := num h (n := "mag") (by mem_tac)
  obtain ⟨v, hv, hv'⟩ := num h (n := "v_s30") (by mem_tac)
  have lim : PR23.InLimits m r v := by
    have a1 := lo hr'; have a2 := hi hr'; have a3 := lo hm'; have a4 := hi hm'; have a5 := lo hv'; have a6 := hi hv'
    norm_num at a1 a2 a3 a4 a5 a6
    exact ⟨⟨a3, a4⟩, ⟨a1, a2⟩, ⟨a5, a6⟩⟩
  obtain ⟨o, g, a, b, c, d, -⟩ := C29_band s m r v ⟨hm, hr, hv⟩ lim
  exact ⟨o, g, a, b, c, d⟩

/-- Pinilla-Ramos et al. (2024): every combination of the options but interface events in Taiwan,
which is refused -/
theorem C118_pr24 (s : Scenario) (h : AllRecommended Decls.pr24 s) :
    (¬ (s.get "event_type" = .str "interface" ∧ s.get "region" = .str "Taiwan") →
      ∃ o, Gives PR24.cls s o ∧ o.median.ok ∧ o.plus.ok ∧ o.minus.ok ∧ 0 < o.minus.val) ∧
    (s.get "event_type" = .str "interface" ∧ s.get "region" = .str "Taiwan" →
      ∃ t, (PR24.cls.new s).res = .error (.valueError t)) := by
  obtain ⟨r, hr, hr'⟩ := num h (n := "dist_rup") (by mem_tac)
  obtain ⟨m, hm, hm'⟩ := num h (n := "mag") (by mem_tac)
  obtain ⟨v, hv, hv'⟩ := num h (n := "v_s30") (by mem_tac)
  obtain ⟨e, he, hev⟩ := cat h (n := "event_type") (by mem_tac)
  obtain ⟨t, ht, hreg⟩ := cat h (n := "region") (by mem_tac)
  have nums : PR24.Nums s m r v := ⟨hm, hr, hv⟩
  have lim : PR24.InLimits m r v := by
    have a1 := lo hr'; have a2 := hi hr'; have a3 := lo hm'; have a4 := hi hm'; have a5 := lo hv'; have a6 := hi hv'
    norm_num at a1 a2 a3 a4 a5 a6
    exact ⟨⟨by norm_num; linarith, by norm_num; linarith⟩, ⟨a1, a2⟩, ⟨a5, a6⟩⟩
  constructor
  · intro hne
    obtain ⟨k, g, hk, hg, hs⟩ : ∃ k g, e = PR24.Kind.name k ∧ t = PR24.Region.name g ∧ PR24.Supported k g := by
      rw [hev, hreg] at hne
      simp only [List.mem_cons, List.not_mem_nil, or_false] at he ht
      rcases he with rfl | rfl
      · rcases ht with rfl | rfl | rfl | rfl
        · exact ⟨.interface, .japan, rfl, rfl, by decide⟩
        · exact ⟨.interface, .newZealand, rfl, rfl, by decide⟩
        · exact ⟨.interface, .southAmerica, rfl, rfl, by decide⟩
        · exact absurd ⟨rfl, rfl⟩ hne
      · rcases ht with rfl | rfl | rfl | rfl
        · exact ⟨.slab, .japan, rfl, rfl, by decide⟩
        · exact ⟨.slab, .newZealand, rfl, rfl, by decide⟩
        · exact ⟨.slab, .southAmerica, rfl, rfl, by decide⟩
        · exact ⟨.slab, .taiwan, rfl, rfl, by decide⟩
    obtain ⟨o, gv, a, b, c, d, -⟩ := C27_band s m r v k g ⟨nums, hk ▸ hev, hg ▸ hreg, hs⟩ lim
    exact ⟨o, gv, a, b, c, d⟩
  · rintro ⟨e1, e2⟩
    refine (C25_construction s m r v nums).2 ?_
    rintro ⟨k, g, a, b, c⟩
    rw [e1] at a; rw [e2] at b
    clear h hev hreg nums
    cases k <;> cases g <;>
      first
      | exact c ⟨rfl, rfl⟩
      | (simp [PR24.Kind.name] at a; done)
      | (simp [PR24.Region.name] at b; done)

/-! ### The hypotheses can be met, and the exceptions are needed -/

namespace Limits

/-- a scenario with everything every model asks for, inside all limits -/
noncomputable def ex (event region cond : String) : Scenario :=
  ⟨[("mag", .num 6), ("dist_rup", .num 30), ("dist_jb", .num 25), ("dist_hyp", .num 35), ("dist_epi", .num 28),
    ("dist_x", .num (-20)), ("dip", .num 60), ("width", .num 12), ("v_s30", .num 500), ("depth_1_0", .num 0.3),
    ("depth_2_5", .num 1), ("depth_tor", .num 2), ("depth_hyp", .num 9), ("depth_bor", .num 12),
    ("pga_ref", .num 0.1), ("mechanism", .str "SS"), ("event_type", .str event), ("region", .str region),
    ("site_cond", .str cond)], []⟩

theorem ex_physical (e r c : String) : Physical (ex e r c) := by
  constructor
  · intro k hk x hx
    simp only [List.mem_cons, List.not_mem_nil, or_false] at hk
    rcases hk with rfl | rfl | rfl | rfl <;> simp [ex, Scenario.get, Dict.get?] at hx <;> subst hx <;> norm_num
  · intro k hk x hx
    simp only [List.mem_cons, List.not_mem_nil, or_false] at hk
    rcases hk with rfl | rfl | rfl | rfl | rfl <;> simp [ex, Scenario.get, Dict.get?] at hx <;> subst hx <;> norm_num
  · intro x hx
    simp [ex, Scenario.get, Dict.get?] at hx
    subst hx; norm_num
  · intro x hx
    simp [ex, Scenario.get, Dict.get?] at hx
    subst hx; norm_num

theorem rec_none {s : Scenario} {n : String} {p : Param} (h : s.get n = .none) (hn : p.name = n) (hr : p.required = false) :
    Recommended p (s.get p.name) := .inl ⟨hn ▸ h, hr⟩

theorem rec_num {s : Scenario} {n : String} {r : Bool} {lo hi : Option ℚ} {df : Lit} {x : ℝ} (h : s.get n = .num x)
    (hr : InRange lo hi x) : Recommended (numP n r lo hi df) (s.get (numP n r lo hi df).name) := .inr ⟨x, h, hr⟩

theorem rec_str {s : Scenario} {n t : String} {r : Bool} {opts : List String} {df : Lit} (h : s.get n = .str t)
    (ht : t ∈ opts) : Recommended (catP n r opts df) (s.get (catP n r opts df).name) :=
  .inr ⟨.str t, List.mem_map_of_mem ht, h, by rw [show s.get (catP n r opts df).name = .str t from h]; simp⟩

end Limits

/-- closes `AllRecommended decls (ex ..)` -/
macro "recommended" d:ident : tactic => `(tactic| (
  unfold AllRecommended
  simp only [$d:ident, List.forall_mem_cons]
  repeat' apply And.intro
  all_goals first
    | exact fun _ h => absurd h List.not_mem_nil
    | exact Limits.rec_none (by simp [Limits.ex, Scenario.get, Dict.get?]; rfl) rfl rfl
    | (refine Limits.rec_num (by simp [Limits.ex, Scenario.get, Dict.get?]; rfl) ⟨?_, ?_⟩ <;>
        (intro q hq; simp at hq; try (subst hq; norm_num)); done)
    | exact Limits.rec_str (by simp [Limits.ex, Scenario.get, Dict.get?]; rfl) (by simp)))

example := C118_i14 (ex "interface" "japan" "soil") (by recommended Decls.i14) (ex_physical _ _ _)
example := C118_c03 (ex "interface" "japan" "soil") (by recommended Decls.c03)
example := C118_tp05 (ex "interface" "japan" "soil") (by recommended Decls.tp05) (ex_physical _ _ _)
example := C118_pea11 (ex "interface" "japan" "soil") (by recommended Decls.pea11)
example := C118_akb14 (ex "interface" "japan" "soil") (by recommended Decls.akb14)
  (.inl (by simp [ex, Scenario.get, Dict.get?]))
example := C118_aga16 (ex "interface" "japan" "soil") .default 0 1 (by simp) (by recommended Decls.aga16)
  (ex_physical _ _ _) (by simp [ex, Scenario.get, Dict.get?]) (by simp [ex, Scenario.get, Dict.get?])
example := C118_aga16 (ex "intraslab" "japan" "soil") (.scalar 0.1) 0 1 (by simp) (by recommended Decls.aga16)
  (ex_physical _ _ _) (by simp [ex, Scenario.get, Dict.get?]) (by simp [ex, Scenario.get, Dict.get?])
example := C118_coppersmith (ex "interface" "japan" "soil") 1 (by recommended Decls.coppersmith) (ex_physical _ _ _)
  (by simp [ex, Scenario.get, Dict.get?])
example := C118_dbc14 (ex "interface" "japan" "soil") (by recommended Decls.dbc14)
example := C118_bssa14 (ex "interface" "japan" "soil") (by recommended Decls.bssa14)
example := C118_cy14 (ex "interface" "japan" "soil") (by recommended Decls.cy14)
example := C118_ask14 (ex "interface" "japan" "soil") (by recommended Decls.ask14) (ex_physical _ _ _)
  (by simp [ex, Scenario.get, Dict.get?])
example := C118_cb14 (ex "interface" "japan" "soil") (by recommended Decls.cb14) (ex_physical _ _ _)
  (by intro x d m hx _ _ h0; simp [ex, Scenario.get, Dict.get?] at hx; subst hx; norm_num at h0)
example := C118_ab06 (ex "interface" "japan" "soil") (by recommended Decls.ab06)
  (by intro x hx; simp [ex, Scenario.get, Dict.get?] at hx; subst hx; norm_num)
  (by intro x hx; simp [ex, Scenario.get, Dict.get?] at hx; subst hx; norm_num)
example := C118_ga11 (ex "interface" "japan" "soil") (by recommended Decls.ga11)
example := C118_ba19 (ex "interface" "japan" "soil") (by recommended Decls.ba19) (ex_physical _ _ _)
example := C118_as96 (ex "interface" "japan" "soil") (by recommended Decls.as96)
example := (C118_ks06 (ex "interface" "japan" "soil") (by recommended Decls.ks06)).1
  (by intro x hx; simp [ex, Scenario.get, Dict.get?] at hx; subst hx; norm_num)
example := C118_as16 (ex "interface" "japan" "soil") (by recommended Decls.as16)
example := C118_pr23 (ex "interface" "japan" "soil") (by recommended Decls.pr23)
example := (C118_pr24 (ex "slab" "Taiwan" "soil") (by recommended Decls.pr24)).1
  (by simp [ex, Scenario.get, Dict.get?])
example := (C118_pr24 (ex "interface" "Taiwan" "soil") (by recommended Decls.pr24)).2
  (by simp [ex, Scenario.get, Dict.get?])
