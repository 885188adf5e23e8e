import Verif.Cont
import Verif.Props.AGA16
import Verif.Props.DBC14

/-! # C116: the other models depend continuously on all numeric inputs at once (2) -/

open Filter Topology
open Bounds

set_option linter.unusedSimpArgs false

variable {X : Type*} [TopologicalSpace X]

namespace AGA16

theorem fMag_CA (t4 t5 t13 : ℚ) (adj : F) {m : X → F} {x₀ : X} (hm : F.CA m x₀) :
    F.CA (fun x => fMag t4 t5 t13 adj (m x)) x₀ := by
  unfold fMag
  fcont
  intro o1 o2 o3 e
  simp only [fsimp] at *
  refine ⟨by simp_all, ?_⟩
  rw [e, sub_self, mul_zero, mul_zero]

theorem fSite_CA {vl b n c t12 : ℚ} {v p : X → F} {x₀ : X} (hv : F.CA v x₀) (hp : F.CA p x₀)
    (hpo : (p x₀).ok) (hp0 : 0 < (p x₀).val) (hc : 0 < c) (hvl : 0 < vl)
    (hne : 1000 < vl → (v x₀).val ≠ vl) :
    F.CA (fun x => fSite vl b n c t12 (v x) (some (p x))) x₀ := by
  unfold fSite
  dsimp only
  fcont
  intro o1 o2 o3 e
  have e : (v x₀).val = vl := e
  have hl : vl ≤ 1000 := by
    by_contra hh
    exact hne (not_le.1 hh) e
  have hl' : (vl : ℝ) ≤ 1000 := by exact_mod_cast hl
  have hv0 : (0 : ℝ) < vl := by exact_mod_cast hvl
  have hc0 : (0 : ℝ) < c := by exact_mod_cast hc
  have h1 : min (vl : ℝ) 1000 / vl = 1 := by rw [min_eq_left hl']; exact div_self hv0.ne'
  simp only [fsimp, e, h1, Real.one_rpow, Real.log_one] at *
  refine ⟨?_, by ring_nf⟩
  simp_all
  positivity

theorem fSite_ref_const (vl b n c t12 : ℚ) (v v' : F) : fSite vl b n c t12 v none = fSite vl b n c t12 v' none := rfl

/-- the numbers of a family vary continuously, the rest is fixed -/
structure InCont (i : X → In) (x₀ : X) : Prop where
  mag : F.CA (fun x => (i x).mag) x₀
  dist : F.CA (fun x => (i x).dist) x₀
  depth : F.CA (fun x => (i x).depth) x₀
  vs30 : F.CA (fun x => (i x).vs30) x₀
  ev : ∀ x, (i x).ev = (i x₀).ev
  backarc : ∀ x, (i x).backarc = (i x₀).backarc
  scale : ∀ x, (i x).scale = (i x₀).scale

theorem lnResp_CA (c : Row) (adj : F) {i : X → In} {p : X → Option F} {x₀ : X} (h : InCont i x₀)
    (hs : F.CA (fun x => fSite c.v_lin c.b c.n c.c c.t_12 (i x).vs30 (p x)) x₀) :
    F.CA (fun x => lnResp c adj (i x) (p x)) x₀ := by
  have h1 := h.mag
  have h2 := h.dist
  have h3 := h.depth
  have h4 := fMag_CA c.t_4 c.t_5 c.t_13 adj h1
  unfold lnResp fFaba fDepth
  dsimp only
  simp only [h.ev, h.backarc, h.scale]
  fcont

theorem out_CN {adj : List F} {i : X → In} {x₀ : X} (h : InCont i x₀)
    (hp : (pgaRef adj (i x₀)).ok) (k : ℕ)
    (hk : ∀ c ∈ table[k]?, 1000 < c.v_lin → (i x₀).vs30.val ≠ c.v_lin) :
    ContinuousNumber (fun x => (out adj (i x)).lnResp.getD k F.nan) x₀ := by
  have hq : F.CA (fun x => pgaRef adj (i x)) x₀ := by
    unfold pgaRef
    exact F.CA.exp (CA_zipWith table adj _ (fun c _ a _ => lnResp_CA c a h (F.CA.const (fSite c.v_lin c.b c.n c.c c.t_12 0 none))) 0)
  refine F.CA.spec ?_
  simp only [out, List.getD_eq_getElem?_getD, List.getElem?_zipWith]
  cases hc : table[k]? with
  | none => exact F.CA.const _
  | some c =>
    cases ha : adj[k]? with
    | none => exact F.CA.const _
    | some a =>
      obtain ⟨-, -, -, h4, h5, h6, -⟩ := row_facts c (List.mem_of_getElem? hc)
      exact lnResp_CA c a h (fSite_CA h.vs30 hq hp (Real.exp_pos _) (by rw [h4]; norm_num) h6 (hk c (by simp [hc])))

end AGA16

/-- Abrahamson, Gregor & Addo (2016), with any adjustments: the median is continuous in magnitude,
distance, depth and v_s30 together, except for the ordinates of 0.05, 0.075 and 0.1 s at
v_s30 = 1053.5, 1085.7 and 1032.5 m/s respectively; the standard deviation is constant. -/
theorem C116_aga16 {ks : List String} {S : X → Scenario} {x₀ : X} {m₀ v₀ d₀ : ℝ} {e : String} {r : Option String}
    {rup hyp z : Option ℝ} {a : AGA16.Adjust} {c4 sc : ℝ} {adj : List F} {O : X → AGA16.Out}
    (h : Varies ks S x₀) (h0 : AGA16.Source (S x₀) m₀ v₀ e r rup hyp z)
    (hks : ∀ k ∈ ["event_type", "tectonic_region"], k ∉ ks)
    (hd : (if e = "intraslab" then hyp else rup) = some d₀) (hd0 : 0 ≤ d₀)
    (hz : e = "intraslab" → z ≠ none) (hev : r = some "backarc" → AGA16.evFor e ≠ .other)
    (ha : AGA16.adjust (AGA16.table.map (·.period)) (AGA16.evFor e) a = pure adj)
    (hO : ∀ x, Gives (AGA16.cls a c4 sc) (S x) (O x)) :
    (∀ k, (k = 2 → v₀ ≠ 1053.5) → (k = 3 → v₀ ≠ 1085.7) → (k = 4 → v₀ ≠ 1032.5) →
      ContinuousNumber (fun x => (O x).gmm.lnResp.getD k F.nan) x₀) ∧
      ContinuousEntries (fun x => (O x).gmm.lnStd.getD []) x₀ := by
  obtain ⟨mag, e1, f1, c1⟩ := h.num h0.mag
  obtain ⟨v, e2, f2, c2⟩ := h.num h0.vs30
  obtain ⟨rup', e3, f3, c3⟩ := h.opt h0.distRup
  obtain ⟨hyp', e4, f4, c4'⟩ := h.opt h0.distHyp
  obtain ⟨z', e5, f5, c5⟩ := h.opt h0.depth
  have hsrc : ∀ x, AGA16.Source (S x) (mag x) (v x) e r (rup' x) (hyp' x) (z' x) := fun x =>
    ⟨e1 x, e2 x, (h.fixed _ (hks _ (by simp)) x).trans h0.event,
      (h.fixed _ (hks _ (by simp)) x).trans h0.region, e3 x, e4 x, e5 x⟩
  have hev' : AGA16.evFor e = .intraslab ↔ e = "intraslab" := by
    unfold AGA16.evFor; split_ifs with h1 h2 <;> simp [h1]
  simp only [← hev'] at hd hz
  obtain ⟨hl, hok⟩ := AGA16.adjust_ok ha
  obtain ⟨d, kd, cd, fd⟩ : ∃ d : X → ℝ, (∀ x, (if AGA16.evFor e = .intraslab then hyp' x else rup' x) = some (d x)) ∧
      ContinuousAt d x₀ ∧ d x₀ = d₀ := by
    by_cases hi : AGA16.evFor e = .intraslab
    · simp only [if_pos hi, ← f4] at hd ⊢
      rcases c4' with k | ⟨g, k, i⟩
      · simp [k] at hd
      · exact ⟨g, k, i, by simpa [k] using hd⟩
    · simp only [if_neg hi, ← f3] at hd ⊢
      rcases c3 with k | ⟨g, k, i⟩
      · simp [k] at hd
      · exact ⟨g, k, i, by simpa [k] using hd⟩
  obtain ⟨w, kw, cw⟩ : ∃ w : X → ℝ, (∀ x, AGA16.evFor e = .intraslab → z' x = some (w x)) ∧ ContinuousAt w x₀ := by
    rcases c5 with k | ⟨g, k, i⟩
    · exact ⟨fun _ => 0, fun x hi => absurd (f5 ▸ k x₀) (hz hi), continuousAt_const⟩
    · exact ⟨g, fun x _ => k x, i⟩
  obtain rfl : O = fun x => ⟨AGA16.out adj (AGA16.input (mag x) (v x) (d x) e r (w x) sc), adj, c4, sc⟩ :=
    funext fun x => (hO x).unique (AGA16.gives (hsrc x) (kd x) (kw x) hev c4 sc ha)
  have hi : AGA16.InCont (fun x => AGA16.input (mag x) (v x) (d x) e r (w x) sc) x₀ :=
    ⟨F.CA.ofReal c1, F.CA.ofReal cd, by
      unfold AGA16.input
      dsimp only
      have := F.CA.ofReal cw
      fcont, F.CA.ofReal c2, fun _ => rfl, fun _ => rfl, fun _ => rfl⟩
  have hp : (AGA16.pgaRef adj (AGA16.input (mag x₀) (v x₀) (d x₀) e r (w x₀) sc)).ok := by
    obtain ⟨y, hy, he⟩ := AGA16.ref_ok hl hok (mag x₀) (v x₀) (fd ▸ hd0) e r (w x₀) sc
    rw [he]; exact hy
  refine ⟨fun k h2 h3 h4 => AGA16.out_CN hi hp k ?_,
    ContinuousEntries.map AGA16.table (fun c _ => AGA16.lnStd c) fun c _ => F.CA.const _⟩
  intro c hc hvl
  have hlen : k < 23 := by
    have := List.getElem?_eq_some_iff.1 (Option.mem_def.1 hc)
    exact this.1
  have key : ∀ j : Fin 23, ∀ c : AGA16.Row, c ∈ AGA16.table[j.val]? → 1000 < c.v_lin →
      (j.val = 2 ∧ c.v_lin = 1053.5) ∨ (j.val = 3 ∧ c.v_lin = 1085.7) ∨ (j.val = 4 ∧ c.v_lin = 1032.5) := by
    decide +kernel
  change v x₀ ≠ c.v_lin
  rw [f2]
  rcases key ⟨k, hlen⟩ c hc hvl with ⟨a, b⟩ | ⟨a, b⟩ | ⟨a, b⟩
  · rw [b]; push_cast; exact h2 a
  · rw [b]; push_cast; exact h3 a
  · rw [b]; push_cast; exact h4 a

namespace CoppersmithBommer

theorem lnResp_CA (c : Row) (adj sc : F) {m d v : X → F} {p : X → Option F} {x₀ : X} (h1 : F.CA m x₀) (h2 : F.CA d x₀)
    (hs : F.CA (fun x => AGA16.fSite c.v_lin c.b c.n c.c c.t_12 (v x) (p x)) x₀) :
    F.CA (fun x => lnResp c adj (m x) (d x) (v x) sc (p x)) x₀ := by
  have h4 := AGA16.fMag_CA c.t_4 c.t_5 c.t_13 adj h1
  unfold lnResp
  dsimp only
  fcont

theorem out_CN {adj : List F} {sc : F} {m d v : X → F} {x₀ : X} (h1 : F.CA m x₀) (h2 : F.CA d x₀) (h3 : F.CA v x₀)
    (hp : (pgaRef adj (m x₀) (d x₀) (v x₀) sc).ok) (k : ℕ)
    (hk : ∀ c ∈ table[k]?, 1000 < c.v_lin → (v x₀).val ≠ c.v_lin) :
    ContinuousNumber (fun x => (out adj (m x) (d x) (v x) sc).lnResp.getD k F.nan) x₀ := by
  have hq : F.CA (fun x => pgaRef adj (m x) (d x) (v x) sc) x₀ := by
    unfold pgaRef
    exact F.CA.exp (CA_zipWith table adj _ (fun c _ a _ => lnResp_CA c a sc h1 h2
      (F.CA.const (AGA16.fSite c.v_lin c.b c.n c.c c.t_12 0 none))) 0)
  refine F.CA.spec ?_
  simp only [out, List.getD_eq_getElem?_getD, List.getElem?_zipWith]
  cases hc : table[k]? with
  | none => exact F.CA.const _
  | some c =>
    cases ha : adj[k]? with
    | none => exact F.CA.const _
    | some a =>
      obtain ⟨-, -, -, h4, h5, h6, -⟩ := row_facts c (List.mem_of_getElem? hc)
      exact lnResp_CA c a sc h1 h2 (AGA16.fSite_CA h3 hq hp (Real.exp_pos _) (by rw [h4]; norm_num) h6
        (hk c (by simp [hc])))

end CoppersmithBommer

/-- CoppersmithBommer2014: the median is continuous in magnitude, distance and v_s30 together,
except for the ordinates of 0.05 and 0.1 s at v_s30 = 1053.5 and 1032.5 m/s; the standard deviation
is constant. -/
theorem C116_coppersmith {ks : List String} {S : X → Scenario} {x₀ : X} {m₀ v₀ d₀ : ℝ} {e : String}
    {sc : ℝ} {O : X → GmmOut} (h : Varies ks S x₀)
    (hm : (S x₀).get "mag" = .num m₀) (hd : (S x₀).get "dist_rup" = .num d₀) (hv : (S x₀).get "v_s30" = .num v₀)
    (he : (S x₀).get "event_type" = .str e) (hks : "event_type" ∉ ks) (hd0 : 0 ≤ d₀)
    (hO : ∀ x, Gives (CoppersmithBommer.cls sc) (S x) (O x)) :
    (∀ k, (k = 3 → v₀ ≠ 1053.5) → (k = 4 → v₀ ≠ 1032.5) →
      ContinuousNumber (fun x => (O x).lnResp.getD k F.nan) x₀) ∧
      ContinuousEntries (fun x => (O x).lnStd.getD []) x₀ := by
  obtain ⟨mag, e1, f1, c1⟩ := h.num hm
  obtain ⟨v, e2, f2, c2⟩ := h.num hv
  obtain ⟨d, e3, f3, c3⟩ := h.num hd
  obtain rfl : O = fun x => CoppersmithBommer.out (CoppersmithBommer.adj (AGA16.evFor e)) (F.ofReal (mag x))
      (F.ofReal (d x)) (F.ofReal (v x)) (F.ofReal sc) :=
    funext fun x => (hO x).unique (CoppersmithBommer.gives (S x) (e1 x) (e3 x) (e2 x)
      ((h.fixed _ hks x).trans he) sc)
  have hp : (CoppersmithBommer.pgaRef (CoppersmithBommer.adj (AGA16.evFor e)) (F.ofReal (mag x₀)) (F.ofReal (d x₀))
      (F.ofReal (v x₀)) (F.ofReal sc)).ok := by
    obtain ⟨hl, hok⟩ := CoppersmithBommer.adj_ok (AGA16.evFor e)
    obtain ⟨r0, hr0, hh, hvl, -⟩ := CoppersmithBommer.head_eq
    match hadj : CoppersmithBommer.adj (AGA16.evFor e), hl with
    | a0 :: adj, _ =>
      rw [CoppersmithBommer.pgaRef_eq hh]
      exact CoppersmithBommer.ref_ok hr0 hvl (hok a0 (by rw [hadj]; simp)) (mag x₀) (f3 ▸ hd0) (v x₀) sc
  refine ⟨fun k h3 h4 => CoppersmithBommer.out_CN (F.CA.ofReal c1) (F.CA.ofReal c3) (F.CA.ofReal c2) hp k ?_,
    ContinuousEntries.map CoppersmithBommer.table
      (fun c _ => F.sqrt ((c.phi : F) ^ 2 + (c.tau : F) ^ 2)) fun c _ => F.CA.const _⟩
  intro c hc hvl
  have hlen : k < 14 := by
    have := List.getElem?_eq_some_iff.1 (Option.mem_def.1 hc)
    exact this.1
  have key : ∀ j : Fin 14, ∀ c : CoppersmithBommer.Row, c ∈ CoppersmithBommer.table[j.val]? → 1000 < c.v_lin →
      (j.val = 3 ∧ c.v_lin = 1053.5) ∨ (j.val = 4 ∧ c.v_lin = 1032.5) := by
    decide +kernel
  change v x₀ ≠ c.v_lin
  rw [f2]
  rcases key ⟨k, hlen⟩ c hc hvl with ⟨a, b⟩ | ⟨a, b⟩
  · rw [b]; push_cast; exact h3 a
  · rw [b]; push_cast; exact h4 a

namespace DBC14

theorem dot_CA (q : List ℚ) (L : List (X → F)) {x₀ : X} (h : ∀ f ∈ L, F.CA f x₀) :
    F.CA (fun x => dot q (L.map fun f => f x)) x₀ := by
  induction q generalizing L with
  | nil => exact F.CA.const _
  | cons a q ih =>
    cases L with
    | nil => exact F.CA.const _
    | cons f L =>
      have h1 := h f (by simp)
      have h2 := ih L fun g hg => h g (by simp [hg])
      simp only [List.map_cons, dot]
      fcont

theorem hidden_CA (L : List (X → F)) {x₀ : X} (h : ∀ f ∈ L, F.CA f x₀) :
    ∃ H : List (X → F), (∀ f ∈ H, F.CA f x₀) ∧ ∀ x, hidden (L.map fun f => f x) = H.map fun f => f x := by
  refine ⟨List.zipWith (fun (b : ℚ) w => fun x => F.tanh (b + dot w (L.map fun f => f x))) b1 w1, ?_, ?_⟩
  · intro f hf
    obtain ⟨b, w, rfl⟩ : ∃ (b : ℚ) (w : List ℚ), f = fun x => F.tanh (b + dot w (L.map fun f => f x)) := by
      rw [List.mem_iff_getElem?] at hf
      obtain ⟨i, hi⟩ := hf
      rw [List.getElem?_zipWith] at hi
      split at hi
      · exact ⟨_, _, by simpa using hi.symm⟩
      · simp at hi
    have := dot_CA w L h
    fcont
  · intro x
    unfold hidden
    rw [List.map_zipWith]

end DBC14

/-- Derras, Bard & Cotton (2014): the median is continuous in all four numbers together wherever it
is defined; the standard deviation is constant. -/
theorem C116_dbc14 {ks : List String} {S : X → Scenario} {x₀ : X} {m₀ r₀ v₀ z₀ : ℝ} {t : String}
    {O : X → GmmOut} (h : Varies ks S x₀)
    (hm : (S x₀).get "mag" = .num m₀) (hr : (S x₀).get "dist_jb" = .num r₀) (hv : (S x₀).get "v_s30" = .num v₀)
    (hz : (S x₀).get "depth_hyp" = .num z₀) (ht : (S x₀).get "mechanism" = .str t) (hmem : t ∈ ["SS", "NS", "RS"])
    (hks : "mechanism" ∉ ks) (hO : ∀ x, Gives DBC14.cls (S x) (O x)) :
    ContinuousEntries (fun x => (O x).lnResp) x₀ ∧ ContinuousEntries (fun x => (O x).lnStd.getD []) x₀ := by
  obtain ⟨mag, e1, -, c1⟩ := h.num hm
  obtain ⟨r, e2, -, c2⟩ := h.num hr
  obtain ⟨v, e3, -, c3⟩ := h.num hv
  obtain ⟨z, e4, -, c4⟩ := h.num hz
  obtain rfl : O = fun x => DBC14.out (F.ofReal (r x)) (F.ofReal (mag x)) (F.ofReal (v x)) (F.ofReal (z x))
      (F.ofReal (DBC14.mechCode t)) :=
    funext fun x => (hO x).unique (DBC14.gives' (S x) (e1 x) (e2 x) (e3 x) (e4 x) ((h.fixed _ hks x).trans ht) hmem)
  have g1 := F.CA.ofReal c1
  have g2 := F.CA.ofReal c2
  have g3 := F.CA.ofReal c3
  have g4 := F.CA.ofReal c4
  obtain ⟨L, hL, eL⟩ : ∃ L : List (X → F), (∀ f ∈ L, F.CA f x₀) ∧ ∀ x, DBC14.inputs (F.ofReal (r x)) (F.ofReal (mag x))
      (F.ofReal (v x)) (F.ofReal (z x)) (F.ofReal (DBC14.mechCode t)) = L.map fun f => f x := by
    refine ⟨List.zipWith (fun lim (f : X → F) => fun x => DBC14.normalise lim (f x)) DBC14.inputLimits
      [fun x => F.log10 (F.ofReal (r x)), fun x => F.ofReal (mag x), fun x => F.log10 (F.ofReal (v x)),
        fun x => F.ofReal (z x), fun _ => F.ofReal (DBC14.mechCode t)], ?_, ?_⟩
    · intro f hf
      rw [List.mem_iff_getElem?] at hf
      obtain ⟨i, hi⟩ := hf
      rw [List.getElem?_zipWith] at hi
      split at hi
      · rename_i lim g h1 h2
        obtain rfl : _ = f := by simpa using hi
        have hg : F.CA g x₀ := by
          have := List.mem_of_getElem? h2
          simp only [List.mem_cons, List.not_mem_nil, or_false] at this
          rcases this with rfl | rfl | rfl | rfl | rfl <;> fcont
        unfold DBC14.normalise
        fcont
      · simp at hi
    · intro x
      unfold DBC14.inputs
      rw [List.map_zipWith]
      rfl
  obtain ⟨H, hH, eH⟩ := DBC14.hidden_CA L hL
  constructor
  · intro i
    refine F.CA.spec ?_
    simp only [DBC14.out, List.getD_eq_getElem?_getD, List.getElem?_mapIdx, eL, eH]
    cases hc : DBC14.table[i]? with
    | none => exact F.CA.const _
    | some c =>
      have := DBC14.dot_CA c.w2 H hH
      simp only [Option.map_some, Option.getD_some, DBC14.lnResp]
      fcont
  · exact ContinuousEntries.map DBC14.table (fun c _ => DBC14.lnStd c) fun c _ => F.CA.const _

example : ∃ O : ℝ × ℝ → AGA16.Out, ContinuousNumber (fun x => (O x).gmm.lnResp.getD 0 F.nan) ((7.8 : ℝ), (865.1 : ℝ)) :=
  ⟨_, (C116_aga16 (m₀ := 7.8) (v₀ := 865.1) (d₀ := 80) (e := "interface") (r := some "backarc") (rup := some 80)
    (hyp := none) (z := none) (a := .scalar 0.2) (c4 := 10) (sc := 1) (adj := (AGA16.table.map (·.period)).map fun _ => F.ofReal 0.2)
    (Varies.pair "mag" "v_s30" [("dist_rup", .num 80), ("event_type", .str "interface"),
      ("tectonic_region", .str "backarc")] (by decide) _)
    ⟨rfl, rfl, rfl, rfl, rfl, rfl, rfl⟩ (by decide) (by simp) (by norm_num) (by simp) (by decide) rfl
    fun x => AGA16.gives (z0 := 0) (d := 80) (rup := some 80) (hyp := none) (z := none) (r := some "backarc") (e := "interface")
      ⟨rfl, rfl, rfl, rfl, rfl, rfl, rfl⟩ (by simp [AGA16.evFor]) (by simp [AGA16.evFor]) (by decide) 10 1 rfl).1 0
      (by simp) (by simp) (by simp)⟩

example : ∃ O : ℝ × ℝ → GmmOut, ContinuousNumber (fun x => (O x).lnResp.getD 0 F.nan) ((7.8 : ℝ), (865.1 : ℝ)) :=
  ⟨_, (C116_coppersmith (m₀ := 7.8) (v₀ := 865.1) (d₀ := 80) (e := "interface") (sc := 1)
    (Varies.pair "mag" "v_s30" [("dist_rup", .num 80), ("event_type", .str "interface")] (by decide) _)
    rfl rfl rfl rfl (by decide) (by norm_num)
    fun x => CoppersmithBommer.gives (d := 80) (e := "interface") _ rfl rfl rfl rfl 1).1 0 (by simp) (by simp)⟩

example : ∃ O : ℝ × ℝ → GmmOut, ContinuousEntries (fun x => (O x).lnResp) ((6.5 : ℝ), (20 : ℝ)) :=
  ⟨_, (C116_dbc14 (m₀ := 6.5) (r₀ := 20) (v₀ := 500) (z₀ := 10) (t := "RS")
    (Varies.pair "mag" "dist_jb" [("v_s30", .num 500), ("depth_hyp", .num 10), ("mechanism", .str "RS")] (by decide) _)
    rfl rfl rfl rfl rfl (by decide) (by decide)
    fun x => DBC14.gives' (v := 500) (z := 10) (t := "RS") _ rfl rfl rfl rfl rfl (by decide)).1⟩
