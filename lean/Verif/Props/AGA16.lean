import Verif.Models.AGA16
import Verif.Bounds
import Mathlib.Analysis.SpecialFunctions.Pow.Continuity

/-! # C24, C62: Abrahamson, Gregor & Addo (2016), Coppersmith & Bommer (2014) -/

open Bounds

set_option linter.unusedSimpArgs false

/-- adjust_c4 is stored and nothing else: for every scenario whatsoever, changing it changes
neither the predictions, nor the exception, nor the warnings. -/
theorem C24_adjust_c4_ignored (s : Scenario) (a : AGA16.Adjust) (c4 c4' sc : ℝ) :
    ((AGA16.cls a c4 sc).new s).log = ((AGA16.cls a c4' sc).new s).log ∧
    ((AGA16.cls a c4 sc).new s).res.map (fun i => i.out.gmm) =
      ((AGA16.cls a c4' sc).new s).res.map (fun i => i.out.gmm) := by
  have hok : ∀ c, ParamsOk (AGA16.cls a c sc).params := by
    intro c; change ParamsOk Decls.aga16; decide +kernel
  have key : (AGA16.cls a c4' sc).new s = ((AGA16.cls a c4 sc).new s >>=
      fun i => pure ⟨i.scenario, { i.out with adjustC4 := c4' }⟩) := by
    rw [ModelClass.new, ModelClass.new, ModelClass.newFrom_eq _ (hok _),
      ModelClass.newFrom_eq _ (hok _)]
    simp only [Py.bind_assoc', AGA16.cls, Py.pure_bind']
  rw [key]
  cases h : ((AGA16.cls a c4 sc).new s).res with
  | error e =>
    refine ⟨?_, ?_⟩
    · simp only [Py.bind_eq, Py.bind, h]
    · rw [Py.bind_res_error h]
  | ok i =>
    refine ⟨?_, ?_⟩
    · rw [Py.bind_log_ok h]; simp
    · rw [Py.bind_res_ok h]; rfl

namespace AGA16

theorem evFor_unknown {e : String} (h1 : e ≠ "intraslab") (h2 : e ≠ "interface") :
    evFor e = .other := by simp [evFor, h1, h2]

theorem evFor_interface : evFor "interface" = .interface := by decide

theorem adjustInterface_ok (T : ℚ) : (adjustInterface T).ok := by
  simp only [adjustInterface, npInterpF, fsimp]
  refine ⟨lt_max_of_lt_left (by norm_num), ?_⟩
  apply Interp.ok_of
  · have l1 : Real.log 0.3 < Real.log 0.5 := Real.log_lt_log (by norm_num) (by norm_num)
    have l2 : Real.log 0.5 < Real.log 1 := Real.log_lt_log (by norm_num) (by norm_num)
    have l3 : Real.log 1 < Real.log 2 := Real.log_lt_log (by norm_num) (by norm_num)
    have l4 : Real.log 2 < Real.log 3 := Real.log_lt_log (by norm_num) (by norm_num)
    unfold Interp.Sorted
    simp only [List.pairwise_cons, List.mem_cons, List.not_mem_nil, or_false, forall_eq_or_imp,
      forall_eq]
    refine ⟨⟨?_, ?_, ?_, ?_⟩, ⟨?_, ?_, ?_⟩, ⟨?_, ?_⟩, ?_, ?_, ?_⟩ <;> first | linarith | simp
  · simp
  · intro p hp
    simp only [List.mem_cons, List.not_mem_nil, or_false] at hp
    rcases hp with rfl | rfl | rfl | rfl | rfl <;> simp

theorem adjust_ok {ev : Ev} {a : Adjust} {adj : List F}
    (h : adjust (table.map (·.period)) ev a = pure adj) :
    adj.length = 23 ∧ ∀ x ∈ adj, x.ok := by
  have hinj : ∀ {x y : List F}, (pure x : Py (List F)) = pure y → x = y := by
    intro x y hxy
    have := congrArg Py.res hxy
    simpa using this
  cases a with
  | default =>
    have h := hinj h
    subst h
    by_cases hi : ev = .intraslab
    · rw [if_pos hi]
      refine ⟨by simp; rfl, ?_⟩
      intro x hx; simp only [List.mem_map] at hx
      obtain ⟨_, _, rfl⟩ := hx; simp
    · rw [if_neg hi]
      refine ⟨by simp; rfl, ?_⟩
      intro x hx; simp only [List.mem_map] at hx
      obtain ⟨T, _, rfl⟩ := hx
      exact adjustInterface_ok T
  | scalar x =>
    have h := hinj h
    subst h
    refine ⟨by simp; rfl, ?_⟩
    intro y hy; simp only [List.mem_map] at hy
    obtain ⟨_, _, rfl⟩ := hy; simp
  | array l =>
    simp only [adjust] at h
    split at h
    · rename_i hl
      have h := hinj h
      subst h
      refine ⟨by simp [hl]; rfl, ?_⟩
      intro y hy; simp only [List.mem_map] at hy
      obtain ⟨_, _, rfl⟩ := hy; simp
    · have := congrArg Py.res h
      simp at this

/-- an adjustment that does not depend on the event type beyond intraslab -/
theorem adjust_congr {ev ev' : Ev} (h : ev = .intraslab ↔ ev' = .intraslab) (a : Adjust) :
    adjust (table.map (·.period)) ev a = adjust (table.map (·.period)) ev' a := by
  cases a <;> simp [adjust, h]

end AGA16

/-- Outside the backarc an unknown event type is predicted exactly like an interface event. -/
theorem C24_unknown_like_interface (s s' : Scenario) (m v d : ℝ) (e : String)
    (r : Option String) (hyp z hyp' z' : Option ℝ) (a : AGA16.Adjust) (c4 sc : ℝ) (adj : List F)
    (ha : AGA16.adjust (AGA16.table.map (·.period)) .interface a = pure adj)
    (he1 : e ≠ "intraslab") (he2 : e ≠ "interface") (hr : r ≠ some "backarc")
    (h : AGA16.Source s m v "interface" r (some d) hyp z)
    (h' : AGA16.Source s' m v e r (some d) hyp' z') :
    ∃ o o', Gives (AGA16.cls a c4 sc) s o ∧ Gives (AGA16.cls a c4 sc) s' o' ∧ o = o' := by
  have e1 := AGA16.evFor_unknown he1 he2
  have e2 := AGA16.evFor_interface
  refine ⟨_, _, AGA16.gives (z0 := 0) h (by rw [e2]; rfl) (by rw [e2]; simp) (fun hb => absurd hb hr)
    c4 sc (by rw [e2]; exact ha),
    AGA16.gives (z0 := 0) h' (by rw [e1]; rfl) (by rw [e1]; simp) (fun hb => absurd hb hr)
    c4 sc (by rw [e1, AGA16.adjust_congr (ev' := .interface) (by simp)]; exact ha), ?_⟩
  have key : ∀ c x p, AGA16.lnResp c x (AGA16.input m v d "interface" r 0 sc) p =
      AGA16.lnResp c x (AGA16.input m v d e r 0 sc) p := by
    intro c x p
    simp [AGA16.lnResp, AGA16.input, e1, e2, hr]
  have kp : AGA16.pgaRef adj (AGA16.input m v d "interface" r 0 sc) =
      AGA16.pgaRef adj (AGA16.input m v d e r 0 sc) := by
    simp only [AGA16.pgaRef, key]
  simp only [AGA16.out, kp, key]

/-- In the backarc construction raises NotImplementedError. -/
theorem C24_unknown_backarc (s : Scenario) (m v d : ℝ) (e : String)
    (hyp z : Option ℝ) (a : AGA16.Adjust) (c4 sc : ℝ) (adj : List F)
    (ha : AGA16.adjust (AGA16.table.map (·.period)) .interface a = pure adj)
    (he1 : e ≠ "intraslab") (he2 : e ≠ "interface")
    (h : AGA16.Source s m v e (some "backarc") (some d) hyp z) :
    ((AGA16.cls a c4 sc).new s).res = .error .notImplemented := by
  have e1 := AGA16.evFor_unknown he1 he2
  obtain ⟨hp, hc⟩ := AGA16.checked h
  refine fails_of (by change ParamsOk Decls.aga16; decide +kernel) rfl _ _ hp ?_
  intro dd hdd
  obtain ⟨h1, h2, ⟨w, h3, hw⟩, ⟨w', h4, hw'⟩, h5, h6, h7⟩ := hc dd hdd
  have hb : AGA16.backarcOf .other w' = Py.raise .notImplemented := by
    unfold AGA16.backarcOf
    rw [hw']; simp
  have hadj : AGA16.adjust (AGA16.table.map (·.period)) .other a = pure adj := by
    rw [AGA16.adjust_congr (ev' := .interface) (by simp)]; exact ha
  have hdist : (⟨dd, []⟩ : Scenario).num (if AGA16.Ev.other = .intraslab then "dist_hyp" else "dist_rup") =
      pure (F.ofReal d) := Scenario.num_of h5
  simp only [AGA16.cls, Scenario.getAttr_of h3, Scenario.getAttr_of h4, Py.pure_bind', hw, e1, hadj,
    hdist, Scenario.num_of h1, hb, Py.raise_bind, Py.raise_res]

namespace AGA16

/-! ### Real closed forms -/

/-- site term -/
noncomputable def siteR (vl b n c t12 : ℚ) (v x : ℝ) : ℝ :=
  t12 * Real.log (min v 1000 / vl) + (if v < vl then
    b * (Real.log (Real.exp x + c * (min v 1000 / vl) ^ (n : ℝ)) - Real.log (Real.exp x + c))
    else b * n * Real.log (min v 1000 / vl))

theorem fSite_val (vl b n c t12 : ℚ) (v : ℝ) (y : F) :
    (fSite vl b n c t12 (F.ofReal v) (some (F.exp y))).val = siteR vl b n c t12 v y.val := by
  simp only [fSite, fsimp, siteR]
  split <;> ring

theorem fSite_ok {vl b n c t12 : ℚ} (hvl : 0 < vl) (hc : 0 < c) {v : ℝ} (hv : 0 < v) {y : F} (hy : y.ok) :
    (fSite vl b n c t12 (F.ofReal v) (some (F.exp y))).ok := by
  have h1 : (0 : ℝ) < vl := by exact_mod_cast hvl
  have h2 : (0 : ℝ) < c := by exact_mod_cast hc
  have h3 : 0 < min v 1000 / (vl : ℝ) := div_pos (lt_min hv (by norm_num)) h1
  have h4 := Real.rpow_pos_of_pos h3 (n : ℝ)
  have he := Real.exp_pos y.val
  simp only [fSite, fsimp]
  split
  · exact ⟨⟨⟨h1.ne', h3⟩, hy, by positivity⟩, ⟨hy, ⟨h1.ne', Or.inl h3⟩⟩, by positivity⟩
  · exact ⟨h1.ne', h3⟩

/-- reference condition of a row whose `v_lin` is at most 1000 -/
theorem fSite_ref {vl b n c t12 : ℚ} (h : vl ≤ 1000) (hvl : 0 < vl) (v : F) :
    (fSite vl b n c t12 v none).ok ∧ (fSite vl b n c t12 v none).val =
      (t12 + b * n) * Real.log (1000 / vl) := by
  have h' : (vl : ℝ) ≤ 1000 := by exact_mod_cast h
  have h1 : (0 : ℝ) < vl := by exact_mod_cast hvl
  simp only [fSite, fsimp, min_self]
  rw [if_neg (not_lt.2 h'), if_neg (not_lt.2 h')]
  exact ⟨⟨h1.ne', by positivity⟩, rfl⟩

/-- magnitude term -/
noncomputable def magR (t4 t5 t13 : ℚ) (adj m : ℝ) : ℝ :=
  t4 * min (m - (7.8 + adj)) 0 + t5 * max (m - (7.8 + adj)) 0 + t13 * (10 - m) ^ 2

theorem fMag_val (t4 t5 t13 : ℚ) (adj : F) (m : ℝ) :
    (fMag t4 t5 t13 adj (F.ofReal m)).val = magR t4 t5 t13 adj.val m := by
  simp only [fMag, fsimp, magR]
  by_cases h : m ≤ 7.8 + adj.val
  · rw [if_pos h, min_eq_left (by linarith), max_eq_right (by linarith)]; ring
  · rw [if_neg h, min_eq_right (by linarith), max_eq_left (by linarith)]; ring

theorem fMag_ok (t4 t5 t13 : ℚ) {adj : F} (ha : adj.ok) (m : ℝ) :
    (fMag t4 t5 t13 adj (F.ofReal m)).ok := by
  simp only [fMag, fsimp]
  refine ⟨ha, ?_⟩
  split <;> exact ha

/-- distance dependent part -/
noncomputable def D (c : Row) (ev : Ev) (back : Bool) (m sc d : ℝ) : ℝ :=
  (c.t_2 + c.t_14 * (if ev = .intraslab then 1 else 0) + c.t_3 * (m - 7.8)) *
    Real.log (d + c.c_4 * Real.exp (c.t_9 * (m - 6))) + sc * c.t_6 * d +
  (if back then (if ev = .intraslab then c.t_7 + c.t_8 * Real.log (max d 85 / 40)
    else c.t_15 + c.t_16 * Real.log (max d 100 / 40)) else 0)

/-- rest -/
noncomputable def A (c : Row) (ev : Ev) (adj m z : ℝ) : ℝ :=
  c.t_1 + c.t_4 * adj + c.t_10 * (if ev = .intraslab then 1 else 0) + magR c.t_4 c.t_5 c.t_13 adj m +
  (if ev = .intraslab then c.t_11 * (min z 120 - 60) else 0)

theorem lnResp_val (c : Row) (adj : F) (m v d : ℝ) (e : String) (r : Option String) (z sc : ℝ)
    (p : Option F) : (lnResp c adj (input m v d e r z sc) p).val =
      A c (evFor e) adj.val m z + D c (evFor e) (r = some "backarc") m sc d +
      (fSite c.v_lin c.b c.n c.c c.t_12 (F.ofReal v) p).val := by
  simp only [lnResp, input, F.val_add, fMag_val, fFaba, fDepth]
  simp only [fsimp, A, D]
  by_cases h : evFor e = .intraslab <;> by_cases hr : r = some "backarc" <;>
    simp only [h, hr, if_true, if_false, decide_true, decide_false, fsimp] <;> simp <;> ring

theorem row_facts : ∀ c ∈ table, c.c_4 = 10 ∧ c.t_9 = 0.4 ∧ c.t_3 = 0.1 ∧ c.c = 1.88 ∧ c.n = 1.18 ∧
    0 < c.v_lin ∧ c.v_lin < 1100 ∧ c.t_6 < 0 ∧ c.t_14 ≤ 0 ∧ c.t_2 + 0.17 < 0 ∧
    c.t_6 + max c.t_8 0 / 85 < 0 ∧ c.t_16 ≤ 0 ∧ c.b ≤ 0 ∧ 0 < c.phi ∧ 0 < c.tau := by
  decide +kernel

theorem lnResp_ok {c : Row} (hc : c ∈ table) {adj : F} (ha : adj.ok) (m v : ℝ) {d : ℝ} (hd : 0 ≤ d)
    (e : String) (r : Option String) (z sc : ℝ) {p : Option F}
    (hp : (fSite c.v_lin c.b c.n c.c c.t_12 (F.ofReal v) p).ok) :
    (lnResp c adj (input m v d e r z sc) p).ok := by
  obtain ⟨h1, -⟩ := row_facts c hc
  have hm := fMag_ok c.t_4 c.t_5 c.t_13 ha m
  have he := Real.exp_pos (c.t_9 * (m - 6))
  have hpos : 0 < d + 10 * Real.exp (c.t_9 * (m - 6)) := by positivity
  have h85 : 0 < max d 85 / 40 := div_pos (lt_max_of_lt_right (by norm_num)) (by norm_num)
  have h100 : 0 < max d 100 / 40 := div_pos (lt_max_of_lt_right (by norm_num)) (by norm_num)
  simp only [lnResp, input, fFaba, fDepth, F.ok_add, hp, hm]
  by_cases h : evFor e = .intraslab <;> by_cases hr : r = some "backarc" <;>
    simp only [h, hr, if_true, if_false, decide_true, decide_false, fsimp, h1] <;>
    push_cast <;> simp [ha, hpos, h85, h100]

/-- the distance part strictly decreases -/
theorem D_drop {c : Row} (hc : c ∈ table) (ev : Ev) (back : Bool) {m sc d d' : ℝ} (hm : m ≤ 9.5)
    (hd : 0 ≤ d) (hdd : d < d') (hsc : 0 ≤ sc) (hback : back = true → 1 ≤ sc) :
    D c ev back m sc d' < D c ev back m sc d := by
  obtain ⟨h1, h2, h3, -, -, -, -, h6, h14, hB, h8, h16, -⟩ := row_facts c hc
  have h6' : (c.t_6 : ℝ) < 0 := by exact_mod_cast h6
  have h14' : (c.t_14 : ℝ) ≤ 0 := by exact_mod_cast h14
  have hB' : ((c.t_2 + 0.17 : ℚ) : ℝ) < 0 := by exact_mod_cast hB
  have h8' : ((c.t_6 + max c.t_8 0 / 85 : ℚ) : ℝ) < 0 := by exact_mod_cast h8
  have h16' : (c.t_16 : ℝ) ≤ 0 := by exact_mod_cast h16
  push_cast at hB' h8'
  have hh := Real.exp_pos ((0.4 : ℚ) * (m - 6))
  have hl : Real.log (d + 10 * Real.exp ((0.4 : ℚ) * (m - 6))) <
      Real.log (d' + 10 * Real.exp ((0.4 : ℚ) * (m - 6))) :=
    Real.log_lt_log (by positivity) (by linarith)
  have hslope : (c.t_2 : ℝ) + c.t_14 * (if ev = .intraslab then 1 else 0) + 0.1 * (m - 7.8) < 0 := by
    split <;> linarith
  -- growth of the clipped logarithm
  have lg : ∀ k : ℝ, 0 < k → 0 ≤ Real.log (max d' k / 40) - Real.log (max d k / 40) ∧
      Real.log (max d' k / 40) - Real.log (max d k / 40) ≤ (d' - d) / k := by
    intro k hk
    have p1 : 0 < max d k := lt_max_of_lt_right hk
    have p2 : 0 < max d' k := lt_max_of_lt_right hk
    have hle : max d k ≤ max d' k := max_le_max hdd.le le_rfl
    constructor
    · rw [sub_nonneg]; exact Real.log_le_log (by positivity) (by gcongr)
    · rw [← Real.log_div (by positivity) (by positivity)]
      have e : max d' k / 40 / (max d k / 40) = max d' k / max d k := by field_simp
      rw [e]
      refine (Real.log_le_sub_one_of_pos (by positivity)).trans ?_
      have e2 : max d' k / max d k - 1 = (max d' k - max d k) / max d k := by field_simp
      rw [e2]
      have hdiff : max d' k - max d k ≤ d' - d := by
        rcases le_total d' k with h | h
        · rw [max_eq_right h, max_eq_right (by linarith)]; linarith
        · rw [max_eq_left h]
          have := le_max_left d k
          linarith
      calc (max d' k - max d k) / max d k ≤ (d' - d) / max d k := by gcongr
        _ ≤ (d' - d) / k := by
          apply div_le_div_of_nonneg_left (by linarith) hk (le_max_right _ _)
  simp only [D, h1, h2, h3]
  push_cast at hl ⊢
  have main := mul_lt_mul_of_neg_left hl hslope
  have hs6 : sc * c.t_6 * d' ≤ sc * c.t_6 * d := by
    have : sc * c.t_6 ≤ 0 := mul_nonpos_of_nonneg_of_nonpos hsc h6'.le
    nlinarith
  cases back with
  | false => simp only [Bool.false_eq_true, if_false]; linarith
  | true =>
    have hsc1 := hback rfl
    simp only [if_true]
    split
    · rename_i hev
      simp only [hev, if_true] at main
      obtain ⟨g1, g2⟩ := lg 85 (by norm_num)
      have hmx : (c.t_8 : ℝ) ≤ max (c.t_8 : ℝ) 0 := le_max_left _ _
      have hm0 : 0 ≤ max (c.t_8 : ℝ) 0 := le_max_right _ _
      have b1 : (c.t_8 : ℝ) * (Real.log (max d' 85 / 40) - Real.log (max d 85 / 40)) ≤
          max (c.t_8 : ℝ) 0 * ((d' - d) / 85) :=
        (mul_le_mul_of_nonneg_right hmx g1).trans (mul_le_mul_of_nonneg_left g2 hm0)
      have b2 : (sc * c.t_6) * (d' - d) ≤ c.t_6 * (d' - d) := by
        apply mul_le_mul_of_nonneg_right _ (by linarith)
        nlinarith
      have b3 : (c.t_6 + max (c.t_8 : ℝ) 0 / 85) * (d' - d) ≤ 0 :=
        mul_nonpos_of_nonpos_of_nonneg h8'.le (by linarith)
      have b4 : max (c.t_8 : ℝ) 0 * ((d' - d) / 85) = max (c.t_8 : ℝ) 0 / 85 * (d' - d) := by ring
      nlinarith
    · rename_i hev
      simp only [hev, if_false] at main
      obtain ⟨g1, -⟩ := lg 100 (by norm_num)
      have : (c.t_16 : ℝ) * (Real.log (max d' 100 / 40) - Real.log (max d 100 / 40)) ≤ 0 :=
        mul_nonpos_of_nonpos_of_nonneg h16' g1
      nlinarith

/-- the first row: PGA -/
theorem head_eq : ∃ r ∈ table, table.head? = some r ∧ r.v_lin = 865.1 ∧ r.b = -1.186 :=
  ⟨_, List.mem_cons_self, rfl, by norm_num, by norm_num⟩

/-- reference PGA -/
theorem pgaRef_eq {r : Row} (hr : table.head? = some r) {a0 : F} {adj : List F} (i : In) :
    pgaRef (a0 :: adj) i = F.exp (lnResp r a0 i none) := by
  cases ht : table with
  | nil => rw [ht] at hr; simp at hr
  | cons b l =>
    rw [ht] at hr
    simp at hr; subst hr
    simp [pgaRef, ht]

theorem forall₂_zipWith {α β : Type} {rel : F → F → Prop} {f g : α → β → F} :
    ∀ (l : List α) (l' : List β), (∀ c ∈ l, ∀ a ∈ l', rel (f c a) (g c a)) →
      List.Forall₂ rel (List.zipWith f l l') (List.zipWith g l l')
  | [], _, _ => by simp
  | _ :: _, [], _ => by simp
  | c :: l, a :: l', h => by
    simp only [List.zipWith_cons_cons]
    exact List.Forall₂.cons (h c (by simp) a (by simp))
      (forall₂_zipWith l l' fun c hc a ha => h c (by simp [hc]) a (by simp [ha]))

/-- what the theorems below need about the reference PGA -/
theorem ref_ok {adj : List F} (hl : adj.length = 23) (hok : ∀ x ∈ adj, x.ok) (m v : ℝ) {d : ℝ}
    (hd : 0 ≤ d) (e : String) (r : Option String) (z sc : ℝ) :
    ∃ y : F, y.ok ∧ pgaRef adj (input m v d e r z sc) = F.exp y := by
  obtain ⟨r0, hr0, hh, hvl, -⟩ := head_eq
  match adj, hl with
  | a0 :: adj, _ =>
    refine ⟨_, ?_, pgaRef_eq hh _⟩
    obtain ⟨-, -, -, -, -, hv0, -⟩ := row_facts r0 hr0
    exact lnResp_ok hr0 (hok a0 (by simp)) m v hd e r z sc
      (fSite_ref (by rw [hvl]; norm_num) hv0 _).1

end AGA16

/-- AGA16 is defined at all 23 rows: any magnitude, non-negative distance, positive velocity,
any adjustments that broadcast, any known event type and region. -/
theorem C62_defined (s : Scenario) (m v d z0 : ℝ) (e : String) (r : Option String)
    (rup hyp z : Option ℝ) (a : AGA16.Adjust) (c4 sc : ℝ) (adj : List F)
    (hv : 0 < v) (hd0 : 0 ≤ d)
    (h : AGA16.Source s m v e r rup hyp z)
    (hd : (if AGA16.evFor e = .intraslab then hyp else rup) = some d)
    (hz : AGA16.evFor e = .intraslab → z = some z0)
    (hev : r = some "backarc" → AGA16.evFor e ≠ .other)
    (ha : AGA16.adjust (AGA16.table.map (·.period)) (AGA16.evFor e) a = pure adj) :
    ∃ o ss, Gives (AGA16.cls a c4 sc) s o ∧ o.gmm.lnStd = some ss ∧ o.gmm.lnResp.length = 23 ∧
      (∀ y ∈ o.gmm.lnResp, y.ok) ∧ ss.length = 23 ∧ F.AllPos ss := by
  obtain ⟨hl, hok⟩ := AGA16.adjust_ok ha
  refine ⟨_, _, AGA16.gives h hd hz hev c4 sc ha, rfl, ?_, ?_, rfl, ?_⟩
  · simp only [AGA16.out, List.length_zipWith, hl]; rfl
  · obtain ⟨y0, hy0, hy⟩ := AGA16.ref_ok hl hok m v hd0 e r z0 sc
    intro y hy'
    simp only [AGA16.out, hy] at hy'
    obtain ⟨c, hc, x, hx, rfl⟩ : ∃ c ∈ AGA16.table, ∃ x ∈ adj,
        AGA16.lnResp c x (AGA16.input m v d e r z0 sc) (some (F.exp y0)) = y := by
      rw [← List.map_uncurry_zip_eq_zipWith, List.mem_map] at hy'
      obtain ⟨⟨c, x⟩, hcx, rfl⟩ := hy'
      exact ⟨c, (List.of_mem_zip hcx).1, x, (List.of_mem_zip hcx).2, rfl⟩
    obtain ⟨-, -, -, h4, -, h5, -⟩ := AGA16.row_facts c hc
    exact AGA16.lnResp_ok hc (hok x hx) m v hd0 e r z0 sc
      (AGA16.fSite_ok h5 (by rw [h4]; norm_num) hv hy0)
  · intro y hy
    simp only [List.mem_map] at hy
    obtain ⟨c, hc, rfl⟩ := hy
    obtain ⟨-, -, -, -, -, -, -, -, -, -, -, -, -, hp, ht⟩ := AGA16.row_facts c hc
    have hp' : (0 : ℝ) < c.phi := by exact_mod_cast hp
    have ht' : (0 : ℝ) < c.tau := by exact_mod_cast ht
    simp only [AGA16.lnStd, fsimp]
    exact ⟨by positivity, Real.sqrt_pos.2 (by positivity)⟩

/-- AbrahamsonGregorAddo2016's reference pass, with `np.nan` for the reference acceleration, is
defined exactly at the rows with `v_lin` up to 1000 m/s; it is undefined at the three others
(0.05, 0.075 and 0.1 s).  The row that is used, PGA, is one of the former, so the reference
acceleration and every prediction are defined all the same. -/
theorem C46_aga16_defined (s : Scenario) (m v d z0 : ℝ) (e : String) (r : Option String)
    (rup hyp z : Option ℝ) (a : AGA16.Adjust) (c4 sc : ℝ) (adj : List F)
    (hv : 0 < v) (hd0 : 0 ≤ d)
    (h : AGA16.Source s m v e r rup hyp z)
    (hd : (if AGA16.evFor e = .intraslab then hyp else rup) = some d)
    (hz : AGA16.evFor e = .intraslab → z = some z0)
    (hev : r = some "backarc" → AGA16.evFor e ≠ .other)
    (ha : AGA16.adjust (AGA16.table.map (·.period)) (AGA16.evFor e) a = pure adj) :
    (∀ c ∈ AGA16.table, ∀ x ∈ adj, ((AGA16.lnResp c x (AGA16.input m v d e r z0 sc) none).ok ↔
      c.period ∉ [(0.05 : ℚ), 0.075, 0.1])) ∧
    (AGA16.pgaRef adj (AGA16.input m v d e r z0 sc)).ok ∧
    ∃ o, Gives (AGA16.cls a c4 sc) s o ∧ o.gmm.lnResp.length = 23 ∧ ∀ y ∈ o.gmm.lnResp, y.ok := by
  obtain ⟨hl, hok⟩ := AGA16.adjust_ok ha
  refine ⟨fun c hc x hx => ?_, ?_, ?_⟩
  · have hrow : ∀ c ∈ AGA16.table, 1000 < c.v_lin ↔ c.period ∈ [(0.05 : ℚ), 0.075, 0.1] := by decide +kernel
    obtain ⟨-, -, -, -, -, hv0, -⟩ := AGA16.row_facts c hc
    rw [← hrow c hc, not_lt]
    constructor
    · intro hy
      by_contra hlt
      rw [not_le] at hlt
      have hlt' : (1000 : ℝ) < c.v_lin := by exact_mod_cast hlt
      simp only [AGA16.lnResp, F.ok_add, and_assoc] at hy
      obtain ⟨-, -, -, -, -, -, hs, -⟩ := hy
      simp only [AGA16.fSite, fsimp] at hs
      rw [if_pos hlt'] at hs
      exact hs
    · intro hle
      exact AGA16.lnResp_ok hc (hok x hx) m v hd0 e r z0 sc (AGA16.fSite_ref hle hv0 _).1
  · obtain ⟨y, hy, e⟩ := AGA16.ref_ok hl hok m v hd0 e r z0 sc
    rw [e]; simpa using hy
  · obtain ⟨o, -, h1, -, h2, h3, -⟩ := C62_defined s m v d z0 e r rup hyp z a c4 sc adj hv hd0 h hd hz hev ha
    exact ⟨o, h1, h2, h3⟩

/-- On rock (v_s30 ≥ 1100 m/s) every prediction strictly decreases with the distance the
event type uses, for every magnitude up to 9.5, any adjust_c1, any region, and non-negative
scale_atten (at least 1 in the backarc). -/
theorem C62_attenuates_rock (s s' : Scenario) (m v d d' z0 : ℝ) (e : String) (r : Option String)
    (rup hyp z rup' hyp' : Option ℝ) (a : AGA16.Adjust) (c4 sc : ℝ) (adj : List F)
    (hm : m ≤ 9.5) (hv : 1100 ≤ v) (hd0 : 0 ≤ d) (hdd : d < d') (hsc : 0 ≤ sc)
    (hback : r = some "backarc" → 1 ≤ sc)
    (h : AGA16.Source s m v e r rup hyp z) (h' : AGA16.Source s' m v e r rup' hyp' z)
    (hd : (if AGA16.evFor e = .intraslab then hyp else rup) = some d)
    (hd' : (if AGA16.evFor e = .intraslab then hyp' else rup') = some d')
    (hz : AGA16.evFor e = .intraslab → z = some z0)
    (hev : r = some "backarc" → AGA16.evFor e ≠ .other)
    (ha : AGA16.adjust (AGA16.table.map (·.period)) (AGA16.evFor e) a = pure adj) :
    ∃ o o', Gives (AGA16.cls a c4 sc) s o ∧ Gives (AGA16.cls a c4 sc) s' o' ∧
      List.Forall₂ F.Drops o.gmm.lnResp o'.gmm.lnResp := by
  obtain ⟨hl, hok⟩ := AGA16.adjust_ok ha
  refine ⟨_, _, AGA16.gives h hd hz hev c4 sc ha, AGA16.gives h' hd' hz hev c4 sc ha, ?_⟩
  obtain ⟨y0, hy0, hy⟩ := AGA16.ref_ok hl hok m v hd0 e r z0 sc
  obtain ⟨y1, hy1, hy'⟩ := AGA16.ref_ok hl hok m v (d := d') (by linarith) e r z0 sc
  simp only [AGA16.out, hy, hy']
  refine AGA16.forall₂_zipWith _ _ fun c hc x hx => ?_
  obtain ⟨-, -, -, h4, -, h5, h6, -⟩ := AGA16.row_facts c hc
  have hv0 : 0 < v := by linarith
  have h6' : (c.v_lin : ℝ) < 1100 := by exact_mod_cast h6
  refine ⟨AGA16.lnResp_ok hc (hok x hx) m v hd0 e r z0 sc (AGA16.fSite_ok h5 (by rw [h4]; norm_num) hv0 hy0),
    AGA16.lnResp_ok hc (hok x hx) m v (by linarith) e r z0 sc
      (AGA16.fSite_ok h5 (by rw [h4]; norm_num) hv0 hy1), ?_⟩
  rw [AGA16.lnResp_val, AGA16.lnResp_val, AGA16.fSite_val, AGA16.fSite_val]
  have hD := AGA16.D_drop hc (AGA16.evFor e) (decide (r = some "backarc")) hm hd0 hdd hsc
    (by simpa using hback)
  have hs : ∀ x, AGA16.siteR c.v_lin c.b c.n c.c c.t_12 v x = AGA16.siteR c.v_lin c.b c.n c.c c.t_12 v 0 := by
    intro x
    simp only [AGA16.siteR, if_neg (not_lt.2 (by linarith : (c.v_lin : ℝ) ≤ v))]
  rw [hs y0.val, hs y1.val]
  linarith

namespace AGA16

theorem head_resp {r0 : Row} (hh : table.head? = some r0) (a0 : F) (adj : List F)
    (i : In) : ((out (a0 :: adj) i).lnResp.getD 0 F.nan) =
      lnResp r0 a0 i (some (F.exp (lnResp r0 a0 i none))) := by
  rw [out, pgaRef_eq hh]
  cases ht : table with
  | nil => rw [ht] at hh; simp at hh
  | cons b l => rw [ht] at hh; simp at hh; subst hh; simp

/-- The PGA row's surface value grows with its reference value, `v_s30 ≥ 150`. -/
theorem pga_surface' {vl b n c t12 : ℚ} (hvl : vl = 865.1) (hb : b = -1.186) (h4 : c = 1.88)
    (h5 : n = 1.18) {v x x' : ℝ} (hv : 150 ≤ v) (hx : x' < x) :
    x' + siteR vl b n c t12 v x' <
      x + siteR vl b n c t12 v x := by
  simp only [siteR, hvl, hb, h4, h5]
  by_cases h : v < ((865.1 : ℚ) : ℝ)
  · rw [if_pos h, if_pos h]
    push_cast at h ⊢
    rw [min_eq_left (by linarith)]
    have hρ : (0.35 : ℝ) ^ 2 ≤ (v / 865.1) ^ (1.18 : ℝ) := by
      have h1 : (0.35 : ℝ) ^ 2 ≤ (150 / 865.1 : ℝ) ^ (1.18 : ℝ) := by
        have e : (1.18 : ℝ) = ((59 : ℕ) : ℝ) / ((50 : ℕ) : ℝ) := by norm_num
        rw [e]
        apply le_rpow_of (by norm_num) (by norm_num) 59 50 (by norm_num)
        norm_num
      refine h1.trans (Real.rpow_le_rpow (by norm_num) ?_ (by norm_num))
      gcongr
    have := log_ratio_slope hx.le (by norm_num : (0 : ℝ) < 1.88) (by norm_num : (0 : ℝ) ≤ 0.35) hρ
      (by norm_num : (0 : ℝ) ≤ 0.5) (by norm_num)
    nlinarith
  · rw [if_neg h, if_neg h]; linarith

theorem pga_surface {r0 : Row} (hr0 : r0 ∈ table) (hvl : r0.v_lin = 865.1) (hb : r0.b = -1.186)
    {v x x' : ℝ} (hv : 150 ≤ v) (hx : x' < x) :
    x' + siteR r0.v_lin r0.b r0.n r0.c r0.t_12 v x' <
      x + siteR r0.v_lin r0.b r0.n r0.c r0.t_12 v x := by
  obtain ⟨-, -, -, h4, h5, -⟩ := row_facts r0 hr0
  exact pga_surface' hvl hb h4 h5 hv hx

end AGA16

/-- PGA strictly decreases with distance on every site with v_s30 ≥ 150 m/s, soil
nonlinearity included. -/
theorem C62_attenuates_pga (s s' : Scenario) (m v d d' z0 : ℝ) (e : String) (r : Option String)
    (rup hyp z rup' hyp' : Option ℝ) (a : AGA16.Adjust) (c4 sc : ℝ) (adj : List F)
    (hm : m ≤ 9.5) (hv : 150 ≤ v) (hd0 : 0 ≤ d) (hdd : d < d') (hsc : 0 ≤ sc)
    (hback : r = some "backarc" → 1 ≤ sc)
    (h : AGA16.Source s m v e r rup hyp z) (h' : AGA16.Source s' m v e r rup' hyp' z)
    (hd : (if AGA16.evFor e = .intraslab then hyp else rup) = some d)
    (hd' : (if AGA16.evFor e = .intraslab then hyp' else rup') = some d')
    (hz : AGA16.evFor e = .intraslab → z = some z0)
    (hev : r = some "backarc" → AGA16.evFor e ≠ .other)
    (ha : AGA16.adjust (AGA16.table.map (·.period)) (AGA16.evFor e) a = pure adj) :
    ∃ o o', Gives (AGA16.cls a c4 sc) s o ∧ Gives (AGA16.cls a c4 sc) s' o' ∧
      F.Drops (o.gmm.lnResp.getD 0 F.nan) (o'.gmm.lnResp.getD 0 F.nan) := by
  obtain ⟨hl, hok⟩ := AGA16.adjust_ok ha
  refine ⟨_, _, AGA16.gives h hd hz hev c4 sc ha, AGA16.gives h' hd' hz hev c4 sc ha, ?_⟩
  obtain ⟨r0, hr0, hh, hvl, hb⟩ := AGA16.head_eq
  match adj, hl with
  | a0 :: adj, _ =>
  rw [AGA16.head_resp hh, AGA16.head_resp hh]
  obtain ⟨-, -, -, h4, -, h5, -⟩ := AGA16.row_facts r0 hr0
  have hd0' : 0 ≤ d' := by linarith
  have hv0 : 0 < v := by linarith
  have ha0 := hok a0 (by simp)
  obtain ⟨hr1, hr2⟩ := AGA16.fSite_ref (b := r0.b) (n := r0.n) (c := r0.c) (t12 := r0.t_12)
    (v := F.ofReal v) (by rw [hvl]; norm_num : r0.v_lin ≤ 1000) h5 
  have q0 := AGA16.lnResp_ok hr0 ha0 m v hd0 e r z0 sc (p := none) hr1
  have q1 := AGA16.lnResp_ok hr0 ha0 m v hd0' e r z0 sc (p := none) hr1
  refine ⟨AGA16.lnResp_ok hr0 ha0 m v hd0 e r z0 sc (AGA16.fSite_ok h5 (by rw [h4]; norm_num) hv0 q0),
    AGA16.lnResp_ok hr0 ha0 m v hd0' e r z0 sc (AGA16.fSite_ok h5 (by rw [h4]; norm_num) hv0 q1), ?_⟩
  have hD := AGA16.D_drop hr0 (AGA16.evFor e) (decide (r = some "backarc")) hm hd0 hdd hsc
    (by simpa using hback)
  have w0 := AGA16.lnResp_val r0 a0 m v d e r z0 sc none
  have w1 := AGA16.lnResp_val r0 a0 m v d' e r z0 sc none
  rw [AGA16.lnResp_val, AGA16.lnResp_val, AGA16.fSite_val, AGA16.fSite_val]
  have := AGA16.pga_surface hr0 hvl hb hv (x := (AGA16.lnResp r0 a0 (AGA16.input m v d e r z0 sc) none).val)
    (x' := (AGA16.lnResp r0 a0 (AGA16.input m v d' e r z0 sc) none).val) (by rw [w0, w1]; linarith)
  linarith

namespace AGA16

theorem length_out {adj : List F} (hl : adj.length = 23) (i : In) :
    (out adj i).lnResp.length = 23 := by
  simp only [out, List.length_zipWith, hl]; rfl

theorem getD_out {adj : List F} (hl : adj.length = 23) (i : In) {k : ℕ} (hk : k < 23) :
    (out adj i).lnResp.getD k F.nan =
      lnResp (table[k]'hk) (adj[k]'(by omega)) i (some (pgaRef adj i)) := by
  have h1 : k < table.length := hk
  have h2 : k < adj.length := by omega
  simp only [out, List.getD_eq_getElem?_getD, List.getElem?_zipWith, List.getElem?_eq_getElem h1,
    List.getElem?_eq_getElem h2, Option.map₂_some_some, Option.getD_some]
  rfl

theorem magR_cont (t4 t5 t13 : ℚ) (adj : ℝ) : Continuous fun m => magR t4 t5 t13 adj m := by
  unfold magR; fun_prop

theorem A_cont (c : Row) (ev : Ev) (adj z : ℝ) : Continuous fun m => A c ev adj m z := by
  unfold A
  exact (continuous_const.add (magR_cont ..)).add continuous_const

theorem D_cont {c : Row} (hc : c ∈ table) (ev : Ev) (back : Bool) (sc : ℝ) {d : ℝ} (hd : 0 ≤ d) :
    Continuous fun m => D c ev back m sc d := by
  obtain ⟨h1, -⟩ := row_facts c hc
  unfold D
  refine ((Continuous.mul (by fun_prop) ?_).add continuous_const).add continuous_const
  refine Continuous.log (by fun_prop) fun m => ?_
  have := Real.exp_pos (c.t_9 * (m - 6))
  rw [h1]; push_cast
  positivity

theorem siteR_cont {vl b n c t12 : ℚ} (hvl : 0 < vl) (hc : 0 < c) {v : ℝ} (hv : 0 < v) :
    Continuous fun x => siteR vl b n c t12 v x := by
  have h1 : (0 : ℝ) < vl := by exact_mod_cast hvl
  have h2 : (0 : ℝ) < c := by exact_mod_cast hc
  have h3 : 0 < min v 1000 / (vl : ℝ) := div_pos (lt_min hv (by norm_num)) h1
  have h4 := Real.rpow_pos_of_pos h3 (n : ℝ)
  unfold siteR
  by_cases h : v < vl
  · simp only [if_pos h]
    refine continuous_const.add (continuous_const.mul (Continuous.sub ?_ ?_))
    · refine Continuous.log (by fun_prop) fun x => ?_
      have := Real.exp_pos x
      positivity
    · refine Continuous.log (by fun_prop) fun x => ?_
      have := Real.exp_pos x
      positivity
  · simp only [if_neg h]; exact continuous_const

/-- the site term over all positive velocities, for `v_lin ≤ 1000` -/
theorem siteR_cont_v {vl b n c t12 : ℚ} (hvl : 0 < vl) (hvl' : vl ≤ 1000) (hc : 0 < c) (x : ℝ) :
    ContinuousOn (fun v => siteR vl b n c t12 v x) (Set.Ioi 0) := by
  have h1 : (0 : ℝ) < vl := by exact_mod_cast hvl
  have h1' : (vl : ℝ) ≤ 1000 := by exact_mod_cast hvl'
  have h2 : (0 : ℝ) < c := by exact_mod_cast hc
  have hx := Real.exp_pos x
  have e : ∀ v ∈ Set.Ioi (0 : ℝ), siteR vl b n c t12 v x =
      t12 * Real.log (min v 1000 / vl) +
      (b * (Real.log (Real.exp x + c * (min (min v 1000 / vl) 1) ^ (n : ℝ)) - Real.log (Real.exp x + c)) +
        b * n * Real.log (max (min v 1000 / vl) 1)) := by
    intro v hv
    simp only [siteR]
    congr 1
    by_cases h : v < vl
    · have : min v 1000 / (vl : ℝ) ≤ 1 := (div_le_one h1).2 ((min_le_left _ _).trans h.le)
      rw [if_pos h, min_eq_left this, max_eq_right this]; simp
    · have : 1 ≤ min v 1000 / (vl : ℝ) := (one_le_div h1).2 (le_min (not_lt.1 h) h1')
      rw [if_neg h, min_eq_right this, max_eq_left this]; simp
  refine ContinuousOn.congr ?_ e
  have hr : ∀ v ∈ Set.Ioi (0 : ℝ), 0 < min v 1000 / (vl : ℝ) := fun v hv =>
    div_pos (lt_min hv (by norm_num)) h1
  have cr : ContinuousOn (fun v => min v 1000 / (vl : ℝ)) (Set.Ioi 0) := by fun_prop
  refine ContinuousOn.add ?_ (ContinuousOn.add ?_ ?_)
  · exact continuousOn_const.mul (cr.log fun v hv => (hr v hv).ne')
  · refine continuousOn_const.mul (ContinuousOn.sub (ContinuousOn.log ?_ ?_) continuousOn_const)
    · refine continuousOn_const.add (continuousOn_const.mul ?_)
      refine ContinuousOn.rpow (cr.inf continuousOn_const) continuousOn_const ?_
      intro v hv; left; exact (lt_min (hr v hv) one_pos).ne'
    · intro v hv
      have := Real.rpow_pos_of_pos (lt_min (hr v hv) one_pos) (n : ℝ)
      positivity
  · refine continuousOn_const.mul (ContinuousOn.log (cr.sup continuousOn_const) ?_)
    intro v hv
    exact (lt_max_of_lt_right one_pos).ne'

/-- the step of the site term at a `v_lin` above 1000 -/
theorem siteR_step {vl b n c t12 : ℚ} (hvl : 1000 < vl) (hn : 0 < n) (hc : 0 < c) (hb : b < 0)
    {v v' : ℝ} (hv : 1000 ≤ v) (hvv : v < vl) (hv' : (vl : ℝ) ≤ v') (x : ℝ) :
    siteR vl b n c t12 v' x - siteR vl b n c t12 v x =
      -b * Real.log ((Real.exp x + c * (1000 / vl) ^ (n : ℝ)) /
        ((Real.exp x + c) * (1000 / vl) ^ (n : ℝ))) ∧
    siteR vl b n c t12 v x < siteR vl b n c t12 v' x := by
  have h1 : (1000 : ℝ) < vl := by exact_mod_cast hvl
  have h2 : (0 : ℝ) < c := by exact_mod_cast hc
  have h3 : (0 : ℝ) < n := by exact_mod_cast hn
  have h4 : (b : ℝ) < 0 := by exact_mod_cast hb
  have hx := Real.exp_pos x
  have hr : (0 : ℝ) < 1000 / vl := by positivity
  have hρ : 0 < (1000 / vl : ℝ) ^ (n : ℝ) := Real.rpow_pos_of_pos hr _
  have hρ1 : (1000 / vl : ℝ) ^ (n : ℝ) < 1 :=
    Real.rpow_lt_one hr.le (by rw [div_lt_one (by linarith)]; exact h1) h3
  have e : siteR vl b n c t12 v' x - siteR vl b n c t12 v x =
      -b * Real.log ((Real.exp x + c * (1000 / vl) ^ (n : ℝ)) /
        ((Real.exp x + c) * (1000 / vl) ^ (n : ℝ))) := by
    rw [Real.log_div (by positivity) (by positivity), Real.log_mul (by positivity) (by positivity),
      Real.log_rpow hr]
    simp only [siteR]
    rw [if_pos hvv, if_neg (not_lt.2 hv'), min_eq_right hv, min_eq_right (by linarith)]
    ring
  refine ⟨e, ?_⟩
  have : 0 < Real.log ((Real.exp x + c * (1000 / vl) ^ (n : ℝ)) /
        ((Real.exp x + c) * (1000 / vl) ^ (n : ℝ))) := by
    apply Real.log_pos
    rw [one_lt_div (by positivity)]
    nlinarith
  nlinarith

/-- the rows whose `v_lin` exceeds 1000 m/s are those of 0.05, 0.075 and 0.1 s -/
theorem vlin_rows : ∀ c ∈ table, (1000 < c.v_lin ↔ c.period ∈ [(0.05 : ℚ), 0.075, 0.1]) ∧
    (1000 < c.v_lin → c.b < 0) := by decide +kernel

/-- the reference PGA prediction does not depend on the site -/
theorem ref_eq {r0 : Row} (hr0 : r0 ∈ table) (hvl : r0.v_lin = 865.1) {a0 : F} (m v v' d : ℝ)
    (e : String) (r : Option String) (z sc : ℝ) :
    (lnResp r0 a0 (input m v d e r z sc) none).val = (lnResp r0 a0 (input m v' d e r z sc) none).val := by
  obtain ⟨-, -, -, -, -, h5, -⟩ := row_facts r0 hr0
  rw [lnResp_val, lnResp_val, (fSite_ref (by rw [hvl]; norm_num) h5 _).2,
    (fSite_ref (by rw [hvl]; norm_num) h5 _).2]

/-- at 1000 m/s and above the PGA prediction is the reference PGA -/
theorem pga_rock {r0 : Row} (hr0 : r0 ∈ table) (hvl : r0.v_lin = 865.1) {a0 : F} (m : ℝ) {v : ℝ} (hv : 1000 ≤ v) (d : ℝ)
    (e : String) (r : Option String) (z sc : ℝ) (y : F) :
    (lnResp r0 a0 (input m v d e r z sc) (some (F.exp y))).val =
      (lnResp r0 a0 (input m v d e r z sc) none).val := by
  obtain ⟨-, -, -, -, -, h5, -⟩ := row_facts r0 hr0
  rw [lnResp_val, lnResp_val, (fSite_ref (by rw [hvl]; norm_num) h5 _).2, fSite_val]
  have : ¬ v < (r0.v_lin : ℝ) := by rw [hvl]; push_cast; linarith
  simp only [siteR, if_neg this, min_eq_right hv]
  ring

theorem resp_val {r0 : Row} (hh : table.head? = some r0) {a0 : F} {adj : List F}
    (hl : (a0 :: adj).length = 23) (m v d : ℝ) (e : String) (r : Option String) (z sc : ℝ)
    {k : ℕ} (hk : k < 23) :
    (((out (a0 :: adj) (input m v d e r z sc)).lnResp.getD k F.nan).val) =
      A (table[k]'hk) (evFor e) ((a0 :: adj)[k]'(by omega)).val m z +
      D (table[k]'hk) (evFor e) (r = some "backarc") m sc d +
      siteR (table[k]'hk).v_lin (table[k]'hk).b (table[k]'hk).n (table[k]'hk).c (table[k]'hk).t_12 v
        (lnResp r0 a0 (input m v d e r z sc) none).val := by
  rw [getD_out hl _ hk, pgaRef_eq hh, lnResp_val, fSite_val]

end AGA16

/-- Every prediction is continuous in magnitude, everywhere (in particular at the break
7.8 + adjust_c1). -/
theorem C62_continuous_mag (S : ℝ → Scenario) (v d z0 : ℝ) (e : String) (r : Option String)
    (rup hyp z : Option ℝ) (a : AGA16.Adjust) (c4 sc : ℝ) (adj : List F)
    (hv : 0 < v) (hd0 : 0 ≤ d)
    (h : ∀ m, AGA16.Source (S m) m v e r rup hyp z)
    (hd : (if AGA16.evFor e = .intraslab then hyp else rup) = some d)
    (hz : AGA16.evFor e = .intraslab → z = some z0)
    (hev : r = some "backarc" → AGA16.evFor e ≠ .other)
    (ha : AGA16.adjust (AGA16.table.map (·.period)) (AGA16.evFor e) a = pure adj) :
    ∃ O : ℝ → AGA16.Out, (∀ m, Gives (AGA16.cls a c4 sc) (S m) (O m)) ∧
      ∀ i < 23, Continuous fun m => ((O m).gmm.lnResp.getD i F.nan).val := by
  obtain ⟨hl, hok⟩ := AGA16.adjust_ok ha
  refine ⟨_, fun m => AGA16.gives (h m) hd hz hev c4 sc ha, fun i hi => ?_⟩
  obtain ⟨r0, hr0, hh, hvl, -⟩ := AGA16.head_eq
  match adj, hl with
  | a0 :: adj, hl =>
  simp only [AGA16.resp_val hh hl _ _ _ _ _ _ _ hi]
  have hmem : AGA16.table[i]'hi ∈ AGA16.table := List.getElem_mem _
  obtain ⟨-, -, -, h4, -, h5, -⟩ := AGA16.row_facts _ hmem
  refine ((AGA16.A_cont ..).add (AGA16.D_cont hmem _ _ _ hd0)).add ?_
  refine (AGA16.siteR_cont h5 (by rw [h4]; norm_num) hv).comp ?_
  obtain ⟨-, -, -, -, -, h5', -⟩ := AGA16.row_facts r0 hr0
  simp only [AGA16.lnResp_val, (AGA16.fSite_ref (by rw [hvl]; norm_num) h5' _).2]
  exact ((AGA16.A_cont ..).add (AGA16.D_cont hr0 _ _ _ hd0)).add continuous_const

/-- In v_s30 the predictions are continuous over all positive velocities, except at the
periods 0.05, 0.075 and 0.1 s. -/
theorem C62_continuous_vs30 (S : ℝ → Scenario) (m d z0 : ℝ) (e : String) (r : Option String)
    (rup hyp z : Option ℝ) (a : AGA16.Adjust) (c4 sc : ℝ) (adj : List F)
    (h : ∀ v, AGA16.Source (S v) m v e r rup hyp z)
    (hd : (if AGA16.evFor e = .intraslab then hyp else rup) = some d)
    (hz : AGA16.evFor e = .intraslab → z = some z0)
    (hev : r = some "backarc" → AGA16.evFor e ≠ .other)
    (ha : AGA16.adjust (AGA16.table.map (·.period)) (AGA16.evFor e) a = pure adj) :
    ∃ O : ℝ → AGA16.Out, (∀ v, Gives (AGA16.cls a c4 sc) (S v) (O v)) ∧
      ∀ i (hi : i < 23), (AGA16.table[i]'hi).period ∉ [(0.05 : ℚ), 0.075, 0.1] →
        ContinuousOn (fun v => ((O v).gmm.lnResp.getD i F.nan).val) (Set.Ioi 0) := by
  obtain ⟨hl, hok⟩ := AGA16.adjust_ok ha
  refine ⟨_, fun v => AGA16.gives (h v) hd hz hev c4 sc ha, fun i hi hT => ?_⟩
  obtain ⟨r0, hr0, hh, hvl, -⟩ := AGA16.head_eq
  match adj, hl with
  | a0 :: adj, hl =>
  simp only [AGA16.resp_val hh hl _ _ _ _ _ _ _ hi]
  have hmem : AGA16.table[i]'hi ∈ AGA16.table := List.getElem_mem _
  obtain ⟨-, -, -, h4, -, h5, -⟩ := AGA16.row_facts _ hmem
  have hvl' : (AGA16.table[i]'hi).v_lin ≤ 1000 := by
    by_contra hn
    exact hT ((AGA16.vlin_rows _ hmem).1.1 (not_le.1 hn))
  simp only [AGA16.ref_eq hr0 hvl m _ 0 d e r z0 sc]
  exact continuousOn_const.add (AGA16.siteR_cont_v h5 hvl' (by rw [h4]; norm_num) _)

/-- At 0.05, 0.075 and 0.1 s (v_lin above 1000 m/s) the prediction jumps *up* as v_s30 passes
v_lin: it is constant from 1000 m/s to v_lin and from v_lin on, and the two values differ by
-b·ln((p + c ρ)/((p + c) ρ)) > 0 with p the predicted PGA and ρ = (1000/v_lin)^n. -/
theorem C62_step (s s' : Scenario) (m v v' d z0 : ℝ) (e : String) (r : Option String)
    (rup hyp z : Option ℝ) (a : AGA16.Adjust) (c4 sc : ℝ) (adj : List F) (i : ℕ) (hi : i < 23)
    (hT : (AGA16.table[i]'hi).period ∈ [(0.05 : ℚ), 0.075, 0.1])
    (hv : 1000 ≤ v) (hvv : v < (AGA16.table[i]'hi).v_lin) (hv' : (AGA16.table[i]'hi).v_lin ≤ v')
    (h : AGA16.Source s m v e r rup hyp z) (h' : AGA16.Source s' m v' e r rup hyp z)
    (hd : (if AGA16.evFor e = .intraslab then hyp else rup) = some d)
    (hz : AGA16.evFor e = .intraslab → z = some z0)
    (hev : r = some "backarc" → AGA16.evFor e ≠ .other)
    (ha : AGA16.adjust (AGA16.table.map (·.period)) (AGA16.evFor e) a = pure adj) :
    ∃ o o', Gives (AGA16.cls a c4 sc) s o ∧ Gives (AGA16.cls a c4 sc) s' o' ∧
      let c := AGA16.table[i]'hi
      let p := Real.exp (o.gmm.lnResp.getD 0 F.nan).val
      let ρ : ℝ := (1000 / c.v_lin) ^ (c.n : ℝ)
      (o'.gmm.lnResp.getD i F.nan).val - (o.gmm.lnResp.getD i F.nan).val =
        -c.b * Real.log ((p + c.c * ρ) / ((p + c.c) * ρ)) ∧
      (o.gmm.lnResp.getD i F.nan).val < (o'.gmm.lnResp.getD i F.nan).val := by
  obtain ⟨hl, hok⟩ := AGA16.adjust_ok ha
  refine ⟨_, _, AGA16.gives h hd hz hev c4 sc ha, AGA16.gives h' hd hz hev c4 sc ha, ?_⟩
  obtain ⟨r0, hr0, hh, hvl, -⟩ := AGA16.head_eq
  match adj, hl with
  | a0 :: adj, hl =>
  have hmem : AGA16.table[i]'hi ∈ AGA16.table := List.getElem_mem _
  obtain ⟨-, -, -, h4, hn, h5, -⟩ := AGA16.row_facts _ hmem
  obtain ⟨hp, hb⟩ := AGA16.vlin_rows _ hmem
  have hgt := hp.2 hT
  simp only [AGA16.resp_val hh hl _ _ _ _ _ _ _ hi]
  rw [AGA16.head_resp hh, AGA16.pga_rock hr0 hvl m hv, AGA16.ref_eq hr0 hvl m v' v d e r z0 sc]
  obtain ⟨e1, e2⟩ := AGA16.siteR_step (n := (AGA16.table[i]'hi).n) (c := (AGA16.table[i]'hi).c)
    (t12 := (AGA16.table[i]'hi).t_12) hgt (by rw [hn]; norm_num)
    (by rw [h4]; norm_num) (hb hgt) hv hvv hv'
    (AGA16.lnResp r0 a0 (AGA16.input m v d e r z0 sc) none).val
  exact ⟨by rw [← e1]; ring, by linarith⟩

/-- A scenario for the examples below: an intraslab event -/
theorem AGA16.source_example (m v d : ℝ) : AGA16.Source ⟨[("mag", .num m), ("v_s30", .num v),
    ("event_type", .str "intraslab"), ("tectonic_region", .str "backarc"), ("dist_hyp", .num d),
    ("depth_hyp", .num 80)], []⟩ m v "intraslab" (some "backarc") none (some d) (some 80) := by
  constructor <;> simp [Scenario.get, Dict.get?, Val.ofOpt]

example : ∃ o ss, Gives (AGA16.cls .default 10 1) ⟨[("mag", .num 7), ("v_s30", .num 250),
    ("event_type", .str "intraslab"), ("tectonic_region", .str "backarc"), ("dist_hyp", .num 60),
    ("depth_hyp", .num 80)], []⟩ o ∧ o.gmm.lnStd = some ss ∧ o.gmm.lnResp.length = 23 ∧
      (∀ y ∈ o.gmm.lnResp, y.ok) ∧ ss.length = 23 ∧ F.AllPos ss :=
  C62_defined _ 7 250 60 80 _ _ _ _ _ .default 10 1 _ (by norm_num) (by norm_num)
    (AGA16.source_example 7 250 60) (if_pos (by decide)) (fun _ => rfl) (by decide) rfl

example : ∃ o, Gives (AGA16.cls .default 10 1) ⟨[("mag", .num 7), ("v_s30", .num 250),
    ("event_type", .str "intraslab"), ("tectonic_region", .str "backarc"), ("dist_hyp", .num 60),
    ("depth_hyp", .num 80)], []⟩ o ∧ o.gmm.lnResp.length = 23 ∧ (∀ y ∈ o.gmm.lnResp, y.ok) :=
  (C46_aga16_defined _ 7 250 60 80 _ _ _ _ _ .default 10 1 _ (by norm_num) (by norm_num)
    (AGA16.source_example 7 250 60) (if_pos (by decide)) (fun _ => rfl) (by decide) rfl).2.2

example : ∃ o o', Gives (AGA16.cls .default 10 1) ⟨[("mag", .num 7), ("v_s30", .num 200),
    ("event_type", .str "intraslab"), ("tectonic_region", .str "backarc"), ("dist_hyp", .num 60),
    ("depth_hyp", .num 80)], []⟩ o ∧ Gives (AGA16.cls .default 10 1) ⟨[("mag", .num 7), ("v_s30", .num 200),
    ("event_type", .str "intraslab"), ("tectonic_region", .str "backarc"), ("dist_hyp", .num 90),
    ("depth_hyp", .num 80)], []⟩ o' ∧
      F.Drops (o.gmm.lnResp.getD 0 F.nan) (o'.gmm.lnResp.getD 0 F.nan) :=
  C62_attenuates_pga _ _ 7 200 60 90 80 _ _ _ _ _ _ _ .default 10 1 _ (by norm_num) (by norm_num)
    (by norm_num) (by norm_num) (by norm_num) (by norm_num)
    (AGA16.source_example 7 200 60) (AGA16.source_example 7 200 90) (if_pos (by decide))
    (if_pos (by decide)) (fun _ => rfl) (by decide) rfl
example : ∃ o o', Gives (AGA16.cls (.scalar 0.2) 10 1) ⟨[("mag", .num 7), ("v_s30", .num 1020),
    ("event_type", .str "intraslab"), ("tectonic_region", .str "backarc"), ("dist_hyp", .num 60),
    ("depth_hyp", .num 80)], []⟩ o ∧ Gives (AGA16.cls (.scalar 0.2) 10 1) ⟨[("mag", .num 7),
    ("v_s30", .num 1060), ("event_type", .str "intraslab"), ("tectonic_region", .str "backarc"),
    ("dist_hyp", .num 60), ("depth_hyp", .num 80)], []⟩ o' ∧
      (o.gmm.lnResp.getD 2 F.nan).val < (o'.gmm.lnResp.getD 2 F.nan).val := by
  obtain ⟨o, o', h1, h2, h3⟩ := C62_step _ _ 7 1020 1060 60 80 _ _ _ _ _ (.scalar 0.2) 10 1 _ 2
    (by norm_num) (by decide +kernel) (by norm_num) (by norm_num [AGA16.table])
    (by norm_num [AGA16.table]) (AGA16.source_example 7 1020 60)
    (AGA16.source_example 7 1060 60) (if_pos (by decide)) (fun _ => rfl) (by decide) rfl
  exact ⟨o, o', h1, h2, h3.2⟩
example : ∃ o o', Gives (AGA16.cls .default 10 1) ⟨[("mag", .num 7), ("v_s30", .num 250),
    ("event_type", .str "interface"), ("dist_rup", .num 60)], []⟩ o ∧
    Gives (AGA16.cls .default 10 1) ⟨[("mag", .num 7), ("v_s30", .num 250),
    ("event_type", .str "crustal"), ("dist_rup", .num 60)], []⟩ o' ∧ o = o' :=
  C24_unknown_like_interface _ _ 7 250 60 "crustal" none none none none none .default 10 1 _ rfl
    (by decide) (by decide) (by decide)
    (by constructor <;> simp [Scenario.get, Dict.get?, Val.ofOpt])
    (by constructor <;> simp [Scenario.get, Dict.get?, Val.ofOpt])
example : ((AGA16.cls .default 10 1).new ⟨[("mag", .num 7), ("v_s30", .num 250),
    ("event_type", .str "crustal"), ("tectonic_region", .str "backarc"), ("dist_rup", .num 60)], []⟩).res =
    .error .notImplemented :=
  C24_unknown_backarc _ 7 250 60 "crustal" none none .default 10 1 _ rfl (by decide) (by decide)
    (by constructor <;> simp [Scenario.get, Dict.get?, Val.ofOpt])

/-! ### Coppersmith & Bommer (2014) -/

namespace CoppersmithBommer

/-- the part of the prediction that depends on distance -/
noncomputable def D (c : Row) (m sc d : ℝ) : ℝ :=
  (c.t_2 + c.t_3 * (m - 7.8)) * Real.log (d + c.c_4 * Real.exp (c.t_9 * (m - 6))) + sc * c.t_6 * d +
  c.t_16 * Real.log (max d 40 / 40)

/-- rest -/
noncomputable def A (c : Row) (adj m : ℝ) : ℝ :=
  c.t_1 + c.t_4 * adj + AGA16.magR c.t_4 c.t_5 c.t_13 adj m

theorem lnResp_val (c : Row) (adj : F) (m d v sc : ℝ) (p : Option F) :
    (lnResp c adj (F.ofReal m) (F.ofReal d) (F.ofReal v) (F.ofReal sc) p).val =
      A c adj.val m + D c m sc d +
      (AGA16.fSite c.v_lin c.b c.n c.c c.t_12 (F.ofReal v) p).val := by
  simp only [lnResp, F.val_add, AGA16.fMag_val]
  simp only [fsimp, A, D]
  ring

theorem row_facts : ∀ c ∈ table, c.c_4 = 10 ∧ c.t_9 = 0.4 ∧ c.t_3 = 0.1 ∧ c.c = 1.88 ∧ c.n = 1.18 ∧
    0 < c.v_lin ∧ c.v_lin < 1100 ∧ c.t_6 < 0 ∧ c.t_2 + 0.17 < 0 ∧ c.t_16 ≤ 0 ∧
    0 < c.phi ∧ 0 < c.tau ∧ (1000 < c.v_lin ↔ c.period ∈ [(0.05 : ℚ), 0.1]) ∧
    (1000 < c.v_lin → c.b < 0) := by
  decide +kernel

theorem head_eq : ∃ r ∈ table, table.head? = some r ∧ r.v_lin = 865.1 ∧ r.b = -1.186 :=
  ⟨_, List.mem_cons_self, rfl, by norm_num, by norm_num⟩

theorem lnResp_ok {c : Row} (hc : c ∈ table) {adj : F} (ha : adj.ok) (m v : ℝ) {d : ℝ} (hd : 0 ≤ d)
    (sc : ℝ) {p : Option F}
    (hp : (AGA16.fSite c.v_lin c.b c.n c.c c.t_12 (F.ofReal v) p).ok) :
    (lnResp c adj (F.ofReal m) (F.ofReal d) (F.ofReal v) (F.ofReal sc) p).ok := by
  obtain ⟨h1, -⟩ := row_facts c hc
  have hm := AGA16.fMag_ok c.t_4 c.t_5 c.t_13 ha m
  have he := Real.exp_pos (c.t_9 * (m - 6))
  have hpos : 0 < d + 10 * Real.exp (c.t_9 * (m - 6)) := by positivity
  have h40 : 0 < max d 40 / 40 := div_pos (lt_max_of_lt_right (by norm_num)) (by norm_num)
  simp only [lnResp, F.ok_add, hp, hm]
  simp only [fsimp, h1]
  push_cast; simp [ha, hpos]

theorem D_drop {c : Row} (hc : c ∈ table) {m sc d d' : ℝ} (hm : m ≤ 9.5)
    (hd : 0 ≤ d) (hdd : d < d') (hsc : 0 ≤ sc) : D c m sc d' < D c m sc d := by
  obtain ⟨h1, h2, h3, -, -, -, -, h6, hB, h16, -⟩ := row_facts c hc
  have h6' : (c.t_6 : ℝ) < 0 := by exact_mod_cast h6
  have hB' : ((c.t_2 + 0.17 : ℚ) : ℝ) < 0 := by exact_mod_cast hB
  have h16' : (c.t_16 : ℝ) ≤ 0 := by exact_mod_cast h16
  push_cast at hB'
  have hh := Real.exp_pos ((0.4 : ℚ) * (m - 6))
  have hl : Real.log (d + 10 * Real.exp ((0.4 : ℚ) * (m - 6))) <
      Real.log (d' + 10 * Real.exp ((0.4 : ℚ) * (m - 6))) :=
    Real.log_lt_log (by positivity) (by linarith)
  have hslope : (c.t_2 : ℝ) + 0.1 * (m - 7.8) < 0 := by linarith
  have h40 : Real.log (max d 40 / 40) ≤ Real.log (max d' 40 / 40) := by
    have : (0 : ℝ) < max d 40 := lt_max_of_lt_right (by norm_num)
    apply Real.log_le_log (by positivity)
    have : max d 40 ≤ max d' 40 := max_le_max hdd.le le_rfl
    gcongr
  simp only [D, h1, h2, h3]
  push_cast at hl ⊢
  have main := mul_lt_mul_of_neg_left hl hslope
  have hs6 : sc * c.t_6 * d' ≤ sc * c.t_6 * d := by
    have : sc * c.t_6 ≤ 0 := mul_nonpos_of_nonneg_of_nonpos hsc h6'.le
    nlinarith
  have := mul_le_mul_of_nonpos_left h40 h16'
  linarith

theorem adj_ok (ev : AGA16.Ev) : (adj ev).length = 14 ∧ ∀ x ∈ adj ev, x.ok := by
  unfold adj
  by_cases hi : ev = .intraslab
  · rw [if_pos hi]
    refine ⟨by simp; rfl, ?_⟩
    intro x hx; simp only [List.mem_map] at hx
    obtain ⟨_, _, rfl⟩ := hx; simp
  · rw [if_neg hi]
    refine ⟨by simp; rfl, ?_⟩
    intro x hx; simp only [List.mem_map] at hx
    obtain ⟨T, _, rfl⟩ := hx
    exact AGA16.adjustInterface_ok T

theorem pgaRef_eq {r : Row} (hr : table.head? = some r) {a0 : F} {adj : List F} (m d v sc : F) :
    pgaRef (a0 :: adj) m d v sc = F.exp (lnResp r a0 m d v sc none) := by
  cases ht : table with
  | nil => rw [ht] at hr; simp at hr
  | cons b l =>
    rw [ht] at hr
    simp at hr; subst hr
    simp [pgaRef, ht]

theorem getD_out {adj : List F} (hl : adj.length = 14) (m d v sc : F) {k : ℕ} (hk : k < 14) :
    (out adj m d v sc).lnResp.getD k F.nan =
      lnResp (table[k]'hk) (adj[k]'(by omega)) m d v sc (some (pgaRef adj m d v sc)) := by
  have h1 : k < table.length := hk
  have h2 : k < adj.length := by omega
  simp only [out, List.getD_eq_getElem?_getD, List.getElem?_zipWith, List.getElem?_eq_getElem h1,
    List.getElem?_eq_getElem h2, Option.map₂_some_some, Option.getD_some]
  rfl

theorem ref_val {r0 : Row} (hr0 : r0 ∈ table) (hvl : r0.v_lin = 865.1) (a0 : F) (m d v sc : ℝ) :
    (lnResp r0 a0 (F.ofReal m) (F.ofReal d) (F.ofReal v) (F.ofReal sc) none).val =
      A r0 a0.val m + D r0 m sc d + (r0.t_12 + r0.b * r0.n) * Real.log (1000 / r0.v_lin) := by
  obtain ⟨-, -, -, -, -, h5, -⟩ := row_facts r0 hr0
  rw [lnResp_val, (AGA16.fSite_ref (by rw [hvl]; norm_num) h5 _).2]

theorem ref_ok {r0 : Row} (hr0 : r0 ∈ table) (hvl : r0.v_lin = 865.1) {a0 : F} (ha : a0.ok)
    (m : ℝ) {d : ℝ} (hd : 0 ≤ d) (v sc : ℝ) :
    (lnResp r0 a0 (F.ofReal m) (F.ofReal d) (F.ofReal v) (F.ofReal sc) none).ok := by
  obtain ⟨-, -, -, -, -, h5, -⟩ := row_facts r0 hr0
  exact lnResp_ok hr0 ha m v hd sc (AGA16.fSite_ref (by rw [hvl]; norm_num) h5 _).1

/-- one prediction: defined, and its value -/
theorem resp {r0 : Row} (hr0 : r0 ∈ table) (hh : table.head? = some r0) (hvl : r0.v_lin = 865.1)
    {a0 : F} {adj : List F} (hl : (a0 :: adj).length = 14) (hok : ∀ x ∈ a0 :: adj, x.ok)
    (m : ℝ) {d v : ℝ} (hd : 0 ≤ d) (hv : 0 < v) (sc : ℝ) {k : ℕ} (hk : k < 14) :
    ((out (a0 :: adj) (F.ofReal m) (F.ofReal d) (F.ofReal v) (F.ofReal sc)).lnResp.getD k F.nan).ok ∧
    ((out (a0 :: adj) (F.ofReal m) (F.ofReal d) (F.ofReal v) (F.ofReal sc)).lnResp.getD k F.nan).val =
      A (table[k]'hk) ((a0 :: adj)[k]'(by omega)).val m + D (table[k]'hk) m sc d +
      AGA16.siteR (table[k]'hk).v_lin (table[k]'hk).b (table[k]'hk).n (table[k]'hk).c
        (table[k]'hk).t_12 v
        (A r0 a0.val m + D r0 m sc d + (r0.t_12 + r0.b * r0.n) * Real.log (1000 / r0.v_lin)) := by
  obtain ⟨-, -, -, h4, -, h5, -⟩ := row_facts (table[k]'hk) (List.getElem_mem _)
  rw [getD_out hl _ _ _ _ hk, pgaRef_eq hh, lnResp_val, AGA16.fSite_val, ref_val hr0 hvl]
  refine ⟨lnResp_ok (List.getElem_mem _) (hok _ (List.getElem_mem _)) m v hd sc
    (AGA16.fSite_ok h5 (by rw [h4]; norm_num) hv ?_), rfl⟩
  exact ref_ok hr0 hvl (hok _ (by simp)) m hd v sc

end CoppersmithBommer

/-- CoppersmithBommer2014: defined at all 14 periods for every magnitude, non-negative distance,
positive v_s30, scale_atten and event type; the standard deviations are positive. -/
theorem C62_coppersmith_defined (s : Scenario) (m d v sc : ℝ) (e : String) (hd0 : 0 ≤ d) (hv0 : 0 < v)
    (hm : s.get "mag" = .num m) (hd : s.get "dist_rup" = .num d) (hv : s.get "v_s30" = .num v)
    (he : s.get "event_type" = .str e) :
    ∃ o ss, Gives (CoppersmithBommer.cls sc) s o ∧ o.lnStd = some ss ∧ o.lnResp.length = 14 ∧
      (∀ i < 14, (o.lnResp.getD i F.nan).ok) ∧ ss.length = 14 ∧ F.AllPos ss := by
  obtain ⟨hl, hok⟩ := CoppersmithBommer.adj_ok (AGA16.evFor e)
  refine ⟨_, _, CoppersmithBommer.gives s hm hd hv he sc, rfl, ?_, ?_, rfl, ?_⟩
  · simp only [CoppersmithBommer.out, List.length_zipWith, hl]; rfl
  · obtain ⟨r0, hr0, hh, hvl, -⟩ := CoppersmithBommer.head_eq
    match hadj : CoppersmithBommer.adj (AGA16.evFor e), hl with
    | a0 :: adj, hl' =>
    intro i hi
    rw [hadj] at hok
    exact (CoppersmithBommer.resp hr0 hh hvl hl' hok m hd0 hv0 sc hi).1
  · intro y hy
    simp only [List.mem_map] at hy
    obtain ⟨c, hc, rfl⟩ := hy
    obtain ⟨-, -, -, -, -, -, -, -, -, -, hp, ht, -⟩ := CoppersmithBommer.row_facts c hc
    have hp' : (0 : ℝ) < c.phi := by exact_mod_cast hp
    have ht' : (0 : ℝ) < c.tau := by exact_mod_cast ht
    simp only [fsimp]
    exact ⟨by positivity, Real.sqrt_pos.2 (by positivity)⟩

/-- CoppersmithBommer2014 attenuates: on rock (v_s30 ≥ 1100 m/s) every prediction strictly
decreases with distance for magnitudes up to 9.5; the first row (0.01 s) does so for v_s30
down to 150 m/s. -/
theorem C62_coppersmith_attenuates (s s' : Scenario) (m d d' v sc : ℝ) (e : String)
    (hm9 : m ≤ 9.5) (hsc : 0 ≤ sc) (hd0 : 0 ≤ d) (hdd : d < d') (hv0 : 150 ≤ v)
    (hm : s.get "mag" = .num m) (hd : s.get "dist_rup" = .num d) (hv : s.get "v_s30" = .num v)
    (he : s.get "event_type" = .str e)
    (hm' : s'.get "mag" = .num m) (hd' : s'.get "dist_rup" = .num d') (hv' : s'.get "v_s30" = .num v)
    (he' : s'.get "event_type" = .str e) :
    ∃ o o', Gives (CoppersmithBommer.cls sc) s o ∧ Gives (CoppersmithBommer.cls sc) s' o' ∧
      F.Drops (o.lnResp.getD 0 F.nan) (o'.lnResp.getD 0 F.nan) ∧
      (1100 ≤ v → ∀ i < 14, F.Drops (o.lnResp.getD i F.nan) (o'.lnResp.getD i F.nan)) := by
  obtain ⟨hl, hok⟩ := CoppersmithBommer.adj_ok (AGA16.evFor e)
  refine ⟨_, _, CoppersmithBommer.gives s hm hd hv he sc, CoppersmithBommer.gives s' hm' hd' hv' he' sc,
    ?_⟩
  obtain ⟨r0, hr0, hh, hvl, hb⟩ := CoppersmithBommer.head_eq
  match hadj : CoppersmithBommer.adj (AGA16.evFor e), hl with
  | a0 :: adj, hl' =>
  rw [hadj] at hok
  have hvp : 0 < v := by linarith
  have hd0' : 0 ≤ d' := by linarith
  have hD0 := CoppersmithBommer.D_drop hr0 hm9 hd0 hdd hsc
  have h14 : 0 < 14 := by norm_num
  have e0 : CoppersmithBommer.table[0]'h14 = r0 := by
    have : CoppersmithBommer.table.head? = some (CoppersmithBommer.table[0]'h14) := rfl
    rw [hh] at this; exact (Option.some.inj this).symm
  constructor
  · obtain ⟨o1, v1⟩ := CoppersmithBommer.resp hr0 hh hvl hl' hok m hd0 hvp sc (k := 0) h14
    obtain ⟨o2, v2⟩ := CoppersmithBommer.resp hr0 hh hvl hl' hok m hd0' hvp sc (k := 0) h14
    refine ⟨o1, o2, ?_⟩
    rw [v1, v2, e0]
    obtain ⟨-, -, -, h4, h5, -⟩ := CoppersmithBommer.row_facts r0 hr0
    have := AGA16.pga_surface' (c := r0.c) (n := r0.n) (t12 := r0.t_12) hvl hb h4 h5 hv0
      (x := CoppersmithBommer.A r0 a0.val m + CoppersmithBommer.D r0 m sc d +
        (r0.t_12 + r0.b * r0.n) * Real.log (1000 / r0.v_lin))
      (x' := CoppersmithBommer.A r0 a0.val m + CoppersmithBommer.D r0 m sc d' +
        (r0.t_12 + r0.b * r0.n) * Real.log (1000 / r0.v_lin)) (by linarith)
    simp only [List.getElem_cons_zero]
    linarith
  · intro hrock i hi
    obtain ⟨o1, v1⟩ := CoppersmithBommer.resp hr0 hh hvl hl' hok m hd0 hvp sc hi
    obtain ⟨o2, v2⟩ := CoppersmithBommer.resp hr0 hh hvl hl' hok m hd0' hvp sc hi
    refine ⟨o1, o2, ?_⟩
    rw [v1, v2]
    have hmem : CoppersmithBommer.table[i]'hi ∈ CoppersmithBommer.table := List.getElem_mem _
    obtain ⟨-, -, -, -, -, -, h7, -⟩ := CoppersmithBommer.row_facts _ hmem
    have h7' : ((CoppersmithBommer.table[i]'hi).v_lin : ℝ) < 1100 := by exact_mod_cast h7
    have hs : ∀ x, AGA16.siteR (CoppersmithBommer.table[i]'hi).v_lin (CoppersmithBommer.table[i]'hi).b
        (CoppersmithBommer.table[i]'hi).n (CoppersmithBommer.table[i]'hi).c
        (CoppersmithBommer.table[i]'hi).t_12 v x =
        AGA16.siteR (CoppersmithBommer.table[i]'hi).v_lin (CoppersmithBommer.table[i]'hi).b
        (CoppersmithBommer.table[i]'hi).n (CoppersmithBommer.table[i]'hi).c
        (CoppersmithBommer.table[i]'hi).t_12 v 0 := by
      intro x
      simp only [AGA16.siteR, if_neg (not_lt.2 (by linarith :
        ((CoppersmithBommer.table[i]'hi).v_lin : ℝ) ≤ v))]
    have hD := CoppersmithBommer.D_drop hmem hm9 hd0 hdd hsc
    rw [hs, hs (_ + _ + _)]
    linarith

/-- CoppersmithBommer2014 jumps up at v_lin for 0.05 s and 0.1 s in the same way. -/
theorem C62_coppersmith_step (s s' : Scenario) (m d v v' sc : ℝ) (e : String) (i : ℕ) (hi : i < 14)
    (hT : (CoppersmithBommer.table[i]'hi).period ∈ [(0.05 : ℚ), 0.1]) (hd0 : 0 ≤ d)
    (hv1 : 1000 ≤ v) (hvv : v < (CoppersmithBommer.table[i]'hi).v_lin)
    (hv2 : (CoppersmithBommer.table[i]'hi).v_lin ≤ v')
    (hm : s.get "mag" = .num m) (hd : s.get "dist_rup" = .num d) (hv : s.get "v_s30" = .num v)
    (he : s.get "event_type" = .str e)
    (hm' : s'.get "mag" = .num m) (hd' : s'.get "dist_rup" = .num d) (hv' : s'.get "v_s30" = .num v')
    (he' : s'.get "event_type" = .str e) :
    ∃ o o', Gives (CoppersmithBommer.cls sc) s o ∧ Gives (CoppersmithBommer.cls sc) s' o' ∧
      let c := CoppersmithBommer.table[i]'hi
      let p := Real.exp (o.lnResp.getD 0 F.nan).val
      let ρ : ℝ := (1000 / c.v_lin) ^ (c.n : ℝ)
      (o'.lnResp.getD i F.nan).val - (o.lnResp.getD i F.nan).val =
        -c.b * Real.log ((p + c.c * ρ) / ((p + c.c) * ρ)) ∧
      (o.lnResp.getD i F.nan).val < (o'.lnResp.getD i F.nan).val := by
  obtain ⟨hl, hok⟩ := CoppersmithBommer.adj_ok (AGA16.evFor e)
  refine ⟨_, _, CoppersmithBommer.gives s hm hd hv he sc, CoppersmithBommer.gives s' hm' hd' hv' he' sc,
    ?_⟩
  obtain ⟨r0, hr0, hh, hvl, hb⟩ := CoppersmithBommer.head_eq
  match hadj : CoppersmithBommer.adj (AGA16.evFor e), hl with
  | a0 :: adj, hl' =>
  rw [hadj] at hok
  have hmem : CoppersmithBommer.table[i]'hi ∈ CoppersmithBommer.table := List.getElem_mem _
  obtain ⟨-, -, -, h4, h5, -, -, -, -, -, -, -, hp, hbn⟩ := CoppersmithBommer.row_facts _ hmem
  have hgt := hp.2 hT
  have hgt' : (1000 : ℝ) < (CoppersmithBommer.table[i]'hi).v_lin := by exact_mod_cast hgt
  have h14 : 0 < 14 := by norm_num
  have e0 : CoppersmithBommer.table[0]'h14 = r0 := by
    have : CoppersmithBommer.table.head? = some (CoppersmithBommer.table[0]'h14) := rfl
    rw [hh] at this; exact (Option.some.inj this).symm
  obtain ⟨o1, v1⟩ := CoppersmithBommer.resp hr0 hh hvl hl' hok m hd0 (by linarith : 0 < v) sc hi
  obtain ⟨o2, v2⟩ := CoppersmithBommer.resp hr0 hh hvl hl' hok m hd0 (by linarith : 0 < v') sc hi
  obtain ⟨-, v3⟩ := CoppersmithBommer.resp hr0 hh hvl hl' hok m hd0 (by linarith : 0 < v) sc (k := 0) h14
  have hx : ((CoppersmithBommer.out (a0 :: adj) (F.ofReal m) (F.ofReal d) (F.ofReal v)
      (F.ofReal sc)).lnResp.getD 0 F.nan).val = CoppersmithBommer.A r0 a0.val m +
        CoppersmithBommer.D r0 m sc d + (r0.t_12 + r0.b * r0.n) * Real.log (1000 / r0.v_lin) := by
    rw [v3, e0]
    have : ¬ v < (r0.v_lin : ℝ) := by rw [hvl]; push_cast; linarith
    simp only [AGA16.siteR, if_neg this, min_eq_right hv1, List.getElem_cons_zero]
    ring
  simp only [v1, v2, hx]
  obtain ⟨e1, e2⟩ := AGA16.siteR_step (n := (CoppersmithBommer.table[i]'hi).n)
    (c := (CoppersmithBommer.table[i]'hi).c)
    (t12 := (CoppersmithBommer.table[i]'hi).t_12) hgt (by rw [h5]; norm_num)
    (by rw [h4]; norm_num) (hbn hgt) hv1 hvv hv2 (CoppersmithBommer.A r0 a0.val m +
        CoppersmithBommer.D r0 m sc d + (r0.t_12 + r0.b * r0.n) * Real.log (1000 / r0.v_lin))
  exact ⟨by rw [← e1]; ring, by linarith⟩

example : ∃ o o', Gives (CoppersmithBommer.cls 1) ⟨[("mag", .num 7), ("v_s30", .num 1200),
    ("event_type", .str "interface"), ("dist_rup", .num 60)], []⟩ o ∧
    Gives (CoppersmithBommer.cls 1) ⟨[("mag", .num 7), ("v_s30", .num 1200),
    ("event_type", .str "interface"), ("dist_rup", .num 90)], []⟩ o' ∧
    F.Drops (o.lnResp.getD 0 F.nan) (o'.lnResp.getD 0 F.nan) ∧
      ((1100 : ℝ) ≤ 1200 → ∀ i < 14, F.Drops (o.lnResp.getD i F.nan) (o'.lnResp.getD i F.nan)) :=
  C62_coppersmith_attenuates _ _ 7 60 90 1200 1 "interface" (by norm_num) (by norm_num) (by norm_num)
    (by norm_num) (by norm_num) (by simp [Scenario.get, Dict.get?]) (by simp [Scenario.get, Dict.get?])
    (by simp [Scenario.get, Dict.get?]) (by simp [Scenario.get, Dict.get?])
    (by simp [Scenario.get, Dict.get?]) (by simp [Scenario.get, Dict.get?])
    (by simp [Scenario.get, Dict.get?]) (by simp [Scenario.get, Dict.get?])
