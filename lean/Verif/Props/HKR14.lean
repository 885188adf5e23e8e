import Verif.Models.HKR14
import Verif.Argmin

/-! # C58, C77: HermkesKuehnRiggelsen2014 -/

set_option linter.unusedSimpArgs false

namespace HKR14

/-- the construction in a fresh interpreter with data file `f` -/
noncomputable def fresh (q : Search) (f : DataFile) (s : Scenario) : Py (Instance GmmOut) :=
  (construct q ⟨f, none, []⟩ s).1

/-- the scenarios of a history's constructions -/
def builds : List Step → List Scenario
  | [] => []
  | .build s :: h => s :: builds h
  | .replace _ :: h => builds h

theorem construct_cached (q : Search) {w : World} {i : Interp} (hw : w.cache = some i) (s : Scenario) :
    (construct q w s).2 = w := by
  unfold construct
  simp only [interpolator, hw]
  split <;> rfl

/-- the result depends only on the interpolator obtained -/
theorem construct_fst (q : Search) {w w' : World} (h : (interpolator w).1 = (interpolator w').1) (s : Scenario) :
    (construct q w s).1 = (construct q w' s).1 := by
  unfold construct
  simp only [h]
  split <;> rfl

theorem interp_none {w : World} (h : w.cache = none) : (interpolator w).1 = load w.file := by
  unfold interpolator
  simp only [h]
  split <;> rfl

theorem interp_some {w : World} {i : Interp} (h : w.cache = some i) : (interpolator w).1 = pure i := by
  unfold interpolator
  simp only [h]

/-- what is loaded is valid -/
theorem load_ok {f : DataFile} {i : Interp} (h : (load f).res = .ok i) : load f = pure i := by
  unfold load at h ⊢
  split at h <;> first | (simp at h; done) | skip
  split at h
  · simp at h; subst h; rw [if_pos (by assumption)]
  · simp at h

theorem load_archive {i : Interp} (h : i.events.length = i.predictions.length) :
    load (.archive (some i.events) (some i.predictions)) = pure i := by
  simp only [load, h, if_true]

/-- the states a construction can leave -/
theorem construct_world (q : Search) (w : World) (s : Scenario) :
    (construct q w s).2 = w ∨ (construct q w s).2 = (interpolator w).2 := by
  unfold construct
  simp only
  split
  · left; rfl
  · right; rfl

theorem construct_file (q : Search) (w : World) (s : Scenario) : (construct q w s).2.file = w.file := by
  rcases construct_world q w s with h | h
  · rw [h]
  · rw [h]; unfold interpolator
    split
    · rfl
    · simp only; split <;> rfl

/-- the invariant: the cache is empty, or holds what `f` contains -/
def Holds (f : DataFile) (w : World) : Prop :=
  w.file = f ∧ (w.cache = none ∨ ∃ i, w.cache = some i ∧ load f = pure i)

theorem holds_construct (q : Search) {f : DataFile} {w : World} (h : Holds f w) (s : Scenario) :
    Holds f (construct q w s).2 := by
  refine ⟨(construct_file q w s).trans h.1, ?_⟩
  rcases construct_world q w s with e | e
  · rw [e]; exact h.2
  · rw [e]
    rcases h.2 with hc | ⟨i, hc, hi⟩
    · unfold interpolator
      simp only [hc]
      split
      · rename_i i hi
        right; exact ⟨i, rfl, by rw [← h.1]; exact load_ok hi⟩
      · left; rfl
    · unfold interpolator
      simp only [hc]
      right; exact ⟨i, rfl, hi⟩

theorem holds_result (q : Search) {f : DataFile} {w : World} (h : Holds f w) (s : Scenario) :
    (construct q w s).1 = fresh q f s := by
  apply construct_fst
  rw [interp_none (w := ⟨f, none, []⟩) rfl]
  rcases h.2 with hc | ⟨i, hc, hi⟩
  · rw [interp_none hc, h.1]
  · rw [interp_some hc, hi]

end HKR14

open HKR14 in
/-- C58: without changes of the data file, every construction of every history gives exactly what it
would give as the first construction of a fresh interpreter. -/
theorem C58_transparent (q : Search) (f : DataFile) (loads : List Bool) (ss : List Scenario) :
    (run q ⟨f, none, loads⟩ (ss.map .build)).1 = ss.map (fresh q f) := by
  suffices H : ∀ w, Holds f w → (run q w (ss.map .build)).1 = ss.map (fresh q f) from
    H _ ⟨rfl, Or.inl rfl⟩
  induction ss with
  | nil => intro w _; rfl
  | cons s ss ih =>
    intro w hw
    simp only [List.map_cons, run]
    rw [ih _ (holds_construct q hw s), holds_result q hw s]

open HKR14 in
/-- C58: in every history, also one in which the data file is replaced, the loads are some failed ones
followed by at most one successful one; the interpolator is cached exactly if a load succeeded. -/
theorem C58_loads_once (q : Search) (f : DataFile) (h : List Step) :
    ∃ k, ((run q ⟨f, none, []⟩ h).2.loads = List.replicate k false ∧ (run q ⟨f, none, []⟩ h).2.cache = none) ∨
      ((run q ⟨f, none, []⟩ h).2.loads = List.replicate k false ++ [true] ∧
        ∃ i, (run q ⟨f, none, []⟩ h).2.cache = some i) := by
  suffices H : ∀ w : World, (∃ k, (w.loads = List.replicate k false ∧ w.cache = none) ∨
      (w.loads = List.replicate k false ++ [true] ∧ ∃ i, w.cache = some i)) →
      ∃ k, ((run q w h).2.loads = List.replicate k false ∧ (run q w h).2.cache = none) ∨
      ((run q w h).2.loads = List.replicate k false ++ [true] ∧ ∃ i, (run q w h).2.cache = some i) from
    H _ ⟨0, Or.inl ⟨rfl, rfl⟩⟩
  induction h with
  | nil => intro w hw; exact hw
  | cons st h ih =>
    intro w hw
    cases st with
    | replace f => exact ih _ hw
    | build s =>
      apply ih
      rcases construct_world q w s with e | e
      · rw [e]; exact hw
      · rw [e]
        obtain ⟨k, ⟨h1, h2⟩ | ⟨h1, i, h2⟩⟩ := hw
        · unfold interpolator
          simp only [h2]
          split
          · exact ⟨k, Or.inr ⟨by simp [h1], _, rfl⟩⟩
          · exact ⟨k + 1, Or.inl ⟨by simp [h1, List.replicate_succ'], rfl⟩⟩
        · unfold interpolator
          simp only [h2]
          exact ⟨k, Or.inr ⟨h1, i, rfl⟩⟩

open HKR14 in
/-- C58: once a load has succeeded, nothing that happens to the data file matters any more: every later
construction gives what a fresh interpreter with the first loaded contents gives, and makes no load. -/
theorem C58_stale (q : Search) (w : World) (i : Interp) (hi : i.events.length = i.predictions.length)
    (hw : w.cache = some i) (h : List Step) :
    (run q w h).1 = (builds h).map (fresh q (.archive (some i.events) (some i.predictions))) ∧
      (run q w h).2.cache = some i ∧ (run q w h).2.loads = w.loads := by
  induction h generalizing w with
  | nil => exact ⟨rfl, hw, rfl⟩
  | cons st h ih =>
    cases st with
    | replace f => exact ih _ hw
    | build s =>
      have e := construct_cached q hw s
      obtain ⟨h1, h2, h3⟩ := ih w hw
      simp only [run, builds, List.map_cons, e]
      refine ⟨?_, h2, h3⟩
      rw [h1]
      congr 1
      apply construct_fst
      rw [interp_some hw, interp_none (w := ⟨_, none, []⟩) rfl, load_archive hi]

open HKR14 in
/-- C58: what a successful load caches is what the file then contained. -/
theorem C58_first (q : Search) (f : DataFile) (loads : List Bool) (s : Scenario) (i : Interp)
    (h : (construct q ⟨f, none, loads⟩ s).2.cache = some i) :
    f = .archive (some i.events) (some i.predictions) ∧ i.events.length = i.predictions.length := by
  rcases construct_world q ⟨f, none, loads⟩ s with e | e
  · rw [e] at h; simp at h
  · rw [e] at h
    unfold interpolator at h
    simp only at h
    split at h
    · rename_i j hj
      simp at h; subst h
      unfold load at hj
      split at hj <;> first | (simp at hj; done) | skip
      split at hj
      · simp at hj; subst hj; rename_i hl; exact ⟨rfl, hl⟩
      · simp at hj
    · simp at h

open HKR14 in
/-- C58: when the load fails, the construction of every valid scenario fails with the load's error and
nothing is cached, so that with a repaired file the next construction behaves as in a fresh
interpreter. -/
theorem C58_retry (q : Search) (f f' : DataFile) (loads : List Bool) (s s' : Scenario) (e : PyErr)
    (hf : (load f).res = .error e) (inst : Instance (List Val)) (hs : (eventCls.new s).res = .ok inst) :
    ∃ a b, (run q ⟨f, none, loads⟩ [.build s, .replace f', .build s']).1 = [a, b] ∧
      a.res = .error e ∧ b = fresh q f' s' := by
  have hc : (interpolator ⟨f, none, loads⟩) = (load f, ⟨f, none, loads ++ [false]⟩) := by
    unfold interpolator; simp only [hf]
  refine ⟨_, _, rfl, ?_, ?_⟩
  · unfold construct
    simp only [hs, hc]
    rw [Py.bind_res_ok hs]
    exact Py.bind_res_error hf _
  · apply holds_result
    refine ⟨rfl, Or.inl ?_⟩
    simp only [construct, hs, hc]

open HKR14 in
/-- C58: a scenario that the checks reject leaves the data file unread. -/
theorem C58_invalid (q : Search) (w : World) (s : Scenario) (e : PyErr) (h : (eventCls.new s).res = .error e) :
    (construct q w s).2 = w ∧ (construct q w s).1.res = .error e := by
  unfold construct; simp only [h, and_self]

section
open HKR14

/-- What a scenario that passes the checks meets while the interpolator is not there, whatever the
file: without a file `OSError`, without the array `events` or `predictions` a `KeyError` with that
name, with arrays of different length `ValueError`. -/
theorem C58_bad_file (q : Search) (loads : List Bool) (s : Scenario) (inst : Instance (List Val))
    (hs : (eventCls.new s).res = .ok inst) :
    (construct q ⟨.missing, none, loads⟩ s).1.res = .error .ioError ∧
    (∀ p, (construct q ⟨.archive none p, none, loads⟩ s).1.res = .error (.keyError "events")) ∧
    (∀ e, (construct q ⟨.archive (some e) none, none, loads⟩ s).1.res =
      .error (.keyError "predictions")) ∧
    ∀ e p, e.length ≠ p.length → ∃ msg,
      (construct q ⟨.archive (some e) (some p), none, loads⟩ s).1.res = .error (.valueError msg) := by
  have key : ∀ (f : DataFile) (e : PyErr), load f = Py.raise e →
      (construct q ⟨f, none, loads⟩ s).1.res = .error e := by
    intro f e hf
    have hl : (interpolator ⟨f, none, loads⟩).1 = Py.raise e := by rw [interp_none rfl, hf]
    unfold construct
    simp only [hs]
    rw [Py.bind_res_ok hs, hl]; rfl
  refine ⟨key _ _ rfl, fun p => key _ _ rfl, fun e => key _ _ rfl, fun e p h =>
    ⟨"different number of values and points", key _ _ ?_⟩⟩
  simp only [load]
  rw [if_neg h]

end

namespace HKR14

theorem evens_get (l : List ℝ) (j : ℕ) : (evens l)[j]? = l[2 * j]? := by
  induction l using evens.induct generalizing j with
  | case1 => simp [evens]
  | case2 x => cases j <;> simp [evens, Nat.mul_succ]
  | case3 x y l ih => cases j <;> simp [evens, Nat.mul_succ, ih]

theorem odds_get (l : List ℝ) (j : ℕ) : (odds l)[j]? = l[2 * j + 1]? := by
  induction l using odds.induct generalizing j with
  | case1 => simp [odds]
  | case2 x => cases j <;> simp [odds, Nat.mul_succ]
  | case3 x y l ih => cases j <;> simp [odds, Nat.mul_succ, ih]

/-- An output reads a row of the file: the means are its entries 0, 2, 4, ..., the standard deviations
the square roots of its entries 1, 3, 5, ... -/
def Reads (o : GmmOut) (row : List ℝ) : Prop :=
  (∀ j : ℕ, o.lnResp[j]? = row[2 * j]?.map F.ofReal) ∧
  ∃ sd, o.lnStd = some sd ∧ ∀ j : ℕ, sd[j]? = row[2 * j + 1]?.map fun x => F.sqrt (F.ofReal x)

theorem reads (row : List ℝ) :
    Reads ⟨(evens row).map F.ofReal, some ((odds row).map fun v => F.sqrt (F.ofReal v))⟩ row := by
  refine ⟨fun j => ?_, _, rfl, fun j => ?_⟩
  · rw [List.getElem?_map, evens_get]
  · rw [List.getElem?_map, odds_get]

/-- coordinates of a scenario: magnitude, depth, indicators of "RS", "SS", "NS", distance, velocity -/
def point (m z r v : ℝ) (t : String) : List ℝ :=
  [m, z, if t = "RS" then 1 else 0, if t = "SS" then 1 else 0, if t = "NS" then 1 else 0, r, v]

theorem event (s : Scenario) {m v : ℝ} {t : String} {z r : Option ℝ} (hm : s.get "mag" = .num m)
    (hv : s.get "v_s30" = .num v) (ht : s.get "mechanism" = .str t)
    (hz : s.get "depth_hyp" = Val.ofOpt z) (hr : s.get "dist_jb" = Val.ofOpt r) :
    ∃ inst, (eventCls.new s).res = .ok inst ∧ inst.out =
      [.num m, .num (z.getD 15), .num (if t = "RS" then 1 else 0), .num (if t = "SS" then 1 else 0),
        .num (if t = "NS" then 1 else 0), Val.ofOpt r, .num v] := by
  apply gives_of (by change ParamsOk Decls.hkr14; decide +kernel) rfl
  · simp only [eventCls, Decls.hkr14, List.forall_mem_cons]
    exact ⟨pass_opt_default hz, pass_opt hr, pass_num hm, pass_num hv, pass_cat ht, fun _ h => by simp at h⟩
  · intro d hd
    have hn : (Decls.hkr14.map Param.name).Nodup := by decide +kernel
    have h1 := Checked.num hd hn (name := "mag") (by mem_tac) hm
    have h2 := Checked.num hd hn (name := "v_s30") (by mem_tac) hv
    have h3 := Checked.opt hd hn (name := "dist_jb") (by mem_tac) hr
    have h4 := Checked.opt_default hd hn (name := "depth_hyp") (q := 15) (by mem_tac) hz
    have h5 := Checked.cat_val hd hn (name := "mechanism") (opts := ["SS", "NS", "RS"]) (df := .none) (r := true)
      (by mem_tac)
    rw [ht] at h5
    have h6 : ∃ w, d.get? "mechanism" = some w ∧ w.isStr "SS" = decide (t = "SS") ∧
        w.isStr "NS" = decide (t = "NS") ∧ w.isStr "RS" = decide (t = "RS") := by
      refine ⟨_, h5, ?_⟩
      unfold catVal
      split
      · simp
      · rename_i hno
        have a1 : t ≠ "SS" := fun h => hno ⟨t, by simp [h], rfl⟩
        have a2 : t ≠ "NS" := fun h => hno ⟨t, by simp [h], rfl⟩
        have a3 : t ≠ "RS" := fun h => hno ⟨t, by simp [h], rfl⟩
        simp [Lit.toVal, a1, a2, a3]
    obtain ⟨w, h6, w1, w2, w3⟩ := h6
    simp only [eventCls, Scenario.getAttr_of h1, Scenario.getAttr_of h2, Scenario.getAttr_of h3,
      Scenario.getAttr_of h4, Scenario.getAttr_of h6, Py.pure_bind', w1, w2, w3, decide_eq_true_eq]
    cases z <;> simp [Val.ofOpt]

end HKR14

open HKR14 in
/-- C77: with the data file in place, a scenario with the two required numbers, a distance and a
mechanism string (an unknown one counts as none of the three, a missing depth as 15 km) gets, in every
history, the prediction row of an event that no other event of the file is nearer to than: means at the
even positions, square roots of the odd ones as standard deviations. -/
theorem C77_nearest (q : Search) (es ps : List (List ℝ)) (hl : es.length = ps.length) (hne : es ≠ [])
    (w : World) (hw : w.file = .archive (some es) (some ps) ∧ w.cache = none ∨ w.cache = some ⟨es, ps⟩)
    (s : Scenario) (m v r : ℝ) (z : Option ℝ) (t : String) (hm : s.get "mag" = .num m)
    (hv : s.get "v_s30" = .num v) (ht : s.get "mechanism" = .str t)
    (hz : s.get "depth_hyp" = Val.ofOpt z) (hr : s.get "dist_jb" = .num r) :
    ∃ (inst : Instance GmmOut) (k : ℕ) (e row : List ℝ), (construct q w s).1.res = .ok inst ∧
      es[k]? = some e ∧ ps[k]? = some row ∧
      (∀ e' ∈ es, dist2 e (point m (z.getD 15) r v t) ≤ dist2 e' (point m (z.getD 15) r v t)) ∧
      Reads inst.out row := by
  obtain ⟨ev, h1, h2⟩ := event s hm hv ht hz (r := some r) hr
  have hi : (interpolator w).1 = pure ⟨es, ps⟩ := by
    rcases hw with ⟨h, hc⟩ | hc
    · rw [interp_none hc, h]; exact load_archive (i := ⟨es, ps⟩) hl
    · exact interp_some hc
  have hk := q.lt es (point m (z.getD 15) r v t) hne
  have e1 : es[q.find es (point m (z.getD 15) r v t)]? = some (es.getD (q.find es (point m (z.getD 15) r v t)) []) := by
    rw [List.getD_eq_getElem?_getD, List.getElem?_eq_getElem hk]; rfl
  have e2 : ps[q.find es (point m (z.getD 15) r v t)]? = some (ps.getD (q.find es (point m (z.getD 15) r v t)) []) := by
    rw [List.getD_eq_getElem?_getD, List.getElem?_eq_getElem (by omega)]; rfl
  refine ⟨⟨ev.scenario, ⟨(evens (ps.getD (q.find es (point m (z.getD 15) r v t)) [])).map F.ofReal,
    some ((odds (ps.getD (q.find es (point m (z.getD 15) r v t)) [])).map fun x => F.sqrt (F.ofReal x))⟩⟩,
    q.find es (point m (z.getD 15) r v t), _, _, ?_, e1, e2, q.le es _, reads _⟩
  unfold construct
  simp only [h1, hi]
  rw [Py.bind_res_ok h1, Py.pure_bind']
  have hp : predict q ⟨es, ps⟩ ev.out = pure ⟨(evens (ps.getD (q.find es (point m (z.getD 15) r v t)) [])).map F.ofReal,
    some ((odds (ps.getD (q.find es (point m (z.getD 15) r v t)) [])).map fun x => F.sqrt (F.ofReal x))⟩ := by
    rw [h2]
    simp [predict, coord, Val.ofOpt, point]
  rw [hp]
  rfl

open HKR14 in
/-- C77: at an event of the file, if it is there only once, the prediction is the file's row for it. -/
theorem C77_exact (q : Search) (es ps : List (List ℝ)) (hl : es.length = ps.length)
    (h7 : ∀ e ∈ es, e.length = 7) (hd : es.Nodup)
    (w : World) (hw : w.file = .archive (some es) (some ps) ∧ w.cache = none ∨ w.cache = some ⟨es, ps⟩)
    (s : Scenario) (m v r : ℝ) (z : Option ℝ) (t : String) (hm : s.get "mag" = .num m)
    (hv : s.get "v_s30" = .num v) (ht : s.get "mechanism" = .str t)
    (hz : s.get "depth_hyp" = Val.ofOpt z) (hr : s.get "dist_jb" = .num r)
    (k : ℕ) (row : List ℝ) (hk : es[k]? = some (point m (z.getD 15) r v t)) (hrow : ps[k]? = some row) :
    ∃ inst : Instance GmmOut, (construct q w s).1.res = .ok inst ∧ Reads inst.out row := by
  have hmem := List.mem_of_getElem? hk
  obtain ⟨inst, j, e, row', h1, h2, h3, h4, h5⟩ := C77_nearest q es ps hl (List.ne_nil_of_mem hmem) w hw s m v r
    z t hm hv ht hz hr
  refine ⟨inst, h1, ?_⟩
  suffices h : j = k by
    subst h
    rw [hrow] at h3; cases h3
    exact h5
  have hle := h4 _ hmem
  have h0 : dist2 (point m (z.getD 15) r v t) (point m (z.getD 15) r v t) = 0 := by
    simp [dist2, point]
  rw [h0] at hle
  have he : e = point m (z.getD 15) r v t := by
    have hlen := h7 e (List.mem_of_getElem? h2)
    match e, hlen with
    | [a, b, c, d, f, g, h], _ =>
      simp only [dist2, point, List.zip_cons_cons, List.zip_nil_right, List.map_cons, List.map_nil, List.sum_cons,
        List.sum_nil, add_zero] at hle
      generalize hx1 : (if t = "RS" then (1 : ℝ) else 0) = x1 at hle
      generalize hx2 : (if t = "SS" then (1 : ℝ) else 0) = x2 at hle
      generalize hx3 : (if t = "NS" then (1 : ℝ) else 0) = x3 at hle
      have q1 := sq_nonneg (a - m)
      have q2 := sq_nonneg (b - z.getD 15)
      have q3 := sq_nonneg (c - x1)
      have q4 := sq_nonneg (d - x2)
      have q5 := sq_nonneg (f - x3)
      have q6 := sq_nonneg (g - r)
      have q7 := sq_nonneg (h - v)
      have z0 : ∀ x y : ℝ, (x - y) ^ 2 ≤ 0 → x = y := fun x y hxy => by
        have := pow_eq_zero_iff (two_ne_zero) |>.1 (le_antisymm hxy (sq_nonneg (x - y)))
        linarith
      have a1 := z0 a m (by linarith)
      have a2 := z0 b (z.getD 15) (by linarith)
      have a3 := z0 c x1 (by linarith)
      have a4 := z0 d x2 (by linarith)
      have a5 := z0 f x3 (by linarith)
      have a6 := z0 g r (by linarith)
      have a7 := z0 h v (by linarith)
      simp only [point, hx1, hx2, hx3, a1, a2, a3, a4, a5, a6, a7]
  rw [he] at h2
  obtain ⟨hj, hj'⟩ := List.getElem?_eq_some_iff.1 h2
  obtain ⟨hk', hk''⟩ := List.getElem?_eq_some_iff.1 hk
  exact (List.Nodup.getElem_inj_iff hd).1 (hj'.trans hk''.symm)

open HKR14 in
/-- C77: a scenario without `dist_jb` (not a required parameter) passes the checks, but its construction
raises `ValueError`, after the data file has been loaded. -/
theorem C77_no_distance (q : Search) (es ps : List (List ℝ)) (hl : es.length = ps.length) (loads : List Bool)
    (s : Scenario) (m v : ℝ) (z : Option ℝ) (t : String) (hm : s.get "mag" = .num m)
    (hv : s.get "v_s30" = .num v) (ht : s.get "mechanism" = .str t)
    (hz : s.get "depth_hyp" = Val.ofOpt z) (hr : s.get "dist_jb" = .none) :
    (∃ x, (construct q ⟨.archive (some es) (some ps), none, loads⟩ s).1.res = .error (.valueError x)) ∧
      (construct q ⟨.archive (some es) (some ps), none, loads⟩ s).2.cache = some ⟨es, ps⟩ := by
  obtain ⟨ev, h1, h2⟩ := event s hm hv ht hz (r := none) hr
  have hld : load (.archive (some es) (some ps)) = pure ⟨es, ps⟩ := load_archive (i := ⟨es, ps⟩) hl
  have hi : interpolator ⟨.archive (some es) (some ps), none, loads⟩ =
      (pure ⟨es, ps⟩, ⟨.archive (some es) (some ps), some ⟨es, ps⟩, loads ++ [true]⟩) := by
    unfold interpolator
    simp only [hld]
    rfl
  unfold construct
  simp only [h1, hi, and_true]
  rw [Py.bind_res_ok h1, Py.pure_bind']
  have hp : predict q ⟨es, ps⟩ ev.out =
      Py.raise (.valueError "'x' must be finite, check for nan or inf values") := by
    rw [h2]
    simp [predict, coord, Val.ofOpt]
  rw [hp]
  exact ⟨_, rfl⟩

/-! ### The hypotheses can be met -/

/-- a search rule exists -/
noncomputable def HKR14.firstSearch : HKR14.Search where
  find es x := argmin (es.map fun e => F.ofReal (HKR14.dist2 e x))
  lt es x h := by
    have := argmin_lt (l := es.map fun e => F.ofReal (HKR14.dist2 e x)) (by simpa using h)
    simpa using this
  le es x e he := by
    have hne : es ≠ [] := List.ne_nil_of_mem he
    have hlt := argmin_lt (l := es.map fun e => F.ofReal (HKR14.dist2 e x)) (by simpa using hne)
    have := argmin_le (l := es.map fun e => F.ofReal (HKR14.dist2 e x)) (F.ofReal (HKR14.dist2 e x))
      (List.mem_map_of_mem he)
    simp only [List.length_map] at hlt
    rw [List.getD_eq_getElem?_getD, List.getElem?_map, List.getElem?_eq_getElem hlt] at this
    rw [List.getD_eq_getElem?_getD, List.getElem?_eq_getElem hlt]
    simpa using this

open HKR14 in
example : ∃ (s : Scenario) (es ps : List (List ℝ)) (k : ℕ) (row : List ℝ), es.length = ps.length ∧ es.Nodup ∧
    (∀ e ∈ es, e.length = 7) ∧ s.get "mag" = .num 6 ∧ s.get "v_s30" = .num 500 ∧ s.get "mechanism" = .str "SS" ∧
    s.get "depth_hyp" = Val.ofOpt none ∧ s.get "dist_jb" = .num 20 ∧
    es[k]? = some (point 6 ((none : Option ℝ).getD 15) 20 500 "SS") ∧ ps[k]? = some row := by
  refine ⟨⟨[("mag", .num 6), ("v_s30", .num 500), ("mechanism", .str "SS"), ("dist_jb", .num 20)], []⟩,
    [[5, 15, 0, 1, 0, 20, 500], [6, 15, 0, 1, 0, 20, 500]], [[1, 2, 3, 4], [5, 6, 7, 8]], 1, [5, 6, 7, 8], rfl, ?_, ?_,
    ?_, ?_, ?_, ?_, ?_, ?_, rfl⟩
  · simp
  · simp
  all_goals simp [Scenario.get, Dict.get?, Val.ofOpt, point]

open HKR14 in
example : (load .missing).res = .error .ioError ∧ (load (.archive none none)).res = .error (.keyError "events") ∧
    (load (.archive (some [[1]]) (some [[2, 3]]))).res = .ok ⟨[[1]], [[2, 3]]⟩ := ⟨rfl, rfl, rfl⟩

open HKR14 in
example : ∃ s inst, (eventCls.new s).res = .ok inst := by
  obtain ⟨i, h, -⟩ := event ⟨[("mag", .num 6), ("v_s30", .num 500), ("mechanism", .str "SS")], []⟩ (m := 6) (v := 500)
    (t := "SS") (z := none) (r := none) (by simp [Scenario.get, Dict.get?]) (by simp [Scenario.get, Dict.get?])
    (by simp [Scenario.get, Dict.get?]) (by simp [Scenario.get, Dict.get?, Val.ofOpt])
    (by simp [Scenario.get, Dict.get?, Val.ofOpt])
  exact ⟨_, i, h⟩
