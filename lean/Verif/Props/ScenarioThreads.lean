import Verif.ScenarioThreads
import Verif.Props.Framework
import Verif.Models.C03

/-! # C128: models constructed while other threads edit the scenario -/

set_option linter.unusedSimpArgs false

namespace Building
variable {Out : Type}

theorem history_snoc (ss : List Scenario) (jobs : List (ModelClass Out × ℕ)) (sched : List Act) (a : Act) :
    history ss jobs (sched ++ [a]) = (history ss jobs sched).act a := by
  unfold history; rw [List.foldl_append]; rfl

/-- what is known of thread `k` -/
structure Known (ss : List Scenario) (jobs : List (ModelClass Out × ℕ)) (sched : List Act) (k : ℕ) (C : ModelClass Out) (r : ℕ)
    (b : Builder Out) (ts : List ℕ) (done : List Param) : Prop where
  cls : b.cls = C
  src : b.src = r
  params : done ++ b.todo = C.params
  len : ts.length = done.length
  inc : ts.Pairwise (· < ·)
  turn : ∀ t ∈ ts, sched[t]? = some (.run k)
  keys : b.got.map Prod.fst = done.map Param.name
  vals : ∀ (i : ℕ) (p : Param) (t : ℕ), done[i]? = some p → ts[i]? = some t →
    ∃ s, (history ss jobs (sched.take t)).scenarios[r]? = some s ∧ b.got[i]? = some (p.name, s.get p.name)
  result : ∀ x, b.result = some x → b.todo = [] ∧ x = C.rest b.got

theorem Known.snoc {ss : List Scenario} {jobs : List (ModelClass Out × ℕ)} {sched : List Act} {k : ℕ} {C : ModelClass Out} {r : ℕ}
    {b : Builder Out} {ts : List ℕ} {done : List Param} (h : Known ss jobs sched k C r b ts done) (a : Act) :
    Known ss jobs (sched ++ [a]) k C r b ts done := by
  have hlt : ∀ t ∈ ts, t < sched.length := fun t ht => (List.getElem?_eq_some_iff.1 (h.turn t ht)).1
  refine ⟨h.cls, h.src, h.params, h.len, h.inc, ?_, h.keys, ?_, h.result⟩
  · intro t ht
    rw [List.getElem?_append_left (hlt t ht)]
    exact h.turn t ht
  · intro i p t hp ht
    rw [List.take_append_of_le_length (hlt t (List.mem_of_getElem? ht)).le]
    exact h.vals i p t hp ht

theorem known (ss : List Scenario) (jobs : List (ModelClass Out × ℕ)) (k : ℕ) (C : ModelClass Out) (r : ℕ) (hj : jobs[k]? = some (C, r))
    (sched : List Act) : ∃ b ts done, (history ss jobs sched).builders[k]? = some b ∧ Known ss jobs sched k C r b ts done := by
  induction sched using List.reverseRecOn with
  | nil =>
    refine ⟨⟨C, r, [], C.params, none⟩, [], [], by simp [history, hj], ⟨rfl, rfl, rfl, rfl, by simp, by simp, rfl, by simp, by simp⟩⟩
  | append_singleton sched a ih =>
    obtain ⟨b, ts, done, hb, hk⟩ := ih
    rw [history_snoc]
    have hs := hk.snoc a
    cases a with
    | edit r' s' => exact ⟨b, ts, done, hb, hs⟩
    | run j =>
      by_cases e : j = k
      · subst e
        have hjl : j < (history ss jobs sched).builders.length := (List.getElem?_eq_some_iff.1 hb).1
        have hact : ((history ss jobs sched).act (.run j)).builders[j]? = some (b.step (history ss jobs sched).scenarios) := by
          simp only [State.act, hb]
          rw [List.getElem?_set, if_pos rfl, if_pos hjl]
        rw [hact]
        cases hres : b.result with
        | some x =>
          refine ⟨b, ts, done, ?_, hs⟩
          simp only [Builder.step, hres]
        | none =>
          cases htodo : b.todo with
          | nil =>
            refine ⟨{ b with result := some (b.cls.rest b.got) }, ts, done, ?_, ?_⟩
            · simp only [Builder.step, hres, htodo]
            · refine ⟨hs.cls, hs.src, hs.params, hs.len, hs.inc, hs.turn, hs.keys, hs.vals, ?_⟩
              intro x hx
              simp only [Option.some.injEq] at hx
              refine ⟨htodo, ?_⟩
              rw [← hx, hs.cls]
          | cons p ps =>
            cases hsc : (history ss jobs sched).scenarios[b.src]? with
            | none =>
              refine ⟨b, ts, done, ?_, hs⟩
              simp only [Builder.step, hres, htodo, hsc]
            | some s =>
              refine ⟨{ b with got := b.got ++ [(p.name, s.get p.name)], todo := ps }, ts ++ [sched.length], done ++ [p], ?_, ?_⟩
              · simp only [Builder.step, hres, htodo, hsc]
              · have hlt : ∀ t ∈ ts, t < sched.length := fun t ht => (List.getElem?_eq_some_iff.1 (hk.turn t ht)).1
                have hgl : b.got.length = done.length := by simpa using congrArg List.length hs.keys
                refine ⟨hs.cls, hs.src, ?_, by simp [hs.len], ?_, ?_, by simp [hs.keys], ?_, ?_⟩
                · rw [← hs.params, htodo]; simp
                · rw [List.pairwise_append]
                  exact ⟨hs.inc, by simp, by simpa using hlt⟩
                · intro t ht
                  rcases List.mem_append.1 ht with ht | ht
                  · exact hs.turn t ht
                  · rw [List.mem_singleton.1 ht]; simp
                · intro i q t hq ht
                  rcases lt_trichotomy i done.length with hi | hi | hi
                  · rw [List.getElem?_append_left hi] at hq
                    rw [List.getElem?_append_left (by rw [hs.len]; exact hi)] at ht
                    obtain ⟨s', h1, h2⟩ := hs.vals i q t hq ht
                    exact ⟨s', h1, by rw [List.getElem?_append_left (by rw [hgl]; exact hi)]; exact h2⟩
                  · subst hi
                    rw [List.getElem?_append_right le_rfl, Nat.sub_self] at hq
                    rw [List.getElem?_append_right (by rw [hs.len]), hs.len, Nat.sub_self] at ht
                    simp only [List.getElem?_cons_zero, Option.some.injEq] at hq ht
                    subst hq; subst ht
                    refine ⟨s, ?_, ?_⟩
                    · rw [List.take_append_of_le_length le_rfl, List.take_length, ← hk.src]; exact hsc
                    · rw [List.getElem?_append_right (by rw [hgl]), hgl, Nat.sub_self]; rfl
                  · have : done.length + 1 ≤ i := hi
                    rw [List.getElem?_eq_none (by simpa using this)] at hq
                    cases hq
                · intro x hx
                  simp only [hres] at hx
                  cases hx
      · refine ⟨b, ts, done, ?_, hs⟩
        unfold State.act
        cases hj' : (history ss jobs sched).builders[j]? with
        | none => simp only [hj']; exact hb
        | some b' => simp only [hj']; rw [List.getElem?_set, if_neg e]; exact hb

/-- looking up the keys of a dictionary with distinct keys gives the dictionary -/
theorem lookup_self : ∀ (d : Dict), (d.map Prod.fst).Nodup → d.map (fun e => (e.1, (Dict.get? d e.1).getD .none)) = d
  | [], _ => rfl
  | (k, v) :: d, h => by
    have h' := List.nodup_cons.1 (by simpa using h : (k :: d.map Prod.fst).Nodup)
    simp only [List.map_cons, Dict.get?, if_true, Option.getD_some]
    refine congrArg _ ?_
    refine Eq.trans (List.map_congr_left fun e he => ?_) (lookup_self d h'.2)
    have : k ≠ e.1 := by
      rintro rfl
      exact h'.1 (List.mem_map_of_mem he)
    rw [if_neg this]

theorem lookup_at : ∀ (d : Dict) (i : ℕ) (k : String) (v : Val), (d.map Prod.fst).Nodup → d[i]? = some (k, v) → Dict.get? d k = some v
  | [], i, k, v, _, h => by simp at h
  | (k', v') :: d, 0, k, v, _, h => by
    simp only [List.getElem?_cons_zero, Option.some.injEq, Prod.mk.injEq] at h
    simp [Dict.get?, h.1, h.2]
  | (k', v') :: d, i + 1, k, v, hn, h => by
    have hn' := List.nodup_cons.1 (by simpa using hn : (k' :: d.map Prod.fst).Nodup)
    simp only [List.getElem?_cons_succ] at h
    have hne : k' ≠ k := by
      rintro rfl
      exact hn'.1 (List.mem_map.2 ⟨(k', v), List.mem_of_getElem? h, rfl⟩)
    simp only [Dict.get?, if_neg hne]
    exact lookup_at d i k v hn'.2 h

end Building

open Building

/-- C128: whatever the other threads do, a constructor that finished gave what it gives for a mapping in which
every declared parameter has the value the caller's scenario had at one of the thread's own turns, the turns
in the order of the parameters: at worst a mixture of successive contents, never anything else. -/
theorem C128_mixture {Out : Type} (ss : List Scenario) (jobs : List (ModelClass Out × ℕ)) (sched : List Act) (k : ℕ) (C : ModelClass Out)
    (r : ℕ) (hj : jobs[k]? = some (C, r)) (hn : (C.params.map Param.name).Nodup) (b : Builder Out) (x : Py (Instance Out))
    (hb : (history ss jobs sched).builders[k]? = some b) (hx : b.result = some x) :
    ∃ (get : String → Val) (ts : List ℕ), x = C.newFrom get ∧ ts.length = C.params.length ∧ ts.Pairwise (· < ·) ∧
      (∀ t ∈ ts, sched[t]? = some (.run k)) ∧
      ∀ (i : ℕ) (p : Param) (t : ℕ), C.params[i]? = some p → ts[i]? = some t →
        ∃ s, (history ss jobs (sched.take t)).scenarios[r]? = some s ∧ get p.name = s.get p.name := by
  obtain ⟨b', ts, done, hb', hk⟩ := known ss jobs k C r hj sched
  rw [hb] at hb'
  cases hb'
  obtain ⟨h1, h2⟩ := hk.result x hx
  have hd : done = C.params := by rw [← hk.params, h1, List.append_nil]
  subst hd
  have hnk : (b.got.map Prod.fst).Nodup := by rw [hk.keys]; exact hn
  refine ⟨fun n => (Dict.get? b.got n).getD .none, ts, ?_, hk.len, hk.inc, hk.turn, ?_⟩
  · rw [h2]
    unfold ModelClass.newFrom ModelClass.rest
    have : Model.select C.params (fun n => (Dict.get? b.got n).getD .none) = b.got := by
      unfold Model.select
      have e : C.params.map (fun p => (p.name, (Dict.get? b.got p.name).getD .none)) =
          (C.params.map Param.name).map fun n => (n, (Dict.get? b.got n).getD .none) := by
        rw [List.map_map]; rfl
      rw [e, ← hk.keys, List.map_map]
      exact lookup_self _ hnk
    rw [this]
  · intro i p t hp ht
    obtain ⟨s, hs, hg⟩ := hk.vals i p t hp ht
    refine ⟨s, hs, ?_⟩
    simp only [lookup_at _ _ _ _ hnk hg, Option.getD_some]

/-- C128: if at each of the thread's turns the declared parameters have the values they have in `s`, the
constructor gives exactly what it gives for `s`: edits before the first and after the last turn, and of
other keys, do not matter. -/
theorem C128_quiet {Out : Type} (ss : List Scenario) (jobs : List (ModelClass Out × ℕ)) (sched : List Act) (k : ℕ) (C : ModelClass Out)
    (r : ℕ) (hj : jobs[k]? = some (C, r)) (hn : (C.params.map Param.name).Nodup) (b : Builder Out) (x : Py (Instance Out))
    (hb : (history ss jobs sched).builders[k]? = some b) (hx : b.result = some x) (s : Scenario)
    (hs : ∀ t s', sched[t]? = some (.run k) → (history ss jobs (sched.take t)).scenarios[r]? = some s' →
      ∀ p ∈ C.params, s'.get p.name = s.get p.name) : x = C.new s := by
  obtain ⟨get, ts, rfl, hl, -, ht, hv⟩ := C128_mixture ss jobs sched k C r hj hn b x hb hx
  unfold ModelClass.new ModelClass.newFrom
  have : Model.select C.params get = Model.select C.params s.get := by
    unfold Model.select
    refine List.map_congr_left fun p hp => ?_
    obtain ⟨i, hi, rfl⟩ := List.mem_iff_getElem.1 hp
    have hi' : i < ts.length := by rw [hl]; exact hi
    obtain ⟨s', h1, h2⟩ := hv i _ ts[i] (List.getElem?_eq_getElem hi) (List.getElem?_eq_getElem hi')
    rw [h2, hs _ s' (ht _ (List.getElem_mem hi')) h1 _ (List.getElem_mem hi)]
  rw [this]

/-- C128: constructors, finished or not, change no scenario of the callers: at every moment each one is what
the callers' edits made of it. -/
theorem C128_scenarios {Out : Type} (ss : List Scenario) (jobs : List (ModelClass Out × ℕ)) (sched : List Act) (r : ℕ) (s : Scenario)
    (hr : ss[r]? = some s) : (history ss jobs sched).scenarios[r]? = some (edited r s sched) := by
  induction sched using List.reverseRecOn with
  | nil => exact hr
  | append_singleton sched a ih =>
    rw [history_snoc]
    unfold edited at ih ⊢
    rw [List.foldl_append]
    have hl : r < (history ss jobs sched).scenarios.length := (List.getElem?_eq_some_iff.1 ih).1
    cases a with
    | run k =>
      simp only [List.foldl_cons, List.foldl_nil, State.act]
      cases (history ss jobs sched).builders[k]? with
      | none => exact ih
      | some b => exact ih
    | edit r' s' =>
      simp only [List.foldl_cons, List.foldl_nil, State.act]
      rw [List.getElem?_set]
      by_cases e : r' = r
      · subst e; simp [hl]
      · rw [if_neg e, if_neg e]; exact ih

/-- C128: a finished construction stays as it is, whatever happens later -/
theorem C128_final {Out : Type} (ss : List Scenario) (jobs : List (ModelClass Out × ℕ)) (sched later : List Act) (k : ℕ)
    (b : Builder Out) (x : Py (Instance Out)) (hb : (history ss jobs sched).builders[k]? = some b) (hx : b.result = some x) :
    (history ss jobs (sched ++ later)).builders[k]? = some b := by
  induction later using List.reverseRecOn with
  | nil => rw [List.append_nil]; exact hb
  | append_singleton later a ih =>
    rw [← List.append_assoc, history_snoc]
    cases a with
    | edit r s => exact ih
    | run j =>
      simp only [State.act]
      cases hj : (history ss jobs (sched ++ later)).builders[j]? with
      | none => exact ih
      | some b' =>
        rw [List.getElem?_set]
        by_cases e : j = k
        · subst e
          rw [ih] at hj
          cases hj
          have hl : j < (history ss jobs (sched ++ later)).builders.length := (List.getElem?_eq_some_iff.1 ih).1
          rw [if_pos rfl, if_pos hl]
          simp only [Builder.step, hx]
        · rw [if_neg e]; exact ih

/-- how often thread `k` is chosen -/
def Building.turns (k : ℕ) (sched : List Act) : ℕ :=
  (sched.filter fun
    | .run j => j = k
    | .edit _ _ => false).length

/-- C128: no thread waits for another: a constructor has returned or raised after as many turns of its own as the
class has parameters, and one more, whatever the others do. -/
theorem C128_no_waiting {Out : Type} (ss : List Scenario) (jobs : List (ModelClass Out × ℕ)) (sched : List Act) (k : ℕ) (C : ModelClass Out)
    (r : ℕ) (hj : jobs[k]? = some (C, r)) (hr : r < ss.length) (ht : C.params.length < turns k sched) :
    ∃ b x, (history ss jobs sched).builders[k]? = some b ∧ b.result = some x := by
  suffices H : ∃ b, (history ss jobs sched).builders[k]? = some b ∧ b.src = r ∧
      (b.result = none → turns k sched + b.todo.length = C.params.length) by
    obtain ⟨b, hb, -, h⟩ := H
    cases hres : b.result with
    | some x => exact ⟨b, x, hb, hres⟩
    | none => have := h hres; omega
  clear ht
  induction sched using List.reverseRecOn with
  | nil => exact ⟨⟨C, r, [], C.params, none⟩, by simp [history, hj], rfl, fun _ => by simp [turns]⟩
  | append_singleton sched a ih =>
    obtain ⟨b, hb, hsrc, h⟩ := ih
    rw [history_snoc]
    cases a with
    | edit r' s' => exact ⟨b, hb, hsrc, fun hn => by rw [← h hn]; simp [turns]⟩
    | run j =>
      by_cases e : j = k
      · subst e
        have hjl : j < (history ss jobs sched).builders.length := (List.getElem?_eq_some_iff.1 hb).1
        refine ⟨b.step (history ss jobs sched).scenarios, ?_, ?_⟩
        · simp only [State.act, hb]
          rw [List.getElem?_set, if_pos rfl, if_pos hjl]
        have htn : turns j (sched ++ [Act.run j]) = turns j sched + 1 := by simp [turns]
        have hs := C128_scenarios ss jobs sched r ss[r] (by simp [hr])
        cases hres : b.result with
        | some x => simp [Builder.step, hres, hsrc]
        | none =>
          cases htodo : b.todo with
          | nil => simp [Builder.step, hres, htodo, hsrc]
          | cons p ps =>
            have := h hres
            rw [htodo] at this
            simp only [Builder.step, hres, htodo, hsrc, hs]
            refine ⟨trivial, fun _ => ?_⟩
            simp only [List.length_cons] at this
            omega
      · refine ⟨b, ?_, hsrc, fun hn => ?_⟩
        · unfold State.act
          cases hj' : (history ss jobs sched).builders[j]? with
          | none => simp only [hj']; exact hb
          | some b' => simp only [hj']; rw [List.getElem?_set, if_neg e]; exact hb
        · rw [← h hn]; simp [turns, e]

/-- a torn read: magnitude 5 at 10 km is edited to magnitude 8 at 200 km between the two reads of
Campbell2003; the constructor gives the motion of magnitude 5 at 200 km, which the scenario never was -/
example : ∃ (s s' : Scenario) (sched : List Act) (b : Builder GmmOut), s.get "mag" = .num 5 ∧ s.get "dist_rup" = .num 10 ∧
    s'.get "mag" = .num 8 ∧ s'.get "dist_rup" = .num 200 ∧ (C03.cls.params.map Param.name).Nodup ∧
    (history [s] [(C03.cls, 0)] sched).builders[0]? = some b ∧
    b.result = some (C03.cls.new ⟨[("mag", .num 5), ("dist_rup", .num 200)], []⟩) := by
  refine ⟨⟨[("mag", .num 5), ("dist_rup", .num 10)], []⟩, ⟨[("mag", .num 8), ("dist_rup", .num 200)], []⟩,
    [.run 0, .edit 0 ⟨[("mag", .num 8), ("dist_rup", .num 200)], []⟩, .run 0, .run 0],
    ⟨C03.cls, 0, [("mag", .num 5), ("dist_rup", .num 200)], [], some (C03.cls.rest [("mag", .num 5), ("dist_rup", .num 200)])⟩,
    ?_, ?_, ?_, ?_, ?_, ?_, ?_⟩
  · simp [Scenario.get, Dict.get?]
  · simp [Scenario.get, Dict.get?]
  · simp [Scenario.get, Dict.get?]
  · simp [Scenario.get, Dict.get?]
  · decide +kernel
  · have hp : C03.cls.params = [numP "mag" true (some 5) (some 8.2), numP "dist_rup" true none (some 1000)] := rfl
    simp [history, State.act, Builder.step, hp, Scenario.get, Dict.get?, numP]
  · have hp : C03.cls.params = [numP "mag" true (some 5) (some 8.2), numP "dist_rup" true none (some 1000)] := rfl
    simp [ModelClass.new, ModelClass.newFrom, ModelClass.rest, Model.select, hp, Scenario.get, Dict.get?, numP]
