import Verif.Models.HKR14Threads
import Verif.Props.HKR14

/-! # C125: threads that construct HermkesKuehnRiggelsen2014 at the same time -/

set_option linter.unusedSimpArgs false

namespace HKR14

/-- what a construction gives once the interpolator is there -/
theorem fresh_query (q : Search) {f : DataFile} {i : Interp} (hf : load f = pure i) (s : Scenario)
    {inst : Instance (List Val)} (h : (eventCls.new s).res = .ok inst) :
    (do
      let inst ← eventCls.new s
      let o ← predict q i inst.out
      pure ⟨inst.scenario, o⟩) = fresh q f s := by
  unfold fresh construct
  simp only [h]
  rw [interp_none (w := ⟨f, none, []⟩) rfl, hf]
  simp only [Py.pure_bind']

theorem fresh_error (q : Search) (f : DataFile) (s : Scenario) {e : PyErr} (h : (eventCls.new s).res = .error e) :
    fresh q f s = ⟨(eventCls.new s).log, .error e⟩ := by
  unfold fresh construct
  simp only [h]

theorem load_error {f : DataFile} {e : PyErr} (h : (load f).res = .error e) : load f = Py.raise e := by
  unfold load at h ⊢
  split at h
  · cases h; rfl
  · cases h; rfl
  · cases h; rfl
  · split at h
    · cases h
    · rw [if_neg (by assumption)]; cases h; rfl

theorem fresh_noload (q : Search) {f : DataFile} {e : PyErr} (hf : (load f).res = .error e) (s : Scenario)
    {inst : Instance (List Val)} (h : (eventCls.new s).res = .ok inst) :
    (do let _ ← eventCls.new s; Py.raise e) = fresh q f s := by
  unfold fresh construct
  simp only [h]
  rw [interp_none (w := ⟨f, none, []⟩) rfl, load_error hf]
  rfl

/-- what is true of a thread that constructs from `s`, when the files in `fs` have been seen -/
def Fine (q : Search) (fs : List DataFile) (cache : Option Interp) (s : Scenario) : Thread → Prop
  | .start s' => s' = s
  | .test p => p = eventCls.new s ∧ ∃ inst, p.res = .ok inst
  | .read p => p = eventCls.new s ∧ ∃ inst, p.res = .ok inst
  | .assign p i => (p = eventCls.new s ∧ ∃ inst, p.res = .ok inst) ∧ ∃ f ∈ fs, load f = pure i
  | .query p => (p = eventCls.new s ∧ ∃ inst, p.res = .ok inst) ∧ cache ≠ none
  | .done r => ∃ f ∈ fs, r = fresh q f s

/-- the invariant -/
structure Inv (q : Search) (fs : List DataFile) (ss : List Scenario) (c : Threads) : Prop where
  file : c.world.file ∈ fs
  cache : ∀ i, c.world.cache = some i → ∃ f ∈ fs, load f = pure i
  len : c.threads.length = ss.length
  fine : ∀ (k : ℕ) (t : Thread) (s : Scenario), c.threads[k]? = some t → ss[k]? = some s → Fine q fs c.world.cache s t

theorem Fine.mono {q : Search} {fs gs : List DataFile} {ca cb : Option Interp} {s : Scenario} {t : Thread}
    (h : Fine q fs ca s t) (hs : ∀ f ∈ fs, f ∈ gs) (hc : ca ≠ none → cb ≠ none) : Fine q gs cb s t := by
  cases t with
  | start s' => exact h
  | test p => exact h
  | read p => exact h
  | assign p i => exact ⟨h.1, h.2.imp fun f hf => ⟨hs f hf.1, hf.2⟩⟩
  | query p => exact ⟨h.1, hc h.2⟩
  | done r => exact h.imp fun f hf => ⟨hs f hf.1, hf.2⟩

/-- a step keeps the thread fine, the global full once it is, and filled from a file that was there -/
theorem step_fine (q : Search) {fs : List DataFile} {w : World} {s : Scenario} {t : Thread} (hf : w.file ∈ fs)
    (hc : ∀ i, w.cache = some i → ∃ f ∈ fs, load f = pure i) (h : Fine q fs w.cache s t) :
    Fine q fs (t.step q w).1.cache s (t.step q w).2 ∧ (t.step q w).1.file = w.file ∧
      (w.cache ≠ none → (t.step q w).1.cache ≠ none) ∧ ∀ i, (t.step q w).1.cache = some i → ∃ f ∈ fs, load f = pure i := by
  cases t with
  | start s' =>
    obtain rfl : s' = s := h
    cases he : (eventCls.new s').res with
    | error e =>
      simp only [Thread.step, he]
      exact ⟨⟨_, hf, (fresh_error q _ s' he).symm⟩, trivial, id, hc⟩
    | ok inst =>
      simp only [Thread.step, he]
      exact ⟨⟨rfl, inst, he⟩, trivial, id, hc⟩
  | test p =>
    cases hw : w.cache with
    | none =>
      simp only [Thread.step, hw]
      exact ⟨h, trivial, fun h => h, fun i hi => by simp at hi⟩
    | some i =>
      simp only [Thread.step, hw]
      exact ⟨⟨h, by simp⟩, trivial, fun h => h, fun j hj => hc j (hw.trans hj)⟩
  | read p =>
    obtain ⟨rfl, inst, hi⟩ := h
    cases hl : (load w.file).res with
    | ok i =>
      simp only [Thread.step, hl]
      exact ⟨⟨⟨rfl, inst, hi⟩, _, hf, load_ok hl⟩, trivial, id, hc⟩
    | error e =>
      simp only [Thread.step, hl]
      exact ⟨⟨_, hf, fresh_noload q hl s hi⟩, trivial, id, hc⟩
  | assign p i =>
    refine ⟨⟨h.1, by simp [Thread.step]⟩, rfl, by simp [Thread.step], ?_⟩
    intro j hj
    simp only [Thread.step, Option.some.injEq] at hj
    subst hj
    exact h.2
  | query p =>
    obtain ⟨⟨rfl, inst, hi⟩, hn⟩ := h
    cases hw : w.cache with
    | none => exact absurd hw hn
    | some i =>
      obtain ⟨f, hf', hl⟩ := hc i hw
      simp only [Thread.step, hw]
      exact ⟨⟨f, hf', fresh_query q hl s hi⟩, trivial, fun h => h, fun j hj => hc j (hw.trans hj)⟩
  | done r => exact ⟨h, rfl, id, hc⟩

/-- a step of a thread keeps the invariant -/
theorem run_inv (q : Search) {fs : List DataFile} {ss : List Scenario} {c : Threads} (h : Inv q fs ss c) (k : ℕ) :
    Inv q fs ss (c.act q (.run k)) := by
  unfold Threads.act
  simp only
  cases ht : c.threads[k]? with
  | none => exact h
  | some t =>
    have hk : k < c.threads.length := (List.getElem?_eq_some_iff.1 ht).1
    have hs : ss[k]? = some (ss[k]'(by rw [← h.len]; exact hk)) := List.getElem?_eq_getElem _
    obtain ⟨h1, h2, h3, h4⟩ := step_fine q h.file h.cache (h.fine k t _ ht hs)
    refine ⟨by rw [h2]; exact h.file, h4, by simpa using h.len, ?_⟩
    intro j t' s' hj hs'
    rw [List.getElem?_set] at hj
    by_cases e : k = j
    · subst e
      rw [hs] at hs'
      rw [if_pos rfl, if_pos hk] at hj
      cases hs'; cases hj
      exact h1
    · rw [if_neg e] at hj
      exact (h.fine j t' s' hj hs').mono (fun _ h => h) h3

/-- a replacement -/
theorem replace_inv (q : Search) {fs : List DataFile} {ss : List Scenario} {c : Threads} (h : Inv q fs ss c) (f : DataFile)
    (hf : f ∈ fs) : Inv q fs ss (c.act q (.replace f)) := ⟨hf, h.cache, h.len, h.fine⟩

theorem sched_inv (q : Search) {fs : List DataFile} {ss : List Scenario} (sched : List Act)
    (hs : ∀ f, Act.replace f ∈ sched → f ∈ fs) : ∀ c : Threads, Inv q fs ss c → Inv q fs ss (sched.foldl (Threads.act q) c) := by
  induction sched with
  | nil => intro c h; exact h
  | cons a sched ih =>
    intro c h
    refine ih (fun f hf => hs f (by simp [hf])) _ ?_
    cases a with
    | run k => exact run_inv q h k
    | replace f => exact replace_inv q h f (hs f (by simp))

theorem start_inv (q : Search) {fs : List DataFile} (f : DataFile) (hf : f ∈ fs) (ss : List Scenario) :
    Inv q fs ss ⟨⟨f, none, []⟩, ss.map .start⟩ := by
  refine ⟨hf, fun i h => by simp at h, by simp, ?_⟩
  intro k t s ht hs
  simp only [List.getElem?_map, hs, Option.map_some, Option.some.injEq] at ht
  subst ht
  rfl

/-- steps a thread has still to do, at most -/
def left : Thread → ℕ
  | .start _ => 5
  | .test _ => 4
  | .read _ => 3
  | .assign _ _ => 2
  | .query _ => 1
  | .done _ => 0

theorem left_step (q : Search) (w : World) (t : Thread) : left (t.step q w).2 ≤ left t - 1 := by
  cases t with
  | start s => cases h : (eventCls.new s).res <;> simp [Thread.step, h, left]
  | test p => cases h : w.cache <;> simp [Thread.step, h, left]
  | read p => cases h : (load w.file).res <;> simp [Thread.step, h, left]
  | assign p i => simp [Thread.step, left]
  | query p => cases h : w.cache <;> simp [Thread.step, h, left]
  | done r => simp [Thread.step, left]

theorem left_sched (q : Search) (k : ℕ) (sched : List Act) : ∀ (c : Threads) (t : Thread), c.threads[k]? = some t →
    ∃ t', (sched.foldl (Threads.act q) c).threads[k]? = some t' ∧ left t' ≤ left t - turns k sched := by
  induction sched with
  | nil => intro c t h; exact ⟨t, h, by simp [turns]⟩
  | cons a sched ih =>
    intro c t h
    cases a with
    | replace f => exact ih _ t h
    | run j =>
      have hk : k < c.threads.length := (List.getElem?_eq_some_iff.1 h).1
      by_cases e : j = k
      · subst e
        have h' : (c.act q (.run j)).threads[j]? = some (t.step q c.world).2 := by
          simp only [Threads.act, h]
          rw [List.getElem?_set, if_pos rfl, if_pos hk]
        obtain ⟨t', h1, h2⟩ := ih _ _ h'
        refine ⟨t', h1, ?_⟩
        have := left_step q c.world t
        have hn : turns j (Act.run j :: sched) = turns j sched + 1 := by simp [turns]
        omega
      · have h' : (c.act q (.run j)).threads[k]? = some t := by
          unfold Threads.act
          simp only
          split
          · exact h
          · simp [List.getElem?_set, e, h]
        obtain ⟨t', h1, h2⟩ := ih _ _ h'
        refine ⟨t', h1, ?_⟩
        have hn : turns k (Act.run j :: sched) = turns k sched := by simp [turns, e]
        omega

/-- before reading the file -/
def ahead : Thread → Bool
  | .start _ => true
  | .test _ => true
  | .read _ => true
  | _ => false

/-- about to read the file -/
def reading : Thread → Bool
  | .read _ => true
  | _ => false

theorem ahead_step (q : Search) (w : World) (t : Thread) :
    (t.step q w).1.loads.length + (ahead (t.step q w).2).toNat ≤ w.loads.length + (ahead t).toNat := by
  cases t with
  | start s => cases h : (eventCls.new s).res <;> simp [Thread.step, h, ahead]
  | test p => cases h : w.cache <;> simp [Thread.step, h, ahead]
  | read p => cases h : (load w.file).res <;> simp [Thread.step, h, ahead]
  | assign p i => simp [Thread.step, ahead]
  | query p => cases h : w.cache <;> simp [Thread.step, h, ahead]
  | done r => simp [Thread.step, ahead]

theorem reading_step (q : Search) (w : World) (hw : w.cache ≠ none) (t : Thread) :
    (t.step q w).1.loads.length + (reading (t.step q w).2).toNat ≤ w.loads.length + (reading t).toNat ∧
      (t.step q w).1.cache ≠ none := by
  cases t with
  | start s => cases h : (eventCls.new s).res <;> simp [Thread.step, h, reading, hw]
  | test p =>
    cases h : w.cache with
    | none => exact absurd h hw
    | some i => simp [Thread.step, h, reading]
  | read p => cases h : (load w.file).res <;> simp [Thread.step, h, reading, hw]
  | assign p i => simp [Thread.step, reading]
  | query p =>
    cases h : w.cache with
    | none => exact absurd h hw
    | some i => simp [Thread.step, h, reading]
  | done r => simp [Thread.step, reading, hw]

/-- replacing an entry in a count -/
theorem countP_put {α : Type} (p : α → Bool) : ∀ (l : List α) (k : ℕ) (a b : α), l[k]? = some a →
    (l.set k b).countP p + (p a).toNat = l.countP p + (p b).toNat
  | [], k, a, b, h => by simp at h
  | x :: l, 0, a, b, h => by
    simp only [List.getElem?_cons_zero, Option.some.injEq] at h
    subst h
    simp only [List.set_cons_zero, List.countP_cons]
    cases p x <;> cases p b <;> simp
  | x :: l, k + 1, a, b, h => by
    simp only [List.getElem?_cons_succ] at h
    have := countP_put p l k a b h
    simp only [List.set_cons_succ, List.countP_cons]
    omega

theorem ahead_act (q : Search) (c : Threads) (a : Act) :
    (c.act q a).world.loads.length + (c.act q a).threads.countP ahead ≤ c.world.loads.length + c.threads.countP ahead := by
  cases a with
  | replace f => exact le_refl _
  | run k =>
    cases h : c.threads[k]? with
    | none => simp [Threads.act, h]
    | some t =>
      have h1 := ahead_step q c.world t
      have h2 := countP_put ahead c.threads k t (t.step q c.world).2 h
      simp only [Threads.act, h]
      omega

theorem reading_act (q : Search) (c : Threads) (hc : c.world.cache ≠ none) (a : Act) :
    (c.act q a).world.loads.length + (c.act q a).threads.countP reading ≤
      c.world.loads.length + c.threads.countP reading ∧ (c.act q a).world.cache ≠ none := by
  cases a with
  | replace f => exact ⟨le_refl _, hc⟩
  | run k =>
    cases h : c.threads[k]? with
    | none => simp [Threads.act, h, hc]
    | some t =>
      have h1 := reading_step q c.world hc t
      have h2 := countP_put reading c.threads k t (t.step q c.world).2 h
      simp only [Threads.act, h]
      exact ⟨by omega, h1.2⟩

theorem ahead_sched (q : Search) (sched : List Act) : ∀ c : Threads,
    (sched.foldl (Threads.act q) c).world.loads.length + (sched.foldl (Threads.act q) c).threads.countP ahead ≤
      c.world.loads.length + c.threads.countP ahead := by
  induction sched with
  | nil => intro c; exact le_refl _
  | cons a sched ih => intro c; exact (ih _).trans (ahead_act q c a)

theorem reading_sched (q : Search) (sched : List Act) : ∀ c : Threads, c.world.cache ≠ none →
    (sched.foldl (Threads.act q) c).world.loads.length + (sched.foldl (Threads.act q) c).threads.countP reading ≤
      c.world.loads.length + c.threads.countP reading := by
  induction sched with
  | nil => intro c _; exact le_refl _
  | cons a sched ih =>
    intro c hc
    exact (ih _ (reading_act q c hc a).2).trans (reading_act q c hc a).1

end HKR14

open HKR14

/-- C125: however the steps of the threads are interleaved, with the data file replaced any number of
times meanwhile and with threads stopped anywhere, a constructor that returned or raised gave exactly what
it gives alone in a fresh interpreter with one of those files. -/
theorem C125_result (q : Search) (f : DataFile) (ss : List Scenario) (sched : List Act) (k : ℕ) (s : Scenario) (r : Py (Instance GmmOut))
    (hs : ss[k]? = some s) (hr : (interleave q f ss sched).threads[k]? = some (.done r)) :
    ∃ g ∈ filesOf f sched, r = fresh q g s := by
  have h := sched_inv q (fs := filesOf f sched) (ss := ss) sched ?_ _ (start_inv q f (by simp [filesOf]) ss)
  · exact h.fine k _ s hr hs
  · intro g hg
    simp only [filesOf, List.mem_cons, List.mem_filterMap]
    exact Or.inr ⟨_, hg, rfl⟩

/-- C125: with the file in place all the time, exactly what it gives alone -/
theorem C125_same_file (q : Search) (f : DataFile) (ss : List Scenario) (turn : List ℕ) (k : ℕ) (s : Scenario) (r : Py (Instance GmmOut))
    (hs : ss[k]? = some s) (hr : (interleave q f ss (turn.map .run)).threads[k]? = some (.done r)) : r = fresh q f s := by
  obtain ⟨g, hg, e⟩ := C125_result q f ss _ k s r hs hr
  have : filesOf f (turn.map .run) = [f] := by
    simp [filesOf, List.filterMap_eq_nil_iff]
  rw [this, List.mem_singleton] at hg
  rw [e, hg]

/-- C125: no thread waits for another: after five turns of its own its constructor has returned or
raised, whatever the others did or wherever they stopped -/
theorem C125_no_waiting (q : Search) (f : DataFile) (ss : List Scenario) (sched : List Act) (k : ℕ) (hk : k < ss.length)
    (h : 5 ≤ turns k sched) : ∃ r, (interleave q f ss sched).threads[k]? = some (.done r) := by
  obtain ⟨t, h1, h2⟩ := left_sched q k sched ⟨⟨f, none, []⟩, ss.map .start⟩ (.start ss[k]) (by simp [hk])
  have h3 : left t = 0 := by
    have : left (.start ss[k]) = 5 := rfl
    omega
  cases t with
  | done r => exact ⟨r, h1⟩
  | _ => simp [left] at h3

/-- C125: a thread that is not interrupted does exactly what the constructor of C58 and C77 does, from any
state of the interpreter and any file: same result, same global, same loads -/
theorem C125_alone (q : Search) (w : World) (s : Scenario) :
    (List.replicate 5 (Act.run 0)).foldl (Threads.act q) ⟨w, [.start s]⟩ = ⟨(construct q w s).2, [.done (construct q w s).1]⟩ := by
  simp only [List.replicate, List.foldl_cons, List.foldl_nil]
  cases hp : (eventCls.new s).res with
  | error e => simp [Threads.act, Thread.step, construct, hp]
  | ok inst =>
    cases hw : w.cache with
    | some i => simp [Threads.act, Thread.step, construct, hp, interpolator, hw]
    | none =>
      cases hl : (load w.file).res with
      | error e => simp [Threads.act, Thread.step, construct, hp, interpolator, hw, hl, load_error hl]
      | ok i => simp [Threads.act, Thread.step, construct, hp, interpolator, hw, hl, load_ok hl]

/-- C125: together the threads read the file at most once each -/
theorem C125_loads (q : Search) (f : DataFile) (ss : List Scenario) (sched : List Act) :
    (interleave q f ss sched).world.loads.length ≤ ss.length := by
  have h := ahead_sched q sched ⟨⟨f, none, []⟩, ss.map .start⟩
  have h2 : (ss.map Thread.start).countP ahead ≤ (ss.map Thread.start).length := List.countP_le_length
  simp only [List.length_nil, List.length_map] at h h2
  unfold interleave
  omega

/-- C125: once the global holds an interpolator, only the threads that found it empty before and have not
read the file yet can still read it; a constructor called from then on does not. -/
theorem C125_late (q : Search) (f : DataFile) (ss : List Scenario) (before after : List Act)
    (h : (interleave q f ss before).world.cache ≠ none) :
    (interleave q f ss (before ++ after)).world.loads.length ≤ (interleave q f ss before).world.loads.length +
      (interleave q f ss before).threads.countP reading := by
  unfold interleave at h ⊢
  rw [List.foldl_append]
  exact (Nat.le_add_right _ _).trans (reading_sched q after _ h)

/-- a scenario the class accepts -/
def HKR14.sample : Scenario := ⟨[("mag", .num 6), ("v_s30", .num 500), ("mechanism", .str "SS"), ("dist_jb", .num 20)], []⟩

theorem HKR14.sample_ok : ∃ inst, (eventCls.new HKR14.sample).res = .ok inst := by
  obtain ⟨i, h, -⟩ := event HKR14.sample (m := 6) (v := 500)
    (t := "SS") (z := none) (r := some 20) (by simp [HKR14.sample, Scenario.get, Dict.get?]) (by simp [HKR14.sample, Scenario.get, Dict.get?])
    (by simp [HKR14.sample, Scenario.get, Dict.get?]) (by simp [HKR14.sample, Scenario.get, Dict.get?, Val.ofOpt])
    (by simp [HKR14.sample, Scenario.get, Dict.get?, Val.ofOpt])
  exact ⟨i, h⟩

/-- two threads that both find the global empty both read the file: with threads, unlike C58, the file is
read more than once; and both have then finished -/
example (q : Search) : ∃ (f : DataFile) (ss : List Scenario) (sched : List Act), ss.length = 2 ∧
    (interleave q f ss sched).world.loads = [true, true] ∧
    ∀ k < 2, 5 ≤ turns k sched ∧ ∃ r, (interleave q f ss sched).threads[k]? = some (.done r) := by
  obtain ⟨inst, h⟩ := HKR14.sample_ok
  refine ⟨.archive (some [[1]]) (some [[2, 3]]), [HKR14.sample, HKR14.sample],
    [.run 0, .run 1, .run 0, .run 1, .run 0, .run 1, .run 0, .run 0, .run 1, .run 1], rfl, ?_, ?_⟩
  · simp [interleave, Threads.act, Thread.step, h, load]
  · intro k hk
    have h5 : 5 ≤ turns k [.run 0, .run 1, .run 0, .run 1, .run 0, .run 1, .run 0, .run 0, .run 1, .run 1] := by
      obtain rfl | rfl : k = 0 ∨ k = 1 := by omega
      · simp [turns]
      · simp [turns]
    exact ⟨h5, C125_no_waiting q _ _ _ k hk h5⟩

/-- one thread fills the global from the first file, the file is then replaced, and the other thread's
result comes from the first file -/
example (q : Search) : ∃ (f g : DataFile) (ss : List Scenario) (sched : List Act), g ∈ filesOf f sched ∧ f ≠ g ∧ 5 ≤ turns 1 sched ∧
    (interleave q f ss sched).world.cache ≠ none ∧ (interleave q f ss sched).world.file = g ∧
    ∃ r, (interleave q f ss sched).threads[1]? = some (.done r) ∧ r = fresh q f HKR14.sample := by
  obtain ⟨inst, h⟩ := HKR14.sample_ok
  refine ⟨.archive (some [[1]]) (some [[2, 3]]), .missing, [HKR14.sample, HKR14.sample],
    [.run 0, .run 0, .run 0, .run 0, .replace .missing, .run 1, .run 1, .run 1, .run 1, .run 1], ?_, ?_, ?_, ?_, ?_, ?_⟩
  · simp [filesOf]
  · simp
  · simp [turns]
  · simp [interleave, Threads.act, Thread.step, h, load]
  · simp [interleave, Threads.act, Thread.step, h, load]
  · refine ⟨_, ?_, (fresh_query q (f := .archive (some [[1]]) (some [[2, 3]])) (i := ⟨[[1]], [[2, 3]]⟩) rfl HKR14.sample h)⟩
    simp [interleave, Threads.act, Thread.step, h, load]
