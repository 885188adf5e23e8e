import Verif.ArrayThreads
import Verif.Props.Arrays

/-! # C126: array operations in several threads -/

open Arrays

/-- C126: however threads that execute operations of the package are interleaved, statement by statement
and between the computation and the store of an in-place update, and wherever some of them stop: the tables and the
callers' arrays are at every moment what they were, and a call that finished gave exactly what it gives
alone.  The threads can pass the same arrays. -/
theorem C126_threads {I : Type} (me : Meaning I) (sh : Shared) (jobs : List (Job I)) (h : ∀ j ∈ jobs, j.method ∈ shipped)
    (sched : List ℕ) :
    (interleave me sh jobs sched).shared = sh ∧
    ∀ (k : ℕ) (j : Job I) (t : Worker I), jobs[k]? = some j → (interleave me sh jobs sched).tasks[k]? = some t → t.finished = true →
      t.result sh = (call me j.method j.input (fun p => sh.arrays (j.passes p)) sh.tables).result := by
  have hi := sched_inv me sched _ (start_inv me sh jobs fun j hj => private_tidy (shipped_private _ (h j hj)))
  exact ⟨hi.shared, fun k j t hj ht hf => fine_result me sh j t (hi.fine k t j ht hj) hf⟩

/-- C126: the arrays a finished call returned are arrays no other thread can reach -/
theorem C126_own_results {I : Type} (me : Meaning I) (sh : Shared) (jobs : List (Job I)) (h : ∀ j ∈ jobs, j.method ∈ shipped)
    (sched : List ℕ) (k : ℕ) (j : Job I) (t : Worker I) (hj : jobs[k]? = some j)
    (ht : (interleave me sh jobs sched).tasks[k]? = some t) (hf : t.finished = true) (l : List (Ref × Arr))
    (hl : t.result sh = some l) : ∀ p ∈ l, ∃ n, p.1 = .tmp n := by
  rw [(C126_threads me sh jobs h sched).2 k j t hj ht hf] at hl
  exact call_private me (shipped_private _ (h j (List.mem_of_getElem? hj))) _ _ _ hl

/-- C126: two schedules in which a call finishes give it the same arrays -/
theorem C126_deterministic {I : Type} (me : Meaning I) (sh : Shared) (jobs : List (Job I)) (h : ∀ j ∈ jobs, j.method ∈ shipped)
    (sched sched' : List ℕ) (k : ℕ) (t t' : Worker I) (ht : (interleave me sh jobs sched).tasks[k]? = some t)
    (ht' : (interleave me sh jobs sched').tasks[k]? = some t') (hf : t.finished = true) (hf' : t'.finished = true) :
    t.result sh = t'.result sh := by
  have hi := sched_inv me sched _ (start_inv me sh jobs fun j hj => private_tidy (shipped_private _ (h j hj)))
  have hk : k < jobs.length := by
    rw [← hi.len]; exact (List.getElem?_eq_some_iff.1 ht).1
  have hj : jobs[k]? = some jobs[k] := List.getElem?_eq_getElem _
  rw [(C126_threads me sh jobs h sched).2 k _ t hj ht hf, (C126_threads me sh jobs h sched').2 k _ t' hj ht' hf']

/-- C126: no thread waits for another: a number of own turns that depends on the operation only is enough -/
theorem C126_no_waiting {I : Type} (me : Meaning I) (sh : Shared) (jobs : List (Job I)) (sched : List ℕ) (k : ℕ) (j : Job I)
    (hj : jobs[k]? = some j) (h : j.method.body.steps ≤ sched.count k) :
    ∃ t, (interleave me sh jobs sched).tasks[k]? = some t ∧ t.finished = true := by
  obtain ⟨t, h1, h2⟩ := left_sched me k sched ⟨sh, jobs.map Job.start⟩ j.start (by simp [hj])
  refine ⟨t, h1, finished_of_left t ?_⟩
  have : j.start.left = j.method.body.steps := by simp [Job.start, Worker.left, Item.steps]
  omega

/-- at most 300 turns for every operation of the package -/
theorem C126_bound : ∀ m ∈ shipped, m.body.steps ≤ 300 := by decide +kernel

/-- The operation that is not in the list, `AbrahamsonSilva1996.interp` with an array, is rightly not: two
threads that pass the same array disturb each other.  Here thread 1 has finished, thread 0 had executed its
first statements before, and thread 1 gives an array of length 2 where it gives one of length 1 alone. -/
example : ∃ (me : Meaning Unit) (sh : Shared) (jobs : List (Job Unit)) (sched : List ℕ),
    jobs.map (fun j => j.method.name) = [as96Interp.name, as96Interp.name] ∧
    (interleave me sh jobs sched).tasks[1]?.map (fun t => (t.finished,
      (t.result (interleave me sh jobs sched).shared).map fun l => l.map fun p => p.2.length)) = some (true, some [2]) ∧
    ((call me as96Interp () (fun p => sh.arrays p) sh.tables).result.map fun l => l.map fun p => p.2.length) = some [1] := by
  refine ⟨⟨fun l _ _ _ vs => some (if l = "as96:71" then 1 :: vs.flatten else vs.flatten), fun _ _ _ => true⟩,
    ⟨fun _ => [], fun _ => []⟩, [⟨as96Interp, (), id⟩, ⟨as96Interp, (), id⟩],
    [0, 0, 0, 0, 0, 0, 0, 1, 1, 1, 1, 1, 1, 1, 1, 1, 1, 1, 1, 1, 1, 1, 1, 1], rfl, ?_, ?_⟩
  · decide +kernel
  · decide +kernel

/-- two threads that execute ChiouYoungs2014 and Campbell2003 on the same arrays -/
example : ∃ (jobs : List (Job Unit)) (sched : List ℕ), jobs.length = 2 ∧ (∀ j ∈ jobs, j.method ∈ shipped) ∧
    ∀ k < 2, ∃ j, jobs[k]? = some j ∧ j.method.body.steps ≤ sched.count k := by
  refine ⟨[⟨cy14, (), id⟩, ⟨c03, (), id⟩], (List.range 300).flatMap fun _ => [0, 1], rfl, ?_, ?_⟩
  · intro j hj
    simp only [List.mem_cons, List.not_mem_nil, or_false] at hj
    rcases hj with rfl | rfl <;> simp [shipped]
  · intro k hk
    obtain rfl | rfl : k = 0 ∨ k = 1 := by omega
    · exact ⟨_, rfl, by decide +kernel⟩
    · exact ⟨_, rfl, by decide +kernel⟩
