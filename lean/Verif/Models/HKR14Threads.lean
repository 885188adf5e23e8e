import Verif.Models.HKR14

/-!
# Threads that construct HermkesKuehnRiggelsen2014 at the same time

hermkes_kuehn_riggelsen_2014.py lines 82-106 as steps that other threads can come between: the base class
constructor (which works on the thread's own objects), the test of the global, reading the file, assigning
the global, and line 104, which reads the global again.
-/

namespace HKR14

/-- where a thread is; the base class constructor left `p` -/
inductive Thread
  /-- before line 84 -/
  | start (s : Scenario)
  /-- before line 99 -/
  | test (p : Py (Instance (List Val)))
  /-- before line 100: the global was `None` -/
  | read (p : Py (Instance (List Val)))
  /-- before the assignment in line 101: the interpolator is built -/
  | assign (p : Py (Instance (List Val))) (i : Interp)
  /-- before line 104 -/
  | query (p : Py (Instance (List Val)))
  /-- the constructor returned or raised -/
  | done (r : Py (Instance GmmOut))

/-- one step of a thread; line 104 with the global still `None` would be a `TypeError` -/
noncomputable def Thread.step (q : Search) (w : World) : Thread → World × Thread
  | .start s =>
    let p := eventCls.new s
    match p.res with
    | .error e => (w, .done ⟨p.log, .error e⟩)
    | .ok _ => (w, .test p)
  | .test p =>
    match w.cache with
    | none => (w, .read p)
    | some _ => (w, .query p)
  | .read p =>
    match (load w.file).res with
    | .ok i => ({ w with loads := w.loads ++ [true] }, .assign p i)
    | .error e => ({ w with loads := w.loads ++ [false] }, .done (do let _ ← p; Py.raise e))
  | .assign p i => ({ w with cache := some i }, .query p)
  | .query p =>
    match w.cache with
    | none => (w, .done (do let _ ← p; Py.raise .typeError))
    | some i =>
      (w, .done (do
        let inst ← p
        let o ← predict q i inst.out
        pure ⟨inst.scenario, o⟩))
  | .done r => (w, .done r)

/-- what the scheduler can choose: a step of thread `k`, or the data file being replaced.  A thread that
is killed is one that is not chosen any more. -/
inductive Act
  | run (k : ℕ)
  | replace (f : DataFile)

/-- all threads and what they share -/
structure Threads where
  world : World
  threads : List Thread

/-- one choice -/
noncomputable def Threads.act (q : Search) (c : Threads) : Act → Threads
  | .run k =>
    match c.threads[k]? with
    | none => c
    | some t =>
      let r := t.step q c.world
      ⟨r.1, c.threads.set k r.2⟩
  | .replace f => { c with world := { c.world with file := f } }

/-- a schedule, from the start of a fresh interpreter with data file `f` -/
noncomputable def interleave (q : Search) (f : DataFile) (ss : List Scenario) (sched : List Act) : Threads :=
  sched.foldl (Threads.act q) ⟨⟨f, none, []⟩, ss.map .start⟩

/-- the data files of a schedule, the first one included -/
def filesOf (f : DataFile) (sched : List Act) : List DataFile :=
  f :: sched.filterMap fun
    | .replace g => some g
    | .run _ => none

/-- how often thread `k` is chosen -/
def turns (k : ℕ) (sched : List Act) : ℕ :=
  (sched.filter fun
    | .run j => j = k
    | .replace _ => false).length

end HKR14
