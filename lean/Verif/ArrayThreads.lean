import Verif.Arrays

/-!
# Several threads that work on the same tables and arrays

The small-step version of `Arrays.exec`: threads execute operations of the package, they share the
class-level tables and the arrays their callers pass (which can be the same array for two of them), and
the scheduler can change threads between any two statements and between evaluating the right-hand side of an in-place
update and storing it.
-/

namespace Arrays

variable {I : Type}

/-- what a thread has still to do: a statement, or storing a value it has computed -/
inductive Item
  | cmd (c : Cmd)
  | put (x : String) (v : Arr)

/-- what threads share: the tables and the arrays of the callers -/
structure Shared where
  tables : Tables
  arrays : String → Arr

/-- a call: operation, inputs, and which array is passed for which parameter -/
structure Job (I : Type) where
  method : Method
  input : I
  passes : String → String

/-- a thread in a call; `todo = none`: it raised.  Its own arrays and variables are not shared. -/
structure Worker (I : Type) where
  job : Job I
  todo : Option (List Item)
  tmps : List Arr
  env : List (String × Ref)

/-- the thread at the start of a call -/
def Job.start (j : Job I) : Worker I := ⟨j, some [.cmd j.method.body], [], []⟩

/-- what the thread sees -/
def Worker.view (t : Worker I) (sh : Shared) : State := ⟨sh.tables, fun k => sh.arrays (t.job.passes k), t.tmps, t.env⟩

/-- overwriting the array at `r`: a column and a caller's array are shared -/
def Worker.put (t : Worker I) (sh : Shared) (r : Ref) (v : Arr) : Shared × Worker I :=
  match r with
  | .column k => ({ sh with tables := Function.update sh.tables k v }, t)
  | .arg k => ({ sh with arrays := Function.update sh.arrays (t.job.passes k) v }, t)
  | .tmp n => (sh, { t with tmps := t.tmps.set n v })

/-- one step of a thread -/
def Worker.step (me : Meaning I) (t : Worker I) (sh : Shared) : Shared × Worker I :=
  match t.todo with
  | none => (sh, t)
  | some [] => (sh, t)
  | some (.put x v :: rest) =>
    match (t.view sh).look x with
    | some r => ({ t with todo := some rest } : Worker I).put sh r v
    | none => (sh, { t with todo := none })
  | some (.cmd c :: rest) =>
    match c with
    | .skip => (sh, { t with todo := some rest })
    | .seq a b => (sh, { t with todo := some (.cmd a :: .cmd b :: rest) })
    | .ite label a b =>
      (sh, { t with todo := some (.cmd (if me.test label t.job.input (t.view sh).args then a else b) :: rest) })
    | .new x label vars =>
      match eval me t.job.input (t.view sh) label vars with
      | some v => (sh, { t with todo := some rest, tmps := t.tmps ++ [v], env := (x, .tmp t.tmps.length) :: t.env })
      | none => (sh, { t with todo := none })
    | .bind x src =>
      match (t.view sh).source src with
      | some r => (sh, { t with todo := some rest, env := (x, r) :: t.env })
      | none => (sh, { t with todo := none })
    | .write x label vars =>
      match eval me t.job.input (t.view sh) label vars with
      | some v => (sh, { t with todo := some (.put x v :: rest) })
      | none => (sh, { t with todo := none })

/-- the call has returned or raised -/
def Worker.finished (t : Worker I) : Bool :=
  match t.todo with
  | none => true
  | some [] => true
  | some (_ :: _) => false

/-- the arrays a finished call gave its caller, none if it raised -/
def Worker.result (t : Worker I) (sh : Shared) : Option (List (Ref × Arr)) :=
  match t.todo with
  | none => none
  | some _ => returned (t.view sh) t.job.method.ret

/-- all threads -/
structure Threads (I : Type) where
  shared : Shared
  tasks : List (Worker I)

/-- the scheduler chooses thread `k` -/
def Threads.act (me : Meaning I) (c : Threads I) (k : ℕ) : Threads I :=
  match c.tasks[k]? with
  | none => c
  | some t =>
    let r := t.step me c.shared
    ⟨r.1, c.tasks.set k r.2⟩

/-- a schedule; a thread that is killed is not chosen any more, a call that begins later is chosen later -/
def interleave (me : Meaning I) (sh : Shared) (jobs : List (Job I)) (sched : List ℕ) : Threads I :=
  sched.foldl (Threads.act me) ⟨sh, jobs.map Job.start⟩

/-- an upper bound for the number of steps of a statement -/
def Cmd.steps : Cmd → ℕ
  | .skip => 1
  | .new _ _ _ => 1
  | .bind _ _ => 1
  | .write _ _ _ => 2
  | .ite _ a b => 1 + max a.steps b.steps
  | .seq a b => 1 + a.steps + b.steps

/-! ### One thread -/

/-- doing what is left without interruption -/
def runItems (me : Meaning I) (i : I) : List Item → State → State × Bool
  | [], s => (s, true)
  | .cmd c :: l, s =>
    let r := exec me i c s
    if r.2 then runItems me i l r.1 else r
  | .put x v :: l, s =>
    match s.look x with
    | some r => runItems me i l (s.store r v)
    | none => (s, false)

/-- the check of what is left -/
def checkItems : List Item → List String → Option (List String)
  | [], own => some own
  | .cmd c :: l, own =>
    match check c own with
    | some p => checkItems l p
    | none => none
  | .put x _ :: l, own => if x ∈ own then checkItems l own else none

/-- the check does not get worse when more variables are known to be own -/
theorem check_mono (c : Cmd) : ∀ (o p o' : List String), (∀ x ∈ o, x ∈ p) → check c o = some o' →
    ∃ p', check c p = some p' ∧ ∀ x ∈ o', x ∈ p' := by
  induction c with
  | skip => intro o p o' h hc; cases hc; exact ⟨p, rfl, h⟩
  | new x l v =>
    intro o p o' h hc; cases hc
    refine ⟨x :: p, rfl, fun y hy => ?_⟩
    rcases List.mem_cons.1 hy with rfl | hy
    · simp
    · simp [h y hy]
  | bind x s =>
    intro o p o' h hc
    have hf : ∀ y ∈ o.filter (· ≠ x), y ∈ p.filter (· ≠ x) := by
      intro y hy
      obtain ⟨h1, h2⟩ := List.mem_filter.1 hy
      exact List.mem_filter.2 ⟨h y h1, h2⟩
    cases s with
    | column k => cases hc; exact ⟨_, rfl, hf⟩
    | arg k => cases hc; exact ⟨_, rfl, hf⟩
    | var y =>
      simp only [check] at hc ⊢
      by_cases hy : y ∈ o
      · rw [if_pos hy] at hc; cases hc
        refine ⟨x :: p, by rw [if_pos (h y hy)], fun z hz => ?_⟩
        rcases List.mem_cons.1 hz with rfl | hz
        · simp
        · simp [h z hz]
      · rw [if_neg hy] at hc; cases hc
        by_cases hp : y ∈ p
        · refine ⟨x :: p, by rw [if_pos hp], fun z hz => ?_⟩
          have := (List.mem_filter.1 (hf z hz)).1
          simp [this]
        · exact ⟨_, by rw [if_neg hp], hf⟩
  | write x l v =>
    intro o p o' h hc
    simp only [check] at hc ⊢
    split at hc
    · rename_i hx
      cases hc
      exact ⟨p, by rw [if_pos (h x hx)], h⟩
    · cases hc
  | ite l a b iha ihb =>
    intro o p o' h hc
    simp only [check] at hc ⊢
    split at hc
    · rename_i q r hq hr
      cases hc
      obtain ⟨q', h1, h2⟩ := iha o p q h hq
      obtain ⟨r', h3, h4⟩ := ihb o p r h hr
      refine ⟨_, by rw [h1, h3], fun x hx => ?_⟩
      obtain ⟨k1, k2⟩ := List.mem_filter.1 hx
      exact List.mem_filter.2 ⟨h2 x k1, by simpa using h4 x (by simpa using k2)⟩
    · cases hc
  | seq a b iha ihb =>
    intro o p o' h hc
    simp only [check] at hc ⊢
    split at hc
    · rename_i q hq
      obtain ⟨q', h1, h2⟩ := iha o p q h hq
      obtain ⟨r', h3, h4⟩ := ihb q q' o' h2 hc
      exact ⟨r', by rw [h1]; exact h3, h4⟩
    · cases hc

theorem checkItems_mono : ∀ (l : List Item) (o p o' : List String), (∀ x ∈ o, x ∈ p) → checkItems l o = some o' →
    ∃ p', checkItems l p = some p'
  | [], o, p, o', _, _ => ⟨p, rfl⟩
  | .cmd c :: l, o, p, o', h, hc => by
    simp only [checkItems] at hc ⊢
    split at hc
    · rename_i q hq
      obtain ⟨q', h1, h2⟩ := check_mono c o p q h hq
      obtain ⟨r, hr⟩ := checkItems_mono l q q' o' h2 hc
      exact ⟨r, by rw [h1]; exact hr⟩
    · cases hc
  | .put x v :: l, o, p, o', h, hc => by
    simp only [checkItems] at hc ⊢
    split at hc
    · rename_i hx
      obtain ⟨r, hr⟩ := checkItems_mono l o p o' h hc
      exact ⟨r, by rw [if_pos (h x hx)]; exact hr⟩
    · cases hc

/-- what is true of a thread: what it has still to do leads to what the call gives alone, and writes only
into its own arrays -/
def Fine (me : Meaning I) (sh : Shared) (j : Job I) (t : Worker I) : Prop :=
  t.job = j ∧
  match t.todo with
  | none => (exec me j.input j.method.body (j.start.view sh)).2 = false
  | some l => runItems me j.input l (t.view sh) = exec me j.input j.method.body (j.start.view sh) ∧
      ∃ own own', checkItems l own = some own' ∧ Owns own (t.view sh)

theorem start_fine (me : Meaning I) (sh : Shared) (j : Job I) (h : j.method.tidy = true) : Fine me sh j j.start := by
  refine ⟨rfl, ?_⟩
  show runItems me j.input [.cmd j.method.body] (j.start.view sh) = _ ∧ _
  obtain ⟨own, ho⟩ := Option.isSome_iff_exists.1 h
  refine ⟨?_, [], own, by simp [checkItems, ho], by intro x hx; simp at hx⟩
  simp only [runItems]
  split
  · rename_i hk; exact Prod.ext rfl hk.symm
  · rfl

/-- a step of a thread that writes only into its own arrays leaves what is shared as it is -/
theorem step_fine (me : Meaning I) (sh : Shared) (j : Job I) (t : Worker I) (h : Fine me sh j t) :
    (t.step me sh).1 = sh ∧ Fine me sh j (t.step me sh).2 := by
  obtain ⟨j', todo, tmps, env⟩ := t
  obtain ⟨hj, h⟩ := h
  simp only at hj; subst hj
  match todo, h with
  | none, h => exact ⟨rfl, rfl, h⟩
  | some [], h => exact ⟨rfl, rfl, h⟩
  | some (.put x v :: rest), h =>
    obtain ⟨h1, own, own', h2, h3⟩ := h
    simp only [checkItems] at h2
    split at h2
    · rename_i hx
      obtain ⟨n, hn⟩ := h3 x hx
      simp only [runItems, hn] at h1
      simp only [Worker.step]
      have hn' : (Worker.view ⟨j', some (.put x v :: rest), tmps, env⟩ sh).look x = some (.tmp n) := hn
      rw [hn']
      exact ⟨rfl, rfl, h1, own, own', h2, h3⟩
    · cases h2
  | some (.cmd c :: rest), h =>
    obtain ⟨h1, own, own', h2, h3⟩ := h
    simp only [checkItems] at h2
    split at h2
    case h_2 => cases h2
    rename_i p hp
    cases c with
    | skip =>
      cases hp
      exact ⟨rfl, rfl, h1, own, own', h2, h3⟩
    | seq a b =>
      simp only [check] at hp
      split at hp
      case h_2 => cases hp
      rename_i q hq
      refine ⟨rfl, rfl, ?_, own, own', by simp only [checkItems, hq, hp, h2], h3⟩
      rw [← h1]
      simp only [runItems, exec]
      by_cases ha : (exec me j'.input a (Worker.view ⟨j', some (.cmd (a.seq b) :: rest), tmps, env⟩ sh)).2 = true
      · simp only [ha, if_true]
        rw [if_pos (by exact ha)]
        rfl
      · simp only [ha, if_false, Bool.false_eq_true]
        rw [if_neg (by exact ha)]
        rfl
    | ite label a b =>
      simp only [check] at hp
      split at hp
      case h_2 => cases hp
      rename_i q r hq hr
      cases hp
      refine ⟨rfl, rfl, ?_, ?_⟩
      · rw [← h1]
        simp only [runItems, exec]
        split <;> rfl
      · split
        · obtain ⟨o, ho⟩ := checkItems_mono rest _ q own' (fun x hx => (List.mem_filter.1 hx).1) h2
          exact ⟨own, o, by simp only [checkItems, hq, ho], h3⟩
        · obtain ⟨o, ho⟩ := checkItems_mono rest _ r own' (fun x hx => by simpa using (List.mem_filter.1 hx).2) h2
          exact ⟨own, o, by simp only [checkItems, hr, ho], h3⟩
    | new x label vars =>
      cases hp
      simp only [runItems, exec] at h1
      simp only [Worker.step]
      cases he : eval me j'.input (Worker.view ⟨j', some (.cmd (.new x label vars) :: rest), tmps, env⟩ sh) label vars with
      | none =>
        simp only [he, Bool.false_eq_true, if_false] at h1
        exact ⟨rfl, rfl, by rw [← h1]⟩
      | some v =>
        simp only [he, if_true] at h1
        exact ⟨rfl, rfl, h1, x :: own, own', h2, owns_cons h3 x _ _⟩
    | bind x src =>
      have hs := check_sound me j'.input (.bind x src) own p _ hp h3
      simp only [runItems] at h1
      simp only [exec] at h1 hs
      simp only [Worker.step]
      cases he : (Worker.view ⟨j', some (.cmd (.bind x src) :: rest), tmps, env⟩ sh).source src with
      | none =>
        simp only [he, Bool.false_eq_true, if_false] at h1
        exact ⟨rfl, rfl, by rw [← h1]⟩
      | some r =>
        simp only [he, if_true] at h1 hs
        exact ⟨rfl, rfl, h1, p, own', h2, hs.2.2 trivial⟩
    | write x label vars =>
      simp only [check] at hp
      split at hp
      case isFalse => cases hp
      rename_i hx
      cases hp
      obtain ⟨n, hn⟩ := h3 x hx
      simp only [runItems, exec, hn] at h1
      simp only [Worker.step]
      cases he : eval me j'.input (Worker.view ⟨j', some (.cmd (.write x label vars) :: rest), tmps, env⟩ sh) label vars with
      | none =>
        simp only [he, Bool.false_eq_true, if_false] at h1
        exact ⟨rfl, rfl, by rw [← h1]⟩
      | some v =>
        simp only [he, if_true] at h1
        refine ⟨rfl, rfl, ?_, own, own', by simp only [checkItems, hx, if_true, h2], h3⟩
        rw [← h1]
        simp only [runItems]
        have hn' : (Worker.view ⟨j', some (.put x v :: rest), tmps, env⟩ sh).look x = some (.tmp n) := hn
        rw [hn']
        rfl

/-- what a finished thread has is what the call gives alone -/
theorem fine_result (me : Meaning I) (sh : Shared) (j : Job I) (t : Worker I) (h : Fine me sh j t) (hf : t.finished = true) :
    t.result sh = (call me j.method j.input (fun k => sh.arrays (j.passes k)) sh.tables).result := by
  obtain ⟨j', todo, tmps, env⟩ := t
  obtain ⟨hj, h⟩ := h
  simp only at hj; subst hj
  match todo, h, hf with
  | none, h, _ =>
    have h' : (exec me j'.input j'.method.body ⟨sh.tables, fun k => sh.arrays (j'.passes k), [], []⟩).2 = false := h
    simp [Worker.result, call, h']
  | some [], h, _ =>
    have h' : exec me j'.input j'.method.body ⟨sh.tables, fun k => sh.arrays (j'.passes k), [], []⟩ =
        (Worker.view ⟨j', some [], tmps, env⟩ sh, true) := h.1.symm
    simp only [Worker.result, call, h', if_true]
  | some (_ :: _), _, hf => simp [Worker.finished] at hf

/-! ### Schedules -/

/-- the invariant -/
structure Inv (me : Meaning I) (sh : Shared) (jobs : List (Job I)) (c : Threads I) : Prop where
  shared : c.shared = sh
  len : c.tasks.length = jobs.length
  fine : ∀ (k : ℕ) (t : Worker I) (j : Job I), c.tasks[k]? = some t → jobs[k]? = some j → Fine me sh j t

theorem act_inv (me : Meaning I) {sh : Shared} {jobs : List (Job I)} {c : Threads I} (h : Inv me sh jobs c) (k : ℕ) :
    Inv me sh jobs (c.act me k) := by
  cases ht : c.tasks[k]? with
  | none => simpa only [Threads.act, ht] using h
  | some t =>
    have hk : k < c.tasks.length := (List.getElem?_eq_some_iff.1 ht).1
    have hs : jobs[k]? = some (jobs[k]'(by rw [← h.len]; exact hk)) := List.getElem?_eq_getElem _
    obtain ⟨h1, h2⟩ := step_fine me sh _ t (h.fine k t _ ht hs)
    simp only [Threads.act, ht, h.shared]
    refine ⟨h1, by simpa using h.len, ?_⟩
    intro i t' j' hi hj'
    simp only at hi
    rw [List.getElem?_set] at hi
    by_cases e : k = i
    · subst e
      rw [hs] at hj'
      rw [if_pos rfl, if_pos hk] at hi
      cases hj'; cases hi
      exact h2
    · rw [if_neg e] at hi
      exact h.fine i t' j' hi hj'

theorem sched_inv (me : Meaning I) {sh : Shared} {jobs : List (Job I)} (sched : List ℕ) : ∀ c : Threads I, Inv me sh jobs c →
    Inv me sh jobs (sched.foldl (Threads.act me) c) := by
  induction sched with
  | nil => intro c h; exact h
  | cons k sched ih => intro c h; exact ih _ (act_inv me h k)

theorem start_inv (me : Meaning I) (sh : Shared) (jobs : List (Job I)) (h : ∀ j ∈ jobs, j.method.tidy = true) :
    Inv me sh jobs ⟨sh, jobs.map Job.start⟩ := by
  refine ⟨rfl, by simp, ?_⟩
  intro k t j ht hj
  simp only [List.getElem?_map, hj, Option.map_some, Option.some.injEq] at ht
  subst ht
  exact start_fine me sh j (h j (List.mem_of_getElem? hj))

/-! ### Progress -/

/-- steps left, at most -/
def Item.steps : Item → ℕ
  | .cmd c => c.steps
  | .put _ _ => 1

def Worker.left (t : Worker I) : ℕ :=
  match t.todo with
  | none => 0
  | some l => (l.map Item.steps).sum

theorem left_step (me : Meaning I) (t : Worker I) (sh : Shared) : (t.step me sh).2.left ≤ t.left - 1 := by
  obtain ⟨j, todo, tmps, env⟩ := t
  match todo with
  | none => simp [Worker.step, Worker.left]
  | some [] => simp [Worker.step, Worker.left]
  | some (.put x v :: rest) =>
    simp only [Worker.step]
    split
    · rename_i r _
      cases r <;> simp [Worker.put, Worker.left, Item.steps]
    · simp [Worker.left]
  | some (.cmd c :: rest) =>
    cases c with
    | skip => simp [Worker.step, Worker.left, Item.steps, Cmd.steps]
    | seq a b => simp [Worker.step, Worker.left, Item.steps, Cmd.steps]; omega
    | ite l a b =>
      simp only [Worker.step, Worker.left, List.map_cons, List.sum_cons, Item.steps, Cmd.steps]
      split <;> omega
    | new x l vs => simp only [Worker.step]; split <;> simp [Worker.left, Item.steps, Cmd.steps]
    | bind x s => simp only [Worker.step]; split <;> simp [Worker.left, Item.steps, Cmd.steps]
    | write x l vs =>
      simp only [Worker.step]; split <;> simp [Worker.left, Item.steps, Cmd.steps]

theorem cmd_pos (c : Cmd) : 0 < c.steps := by
  cases c <;> simp only [Cmd.steps] <;> omega

theorem finished_of_left (t : Worker I) (h : t.left = 0) : t.finished = true := by
  obtain ⟨j, todo, tmps, env⟩ := t
  match todo with
  | none => rfl
  | some [] => rfl
  | some (.put x v :: rest) => simp [Worker.left, Item.steps] at h
  | some (.cmd c :: rest) =>
    have := cmd_pos c
    simp only [Worker.left, List.map_cons, List.sum_cons, Item.steps] at h
    omega

theorem left_sched (me : Meaning I) (k : ℕ) (sched : List ℕ) : ∀ (c : Threads I) (t : Worker I), c.tasks[k]? = some t →
    ∃ t', (sched.foldl (Threads.act me) c).tasks[k]? = some t' ∧ t'.left ≤ t.left - sched.count k := by
  induction sched with
  | nil => intro c t h; exact ⟨t, h, by simp⟩
  | cons j sched ih =>
    intro c t h
    have hk : k < c.tasks.length := (List.getElem?_eq_some_iff.1 h).1
    by_cases e : j = k
    · subst e
      have h' : (c.act me j).tasks[j]? = some (t.step me c.shared).2 := by
        simp only [Threads.act, h]
        rw [List.getElem?_set, if_pos rfl, if_pos hk]
      obtain ⟨t', h1, h2⟩ := ih _ _ h'
      refine ⟨t', h1, ?_⟩
      have := left_step me t c.shared
      rw [List.count_cons_self]
      omega
    · have h' : (c.act me j).tasks[k]? = some t := by
        cases hj : c.tasks[j]? with
        | none => simpa only [Threads.act, hj] using h
        | some u => simp only [Threads.act, hj]; rw [List.getElem?_set, if_neg e]; exact h
      obtain ⟨t', h1, h2⟩ := ih _ _ h'
      refine ⟨t', h1, ?_⟩
      rw [List.count_cons_of_ne e]
      exact h2

end Arrays
