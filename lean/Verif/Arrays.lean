import Verif.Num

/-!
# Arrays, aliases and in-place updates

A small imperative language for what the methods of pygmm do to numpy arrays: an expression makes a
new array; an assignment of a coefficient column, an argument or another variable makes no copy; `+=`,
`-=` and assignments to slices or masks write into the array the variable refers to.  The formulas and
conditions are named by labels (file lines) and given a meaning by an arbitrary interpretation, so
that what is proved holds for the formulas of the code whatever they compute.
-/

namespace Arrays

/-- the contents of an array -/
abbrev Arr := List F

/-- the class-level tables: contents of each column, by name -/
abbrev Tables := String → Arr

/-- where an array lives: a column of a class-level table, an array of the caller, or an array the
method itself created -/
inductive Ref
  | column (k : String)
  | arg (k : String)
  | tmp (n : ℕ)
deriving DecidableEq

/-- right-hand sides that make no copy -/
inductive Source
  | column (k : String)
  | arg (k : String)
  | var (x : String)
deriving DecidableEq

/-- statements; `label` names a formula or condition, `vars` the local variables it reads (the
formulas may read every table and argument) -/
inductive Cmd
  | skip
  /-- `x = <expression>`, an expression that allocates its result (also `x = np.array(y)`) -/
  | new (x label : String) (vars : List String)
  /-- `x = c.column`, `x = argument`, `x = y` -/
  | bind (x : String) (s : Source)
  /-- `x += ...`, `x[mask] = ...`, ... : writes into the array of `x` -/
  | write (x label : String) (vars : List String)
  | ite (label : String) (a b : Cmd)
  | seq (a b : Cmd)
deriving DecidableEq

/-- a block -/
def block : List Cmd → Cmd
  | [] => .skip
  | c :: cs => .seq c (block cs)

/-- meaning of the labels: a formula gets the inputs, the tables, the arguments and the arrays of its
variables and gives an array or raises; a condition looks at the inputs and the arguments -/
structure Meaning (I : Type) where
  formula : String → I → Tables → (String → Arr) → List Arr → Option Arr
  test : String → I → (String → Arr) → Bool

/-- the state of a method: all arrays it can reach and its local variables -/
structure State where
  tables : Tables
  args : String → Arr
  tmps : List Arr
  env : List (String × Ref)

namespace State

/-- the array of a variable -/
def look (s : State) (x : String) : Option Ref := (s.env.find? fun p => p.1 = x).map Prod.snd

/-- contents of an array -/
def read (s : State) : Ref → Arr
  | .column k => s.tables k
  | .arg k => s.args k
  | .tmp n => s.tmps.getD n []

/-- overwriting an array -/
def store (s : State) (r : Ref) (v : Arr) : State :=
  match r with
  | .column k => { s with tables := Function.update s.tables k v }
  | .arg k => { s with args := Function.update s.args k v }
  | .tmp n => { s with tmps := s.tmps.set n v }

/-- `x = array at r` -/
def assign (s : State) (x : String) (r : Ref) : State := { s with env := (x, r) :: s.env }

/-- the arrays of variables, none if one is not bound -/
def values (s : State) : List String → Option (List Arr)
  | [] => some []
  | x :: xs =>
    match s.look x, s.values xs with
    | some r, some vs => some (s.read r :: vs)
    | _, _ => none

/-- reference of a source -/
def source (s : State) : Source → Option Ref
  | .column k => some (.column k)
  | .arg k => some (.arg k)
  | .var x => s.look x

end State

variable {I : Type}

/-- value of a formula -/
def eval (m : Meaning I) (i : I) (s : State) (label : String) (vars : List String) : Option Arr :=
  (s.values vars).bind fun vs => m.formula label i s.tables s.args vs

/-- execution; `false`: an exception was raised (the state is what is left then) -/
def exec (m : Meaning I) (i : I) : Cmd → State → State × Bool
  | .skip, s => (s, true)
  | .new x label vars, s =>
    match eval m i s label vars with
    | some v => ({ s with tmps := s.tmps ++ [v], env := (x, .tmp s.tmps.length) :: s.env }, true)
    | none => (s, false)
  | .bind x src, s =>
    match s.source src with
    | some r => (s.assign x r, true)
    | none => (s, false)
  | .write x label vars, s =>
    match s.look x, eval m i s label vars with
    | some r, some v => (s.store r v, true)
    | _, _ => (s, false)
  | .ite label a b, s => if m.test label i s.args then exec m i a s else exec m i b s
  | .seq a b, s =>
    let r := exec m i a s
    if r.2 then exec m i b r.1 else r

/-- a public operation: its body and the variables whose arrays it returns -/
structure Method where
  name : String
  body : Cmd
  ret : List String

/-- outcome of a call: the tables and arguments it leaves, and the returned arrays (where they live
and what they contain), none if it raised -/
structure Outcome where
  tables : Tables
  args : String → Arr
  result : Option (List (Ref × Arr))

/-- the returned arrays -/
def returned (s : State) : List String → Option (List (Ref × Arr))
  | [] => some []
  | x :: xs =>
    match s.look x, returned s xs with
    | some r, some vs => some ((r, s.read r) :: vs)
    | _, _ => none

/-- a call; every call has its own local arrays -/
def call (me : Meaning I) (m : Method) (i : I) (args : String → Arr) (t : Tables) : Outcome :=
  let r := exec me i m.body ⟨t, args, [], []⟩
  ⟨r.1.tables, r.1.args, if r.2 then returned r.1 m.ret else none⟩

/-- what a user does: call an operation with own arrays, or overwrite array `j` of the result of the
`k`-th call -/
inductive Step (I : Type)
  | call (m : Method) (i : I) (args : String → Arr)
  | overwrite (k j : ℕ) (v : Arr)

/-- the tables and the results of the calls so far -/
structure World where
  tables : Tables
  results : List (Option (List (Ref × Arr)))

/-- where array `j` of the result of call `k` lives -/
def World.where (w : World) (k j : ℕ) : Option Ref :=
  ((w.results[k]?.bind id).bind fun l => l[j]?).map Prod.fst

/-- one step; overwriting an array that is not a table column changes no table -/
def step (me : Meaning I) (w : World) : Step I → World
  | .call m i args =>
    let o := call me m i args w.tables
    ⟨o.tables, w.results ++ [o.result]⟩
  | .overwrite k j v =>
    match w.where k j with
    | some (.column c) => { w with tables := Function.update w.tables c v }
    | _ => w

/-- a history -/
def run (me : Meaning I) : World → List (Step I) → World
  | w, [] => w
  | w, st :: h => run me (step me w st) h

/-! ### A syntactic check -/

/-- `own`: the variables known to refer to arrays made by the method.  `none`: the method may write
into an array that is not its own. -/
def check : Cmd → List String → Option (List String)
  | .skip, own => some own
  | .new x _ _, own => some (x :: own)
  | .bind x (.var y), own => if y ∈ own then some (x :: own) else some (own.filter (· ≠ x))
  | .bind x _, own => some (own.filter (· ≠ x))
  | .write x _ _, own => if x ∈ own then some own else none
  | .ite _ a b, own =>
    match check a own, check b own with
    | some p, some q => some (p.filter (· ∈ q))
    | _, _ => none
  | .seq a b, own =>
    match check a own with
    | some p => check b p
    | none => none

/-- a method that writes only into arrays of its own -/
def Method.tidy (m : Method) : Bool := (check m.body []).isSome

/-- ... and returns only arrays of its own -/
def Method.private (m : Method) : Bool :=
  match check m.body [] with
  | some own => m.ret.all (· ∈ own)
  | none => false

/-- what the check knows about a state -/
def Owns (own : List String) (s : State) : Prop := ∀ x ∈ own, ∃ n, s.look x = some (.tmp n)

theorem look_cons (s : State) (x y : String) (r : Ref) (ts : List Arr) :
    State.look ⟨s.tables, s.args, ts, (x, r) :: s.env⟩ y = if x = y then some r else s.look y := by
  unfold State.look
  by_cases h : x = y <;> simp [h]

theorem owns_cons {own : List String} {s : State} (h : Owns own s) (x : String) (n : ℕ) (ts : List Arr) :
    Owns (x :: own) ⟨s.tables, s.args, ts, (x, .tmp n) :: s.env⟩ := by
  intro y hy
  rw [look_cons]
  by_cases e : x = y
  · exact ⟨n, by rw [if_pos e]⟩
  · rw [if_neg e]
    rcases List.mem_cons.1 hy with rfl | hy
    · exact absurd rfl e
    · exact h y hy

theorem owns_filter {own : List String} {s : State} (h : Owns own s) (x : String) (r : Ref) :
    Owns (own.filter (· ≠ x)) (s.assign x r) := by
  intro y hy
  obtain ⟨h1, h2⟩ := List.mem_filter.1 hy
  have h2 : y ≠ x := by simpa using h2
  rw [State.assign, look_cons, if_neg fun e => h2 e.symm]
  exact h y h1

/-- a checked command changes no table and no argument, even if it raises -/
theorem check_sound (m : Meaning I) (i : I) (c : Cmd) : ∀ (own own' : List String) (s : State),
    check c own = some own' → Owns own s →
    (exec m i c s).1.tables = s.tables ∧ (exec m i c s).1.args = s.args ∧
      ((exec m i c s).2 = true → Owns own' (exec m i c s).1) := by
  induction c with
  | skip => intro own own' s hc ho; cases hc; exact ⟨rfl, rfl, fun _ => ho⟩
  | new x label vars =>
    intro own own' s hc ho
    cases hc
    unfold exec
    split
    · exact ⟨rfl, rfl, fun _ => owns_cons ho x _ _⟩
    · exact ⟨rfl, rfl, fun h => by cases h⟩
  | bind x src =>
    intro own own' s hc ho
    unfold exec
    split
    · rename_i r hr
      refine ⟨rfl, rfl, fun _ => ?_⟩
      cases src with
      | column k => cases hc; exact owns_filter ho x _
      | arg k => cases hc; exact owns_filter ho x _
      | var y =>
        simp only [check] at hc
        split at hc
        · rename_i hy
          cases hc
          obtain ⟨n, hn⟩ := ho y hy
          have : r = .tmp n := by
            have hr' : s.look y = some r := hr
            rw [hn] at hr'; cases hr'; rfl
          subst this
          exact owns_cons ho x n _
        · cases hc; exact owns_filter ho x _
    · exact ⟨rfl, rfl, fun h => by cases h⟩
  | write x label vars =>
    intro own own' s hc ho
    simp only [check] at hc
    split at hc
    · rename_i hx
      cases hc
      obtain ⟨n, hn⟩ := ho x hx
      unfold exec
      split
      · rename_i r v hr hv
        rw [hn] at hr; cases hr
        exact ⟨rfl, rfl, fun _ => ho⟩
      · exact ⟨rfl, rfl, fun h => by cases h⟩
    · cases hc
  | ite label a b iha ihb =>
    intro own own' s hc ho
    simp only [check] at hc
    split at hc
    · rename_i p q hp hq
      cases hc
      unfold exec
      split
      · obtain ⟨h1, h2, h3⟩ := iha own p s hp ho
        exact ⟨h1, h2, fun h x hx => h3 h x (List.mem_filter.1 hx).1⟩
      · obtain ⟨h1, h2, h3⟩ := ihb own q s hq ho
        exact ⟨h1, h2, fun h x hx => h3 h x (by simpa using (List.mem_filter.1 hx).2)⟩
    · cases hc
  | seq a b iha ihb =>
    intro own own' s hc ho
    simp only [check] at hc
    split at hc
    · rename_i p hp
      obtain ⟨h1, h2, h3⟩ := iha own p s hp ho
      unfold exec
      simp only
      split
      · rename_i hok
        obtain ⟨k1, k2, k3⟩ := ihb p own' _ hc (h3 hok)
        exact ⟨k1.trans h1, k2.trans h2, k3⟩
      · rename_i hok
        exact ⟨h1, h2, fun h => absurd h hok⟩
    · cases hc

theorem call_tidy (me : Meaning I) {m : Method} (h : m.tidy = true) (i : I) (args : String → Arr) (t : Tables) :
    (call me m i args t).tables = t ∧ (call me m i args t).args = args := by
  unfold Method.tidy at h
  obtain ⟨own, ho⟩ := Option.isSome_iff_exists.1 h
  obtain ⟨h1, h2, -⟩ := check_sound me i m.body [] own ⟨t, args, [], []⟩ ho (by intro x hx; simp at hx)
  exact ⟨h1, h2⟩

theorem returned_private {own : List String} {s : State} (ho : Owns own s) :
    ∀ {xs : List String} {l : List (Ref × Arr)}, (∀ x ∈ xs, x ∈ own) → returned s xs = some l →
      ∀ p ∈ l, ∃ n, p.1 = .tmp n
  | [], l, _, h, p, hp => by cases h; simp at hp
  | x :: xs, l, hx, h, p, hp => by
    unfold returned at h
    split at h
    · rename_i r vs hr hv
      cases h
      rcases List.mem_cons.1 hp with rfl | hp
      · obtain ⟨n, hn⟩ := ho x (hx x List.mem_cons_self)
        rw [hn] at hr; cases hr
        exact ⟨n, rfl⟩
      · exact returned_private ho (fun y hy => hx y (List.mem_cons_of_mem _ hy)) hv p hp
    · cases h

theorem call_private (me : Meaning I) {m : Method} (h : m.private = true) (i : I) (args : String → Arr) (t : Tables)
    {l : List (Ref × Arr)} (hl : (call me m i args t).result = some l) : ∀ p ∈ l, ∃ n, p.1 = .tmp n := by
  unfold Method.private at h
  split at h
  · rename_i own hown
    obtain ⟨-, -, h3⟩ := check_sound me i m.body [] own ⟨t, args, [], []⟩ hown (by intro x hx; simp at hx)
    unfold call at hl
    simp only at hl
    split at hl
    · rename_i hok
      exact returned_private (h3 hok) (by simpa using h) hl
    · cases hl
  · cases h

theorem private_tidy {m : Method} (h : m.private = true) : m.tidy = true := by
  unfold Method.private at h
  unfold Method.tidy
  split at h
  · rename_i own ho; rw [ho]; rfl
  · cases h

end Arrays
