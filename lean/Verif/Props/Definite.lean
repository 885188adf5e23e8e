import Verif.Models.ArrayMethods

/-!
# C122: no local variable is used before it is assigned

Every method is a branching program; on whichever path an execution takes, each variable that a
formula reads, an in-place update writes to, or the method returns has been assigned before.  So a
call can only fail because one of the formulas itself raises.
-/

namespace Arrays

variable {I : Type}

/-- the formulas of the method never raise for the given input -/
def Total (me : Meaning I) (i : I) : Prop := ∀ label t a vs, me.formula label i t a vs ≠ none

/-- definite assignment: the variables certainly assigned after the statement, `none` if one may be
used before -/
def assigned : Cmd → List String → Option (List String)
  | .skip, d => some d
  | .new x _ vars, d => if vars.all (· ∈ d) then some (x :: d) else none
  | .bind x (.var y), d => if y ∈ d then some (x :: d) else none
  | .bind x _, d => some (x :: d)
  | .write x _ vars, d => if x ∈ d ∧ vars.all (· ∈ d) then some d else none
  | .ite _ a b, d =>
    match assigned a d, assigned b d with
    | some p, some q => some (p.filter (· ∈ q))
    | _, _ => none
  | .seq a b, d =>
    match assigned a d with
    | some p => assigned b p
    | none => none

/-- all returned variables are assigned, and none is used before -/
def Method.definite (m : Method) : Bool :=
  match assigned m.body [] with
  | some d => m.ret.all (· ∈ d)
  | none => false

/-- the variables are assigned in the state -/
def Has (d : List String) (s : State) : Prop := ∀ x ∈ d, (s.look x).isSome

theorem has_cons {d : List String} {s : State} (h : Has d s) (x : String) (r : Ref) (ts : List Arr) :
    Has (x :: d) ⟨s.tables, s.args, ts, (x, r) :: s.env⟩ := by
  intro y hy
  rw [look_cons]
  by_cases e : x = y
  · rw [if_pos e]; rfl
  · rw [if_neg e]
    rcases List.mem_cons.1 hy with rfl | hy
    · exact absurd rfl e
    · exact h y hy

theorem has_values {d : List String} {s : State} (h : Has d s) : ∀ vars : List String, vars.all (· ∈ d) = true →
    ∃ vs, s.values vars = some vs
  | [], _ => ⟨[], rfl⟩
  | x :: xs, ha => by
    simp only [List.all_cons, Bool.and_eq_true, decide_eq_true_eq] at ha
    obtain ⟨vs, hvs⟩ := has_values h xs ha.2
    obtain ⟨r, hr⟩ := Option.isSome_iff_exists.1 (h x ha.1)
    exact ⟨s.read r :: vs, by simp only [State.values, hr, hvs]⟩

theorem has_returned {d : List String} {s : State} (h : Has d s) : ∀ vars : List String, vars.all (· ∈ d) = true →
    ∃ vs, returned s vars = some vs
  | [], _ => ⟨[], rfl⟩
  | x :: xs, ha => by
    simp only [List.all_cons, Bool.and_eq_true, decide_eq_true_eq] at ha
    obtain ⟨vs, hvs⟩ := has_returned h xs ha.2
    obtain ⟨r, hr⟩ := Option.isSome_iff_exists.1 (h x ha.1)
    exact ⟨(r, s.read r) :: vs, by simp only [returned, hr, hvs]⟩

theorem has_store {d : List String} {s : State} (h : Has d s) (r : Ref) (v : Arr) : Has d (s.store r v) := by
  cases r <;> exact h

theorem eval_some {me : Meaning I} {i : I} (ht : Total me i) {d : List String} {s : State} (h : Has d s)
    (label : String) (vars : List String) (ha : vars.all (· ∈ d) = true) : ∃ v, eval me i s label vars = some v := by
  obtain ⟨vs, hvs⟩ := has_values h vars ha
  obtain ⟨v, hv⟩ := Option.ne_none_iff_exists'.1 (ht label s.tables s.args vs)
  exact ⟨v, by rw [eval, hvs, Option.bind_some, hv]⟩

/-- a statement that passes the analysis runs to its end -/
theorem assigned_sound (me : Meaning I) (i : I) (ht : Total me i) (c : Cmd) : ∀ (d d' : List String) (s : State),
    assigned c d = some d' → Has d s → (exec me i c s).2 = true ∧ Has d' (exec me i c s).1 := by
  induction c with
  | skip => intro d d' s hc h; cases hc; exact ⟨rfl, h⟩
  | new x label vars =>
    intro d d' s hc h
    simp only [assigned] at hc
    split at hc
    · rename_i ha
      cases hc
      obtain ⟨v, hv⟩ := eval_some ht h label vars ha
      simp only [exec, hv]
      exact ⟨trivial, has_cons h x _ _⟩
    · cases hc
  | bind x src =>
    intro d d' s hc h
    cases src with
    | column k => cases hc; exact ⟨rfl, has_cons h x _ _⟩
    | arg k => cases hc; exact ⟨rfl, has_cons h x _ _⟩
    | var y =>
      simp only [assigned] at hc
      split at hc
      · rename_i hy
        cases hc
        obtain ⟨r, hr⟩ := Option.isSome_iff_exists.1 (h y hy)
        simp only [exec, State.source, hr]
        exact ⟨trivial, has_cons h x _ _⟩
      · cases hc
  | write x label vars =>
    intro d d' s hc h
    simp only [assigned] at hc
    split at hc
    · rename_i ha
      cases hc
      obtain ⟨v, hv⟩ := eval_some ht h label vars ha.2
      obtain ⟨r, hr⟩ := Option.isSome_iff_exists.1 (h x ha.1)
      simp only [exec, hv, hr]
      exact ⟨trivial, has_store h r v⟩
    · cases hc
  | ite label a b iha ihb =>
    intro d d' s hc h
    simp only [assigned] at hc
    split at hc
    · rename_i p q hp hq
      cases hc
      simp only [exec]
      split
      · obtain ⟨h1, h2⟩ := iha d p s hp h
        exact ⟨h1, fun x hx => h2 x (List.mem_filter.1 hx).1⟩
      · obtain ⟨h1, h2⟩ := ihb d q s hq h
        exact ⟨h1, fun x hx => h2 x (by simpa using (List.mem_filter.1 hx).2)⟩
    · cases hc
  | seq a b iha ihb =>
    intro d d' s hc h
    simp only [assigned] at hc
    split at hc
    · rename_i p hp
      obtain ⟨h1, h2⟩ := iha d p s hp h
      obtain ⟨h3, h4⟩ := ihb p d' _ hc h2
      simp only [exec, h1, if_true]
      exact ⟨h3, h4⟩
    · cases hc

theorem definite_sound (me : Meaning I) (i : I) (ht : Total me i) (m : Method) (h : m.definite = true) (args : String → Arr)
    (t : Tables) : ∃ l, (call me m i args t).result = some l := by
  unfold Method.definite at h
  split at h
  · rename_i d hd
    obtain ⟨h1, h2⟩ := assigned_sound me i ht m.body [] d ⟨t, args, [], []⟩ hd (fun x hx => by cases hx)
    obtain ⟨l, hl⟩ := has_returned h2 m.ret h
    exact ⟨l, by simp only [call, h1, if_true, hl]⟩
  · cases h

/-- the number of returned arrays -/
theorem returned_length (s : State) : ∀ (vars : List String) (l : List (Ref × Arr)), returned s vars = some l →
    l.length = vars.length
  | [], l, h => by cases h; rfl
  | x :: xs, l, h => by
    simp only [returned] at h
    split at h
    · rename_i r vs hr hvs
      cases h
      rw [List.length_cons, List.length_cons, returned_length s xs vs hvs]
    · cases h

end Arrays

open Arrays

/-- Whatever the formulas and conditions of the package compute, whatever the arguments and the tables
hold and whichever branches are taken: a call of an operation whose formulas do not raise returns its
arrays.  No variable is used before it is assigned, no branch forgets to assign one. -/
theorem C122_no_unbound_variable {I : Type} (me : Meaning I) (i : I) (ht : Total me i) (m : Method)
    (hm : m ∈ ba19Freqs :: as96Interp :: shipped) (args : String → Arr) (t : Tables) :
    ∃ l, (call me m i args t).result = some l ∧ l.length = m.ret.length := by
  have h : m.definite = true :=
    (show ∀ m ∈ ba19Freqs :: as96Interp :: shipped, m.definite = true by decide +kernel) m hm
  obtain ⟨l, hl⟩ := definite_sound me i ht m h args t
  refine ⟨l, hl, ?_⟩
  simp only [call] at hl
  split at hl
  · exact returned_length _ _ _ hl
  · cases hl

/-- A call fails only if one of its formulas raises. -/
theorem C122_failure_is_a_formula {I : Type} (me : Meaning I) (i : I) (m : Method)
    (hm : m ∈ ba19Freqs :: as96Interp :: shipped) (args : String → Arr) (t : Tables)
    (hf : (call me m i args t).result = none) : ∃ label t a vs, me.formula label i t a vs = none := by
  by_contra hn
  push Not at hn
  obtain ⟨l, hl, -⟩ := C122_no_unbound_variable me i hn m hm args t
  rw [hf] at hl; cases hl

/-- The claim is not trivial: a method that assigns a variable in one branch only and reads it
afterwards fails on the other path although no formula raises. -/
theorem C122_detects_missing_branch :
    ∃ (me : Meaning Unit) (m : Method), Total me () ∧
      m = ⟨"no else", block [.ite "in Japan" (.new "freg" "f" []) .skip, .new "r" "sum" ["freg"]], ["r"]⟩ ∧
      ∀ args t, (call me m () args t).result = none :=
  ⟨⟨fun _ _ _ _ _ => some [], fun _ _ _ => false⟩, _, (by intro _ _ _ _ h; cases h), rfl, fun _ _ => rfl⟩

/-- The hypotheses are satisfiable. -/
example : Total (⟨fun _ _ _ _ vs => some (vs.flatten ++ [1]), fun _ b _ => b⟩ : Meaning Bool) true ∧
    ask14 ∈ ba19Freqs :: as96Interp :: shipped := ⟨(by intro _ _ _ _ h; cases h), by simp [shipped]⟩
