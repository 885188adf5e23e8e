import Verif.Arrays

/-!
# Array programs by value

The programs of `Verif/Models/ArrayMethods.lean` run on arrays that can be shared and are updated in
place.  Here is the meaning a reader gives them: every variable has a value, an update changes the value
of one variable.  `tidy` checks that no variable is read before it is assigned and that every in-place
update goes to an array only one variable refers to; for programs that pass, the two meanings agree
(`call_eq`).
-/

namespace Arrays

/-- formulas that give an array for all inputs -/
structure VMeaning (I : Type) where
  formula : String → I → Tables → (String → Arr) → List Arr → Arr
  test : String → I → (String → Arr) → Bool

variable {I : Type}

/-- as a meaning of array programs: no formula raises -/
def VMeaning.toMeaning (m : VMeaning I) : Meaning I :=
  ⟨fun l i t a vs => some (m.formula l i t a vs), m.test⟩

/-- values of the variables -/
abbrev Env := String → Arr

/-- value of a source -/
def Source.value (t : Tables) (args : String → Arr) (e : Env) : Source → Arr
  | .column k => t k
  | .arg k => args k
  | .var x => e x

/-- execution by value -/
def vexec (m : VMeaning I) (i : I) (t : Tables) (args : String → Arr) : Cmd → Env → Env
  | .skip, e => e
  | .new x label vars, e => Function.update e x (m.formula label i t args (vars.map e))
  | .bind x src, e => Function.update e x (src.value t args e)
  | .write x label vars, e => Function.update e x (m.formula label i t args (vars.map e))
  | .ite label a b, e => if m.test label i args then vexec m i t args a e else vexec m i t args b e
  | .seq a b, e => vexec m i t args b (vexec m i t args a e)

/-- `d`: the variables assigned so far; `own`: those that refer to an array no other assigned variable
refers to.  `none`: the program may read an unassigned variable or update a shared array. -/
def tidy : Cmd → List String → List String → Option (List String × List String)
  | .skip, d, own => some (d, own)
  | .new x _ vars, d, own => if vars.all (· ∈ d) then some (x :: d, x :: own) else none
  | .bind x (.var y), d, own => if y ∈ d then some (x :: d, own.filter fun z => z ≠ x ∧ z ≠ y) else none
  | .bind x _, d, own => some (x :: d, own.filter (· ≠ x))
  | .write x _ vars, d, own => if x ∈ own ∧ x ∈ d ∧ vars.all (· ∈ d) then some (d, own) else none
  | .ite _ a b, d, own =>
    match tidy a d own, tidy b d own with
    | some p, some q => some (p.1.filter (· ∈ q.1), p.2.filter (· ∈ q.2))
    | _, _ => none
  | .seq a b, d, own =>
    match tidy a d own with
    | some p => tidy b p.1 p.2
    | none => none

/-- a state stands for values -/
structure Stands (t : Tables) (args : String → Arr) (s : State) (e : Env) (d own : List String) : Prop where
  tables : s.tables = t
  args : s.args = args
  value : ∀ x ∈ d, ∃ r, s.look x = some r ∧ s.read r = e x
  valid : ∀ x ∈ d, ∀ n, s.look x = some (.tmp n) → n < s.tmps.length
  own : ∀ x ∈ own, x ∈ d → ∃ n, s.look x = some (.tmp n) ∧ ∀ y ∈ d, y ≠ x → s.look y ≠ some (.tmp n)

theorem look_cons1 (x : String) (r : Ref) (t : Tables) (args : String → Arr) (ts : List Arr) (env : List (String × Ref)) (y : String) :
    (State.mk t args ts ((x, r) :: env)).look y = if x = y then some r else (State.mk t args ts env).look y := by
  simp only [State.look, List.find?_cons]
  by_cases h : x = y <;> simp [h]

theorem values_eq {t : Tables} {args : String → Arr} {s : State} {e : Env} {d own : List String}
    (h : Stands t args s e d own) : ∀ vars : List String, vars.all (· ∈ d) = true → s.values vars = some (vars.map e)
  | [], _ => rfl
  | x :: xs, hv => by
    simp only [List.all_cons, Bool.and_eq_true, decide_eq_true_eq] at hv
    obtain ⟨r, h1, h2⟩ := h.value x hv.1
    have := values_eq h xs hv.2
    simp only [State.values, h1, this, h2, List.map_cons]

theorem getD_append_lt {ts : List Arr} {v : Arr} {n : ℕ} (h : n < ts.length) : (ts ++ [v]).getD n [] = ts.getD n [] := by
  simp only [List.getD_eq_getElem?_getD, List.getElem?_append_left h]

theorem sim (m : VMeaning I) (i : I) (t : Tables) (args : String → Arr) (c : Cmd) : ∀ (s : State) (e : Env)
    (d own d' own' : List String), Stands t args s e d own → tidy c d own = some (d', own') →
    (exec m.toMeaning i c s).2 = true ∧ Stands t args (exec m.toMeaning i c s).1 (vexec m i t args c e) d' own' := by
  induction c with
  | skip =>
    intro s e d own d' own' h hc
    simp only [tidy, Option.some.injEq, Prod.mk.injEq] at hc
    obtain ⟨rfl, rfl⟩ := hc
    exact ⟨rfl, h⟩
  | new x l vars =>
    intro s e d own d' own' h hc
    simp only [tidy] at hc
    split at hc
    · rename_i hv
      simp only [Option.some.injEq, Prod.mk.injEq] at hc
      obtain ⟨rfl, rfl⟩ := hc
      have ev : eval m.toMeaning i s l vars = some (m.formula l i t args (vars.map e)) := by
        simp only [eval, values_eq h vars hv, Option.bind_some, VMeaning.toMeaning, h.tables, h.args]
      obtain ⟨ts, as, tm, env⟩ := s
      obtain ⟨h1, h2, h3, h4, h5⟩ := h
      simp only at h1 h2
      subst h1 h2
      simp only [exec, ev, vexec, true_and]
      refine ⟨rfl, rfl, ?_, ?_, ?_⟩
      · intro y hy
        rw [look_cons1]
        by_cases hxy : x = y
        · subst hxy
          exact ⟨.tmp tm.length, if_pos rfl, by simp [State.read, Function.update_self]⟩
        · rw [if_neg hxy, Function.update_of_ne (Ne.symm hxy)]
          have hy' : y ∈ d := by
            rcases List.mem_cons.1 hy with e | e
            · exact absurd e.symm hxy
            · exact e
          obtain ⟨r, hr, he⟩ := h3 y hy'
          refine ⟨r, hr, ?_⟩
          cases r with
          | column k => exact he
          | arg k => exact he
          | tmp n =>
            have hn := h4 y hy' n hr
            simp only [State.read] at he ⊢
            rw [getD_append_lt hn]; exact he
      · intro y hy n hl
        rw [look_cons1] at hl
        simp only [List.length_append, List.length_cons, List.length_nil]
        by_cases hxy : x = y
        · rw [if_pos hxy] at hl
          simp only [Option.some.injEq, Ref.tmp.injEq] at hl
          omega
        · rw [if_neg hxy] at hl
          have hy' : y ∈ d := by
            rcases List.mem_cons.1 hy with e | e
            · exact absurd e.symm hxy
            · exact e
          have : n < tm.length := h4 y hy' n hl
          omega
      · intro y hy hyd
        by_cases hxy : x = y
        · subst hxy
          refine ⟨tm.length, by rw [look_cons1, if_pos rfl], fun z hz hzx => ?_⟩
          rw [look_cons1, if_neg (Ne.symm hzx)]
          have hz' : z ∈ d := (List.mem_cons.1 hz).resolve_left hzx
          intro hl
          exact absurd (h4 z hz' _ hl) (lt_irrefl _)
        · have hy' : y ∈ own := (List.mem_cons.1 hy).resolve_left (Ne.symm hxy)
          have hyd' : y ∈ d := (List.mem_cons.1 hyd).resolve_left (Ne.symm hxy)
          obtain ⟨n, hn, hu⟩ := h5 y hy' hyd'
          refine ⟨n, by rw [look_cons1, if_neg hxy]; exact hn, fun z hz hzy => ?_⟩
          rw [look_cons1]
          by_cases hxz : x = z
          · rw [if_pos hxz]
            have : n < tm.length := h4 y hyd' n hn
            simp only [ne_eq, Option.some.injEq, Ref.tmp.injEq]
            omega
          · rw [if_neg hxz]
            exact hu z ((List.mem_cons.1 hz).resolve_left (Ne.symm hxz)) hzy
    · exact absurd hc (by simp)
  | bind x src =>
    intro s e d own d' own' h hc
    obtain ⟨ts, as, tm, env⟩ := s
    obtain ⟨h1, h2, h3, h4, h5⟩ := h
    simp only at h1 h2
    subst h1 h2
    -- the reference and its value
    have key : ∀ r : Ref, (State.mk ts as tm env).source src = some r → (State.mk ts as tm env).read r = src.value ts as e →
        d' = x :: d → (∀ n, r = .tmp n → n < tm.length) → (∀ z ∈ own', z ∈ own ∧ z ≠ x) →
        (∀ n, r = .tmp n → ∀ z ∈ own', z ∈ d → (State.mk ts as tm env).look z ≠ some (.tmp n)) →
        (exec m.toMeaning i (.bind x src) ⟨ts, as, tm, env⟩).2 = true ∧
          Stands ts as (exec m.toMeaning i (.bind x src) ⟨ts, as, tm, env⟩).1 (vexec m i ts as (.bind x src) e) d' own' := by
      intro r hr hv hd hlt ho hu
      subst hd
      simp only [exec, hr, State.assign, vexec, true_and]
      refine ⟨rfl, rfl, ?_, ?_, ?_⟩
      · intro y hy
        rw [look_cons1]
        by_cases hxy : x = y
        · subst hxy
          refine ⟨r, if_pos rfl, ?_⟩
          rw [Function.update_self, ← hv]
          cases r <;> rfl
        · rw [if_neg hxy, Function.update_of_ne (Ne.symm hxy)]
          obtain ⟨q, hq, he⟩ := h3 y ((List.mem_cons.1 hy).resolve_left (Ne.symm hxy))
          refine ⟨q, hq, ?_⟩
          rw [← he]
          cases q <;> rfl
      · intro y hy n hl
        rw [look_cons1] at hl
        by_cases hxy : x = y
        · rw [if_pos hxy] at hl
          exact hlt n (Option.some.inj hl)
        · rw [if_neg hxy] at hl
          exact h4 y ((List.mem_cons.1 hy).resolve_left (Ne.symm hxy)) n hl
      · intro y hy hyd
        obtain ⟨g1, g2⟩ := ho y hy
        have hyd' : y ∈ d := (List.mem_cons.1 hyd).resolve_left g2
        obtain ⟨n, hn, hu'⟩ := h5 y g1 hyd'
        refine ⟨n, by rw [look_cons1, if_neg (Ne.symm g2)]; exact hn, fun z hz hzy => ?_⟩
        rw [look_cons1]
        by_cases hxz : x = z
        · rw [if_pos hxz]
          intro hrn
          exact hu n (Option.some.inj hrn) y hy hyd' hn
        · rw [if_neg hxz]
          exact hu' z ((List.mem_cons.1 hz).resolve_left (Ne.symm hxz)) hzy
    cases src with
    | column k =>
      simp only [tidy, Option.some.injEq, Prod.mk.injEq] at hc
      obtain ⟨hd, ho⟩ := hc
      refine key (.column k) rfl rfl hd.symm (fun n hn => by cases hn) (fun z hz => ?_) (fun n hn => by cases hn)
      rw [← ho] at hz
      simpa using hz
    | arg k =>
      simp only [tidy, Option.some.injEq, Prod.mk.injEq] at hc
      obtain ⟨hd, ho⟩ := hc
      refine key (.arg k) rfl rfl hd.symm (fun n hn => by cases hn) (fun z hz => ?_) (fun n hn => by cases hn)
      rw [← ho] at hz
      simpa using hz
    | var y =>
      simp only [tidy] at hc
      split at hc
      · rename_i hy
        simp only [Option.some.injEq, Prod.mk.injEq] at hc
        obtain ⟨hd, ho⟩ := hc
        obtain ⟨r, hr, he⟩ := h3 y hy
        refine key r hr he hd.symm (fun n hn => h4 y hy n (hn ▸ hr)) (fun z hz => ?_) (fun n hn z hz hzd => ?_)
        · rw [← ho] at hz
          simp only [List.mem_filter, decide_eq_true_eq] at hz
          exact ⟨hz.1, hz.2.1⟩
        · rw [← ho] at hz
          simp only [List.mem_filter, decide_eq_true_eq] at hz
          obtain ⟨k, hk, hu⟩ := h5 z hz.1 hzd
          intro hl
          rw [hk] at hl
          have : k = n := by simpa using hl
          subst this
          exact hu y hy (Ne.symm hz.2.2) (hn ▸ hr)
      · exact absurd hc (by simp)
  | write x l vars =>
    intro s e d own d' own' h hc
    simp only [tidy] at hc
    split at hc
    · rename_i hv
      obtain ⟨hxo, hxd, hv⟩ := hv
      simp only [Option.some.injEq, Prod.mk.injEq] at hc
      obtain ⟨rfl, rfl⟩ := hc
      have ev : eval m.toMeaning i s l vars = some (m.formula l i t args (vars.map e)) := by
        simp only [eval, values_eq h vars hv, Option.bind_some, VMeaning.toMeaning, h.tables, h.args]
      obtain ⟨ts, as, tm, env⟩ := s
      obtain ⟨h1, h2, h3, h4, h5⟩ := h
      simp only at h1 h2
      subst h1 h2
      obtain ⟨n, hn, hu⟩ := h5 x hxo hxd
      have hlt : n < tm.length := h4 x hxd n hn
      simp only [exec, hn, ev, State.store, vexec, true_and]
      have lk : ∀ y, (State.mk ts as (tm.set n (m.formula l i ts as (vars.map e))) env).look y =
          (State.mk ts as tm env).look y := fun y => rfl
      refine ⟨rfl, rfl, ?_, ?_, ?_⟩
      · intro y hy
        rw [lk]
        by_cases hxy : y = x
        · subst hxy
          refine ⟨.tmp n, hn, ?_⟩
          rw [Function.update_self]
          simp [State.read, hlt]
        · obtain ⟨r, hr, he⟩ := h3 y hy
          rw [Function.update_of_ne hxy]
          refine ⟨r, hr, ?_⟩
          cases r with
          | column k => exact he
          | arg k => exact he
          | tmp k =>
            have hk : k ≠ n := fun e => hu y hy hxy (e ▸ hr)
            simp only [State.read] at he ⊢
            rw [← he]
            simp only [List.getD_eq_getElem?_getD, List.getElem?_set_ne hk.symm]
      · intro y hy k hl
        rw [lk] at hl
        simp only [List.length_set]
        exact h4 y hy k hl
      · intro y hy hyd
        obtain ⟨k, hk, hu'⟩ := h5 y hy hyd
        exact ⟨k, hk, hu'⟩
    · exact absurd hc (by simp)
  | ite l a b iha ihb =>
    intro s e d own d' own' h hc
    simp only [tidy] at hc
    cases ha : tidy a d own with
    | none => simp [ha] at hc
    | some p =>
      cases hb : tidy b d own with
      | none => simp [ha, hb] at hc
      | some q =>
        simp only [ha, hb, Option.some.injEq, Prod.mk.injEq] at hc
        obtain ⟨rfl, rfl⟩ := hc
        have ht : m.toMeaning.test l i s.args = m.test l i args := by rw [h.args]; rfl
        simp only [exec, vexec, ht]
        have weaken : ∀ {s : State} {e : Env} {d o d₁ o₁ : List String}, Stands t args s e d o → (∀ x ∈ d₁, x ∈ d) →
            (∀ x ∈ o₁, x ∈ o) → Stands t args s e d₁ o₁ := by
          intro s e d o d₁ o₁ w h1 h2
          exact ⟨w.tables, w.args, fun x hx => w.value x (h1 x hx), fun x hx => w.valid x (h1 x hx),
            fun x hx hxd => by
              obtain ⟨n, hn, hu⟩ := w.own x (h2 x hx) (h1 x hxd)
              exact ⟨n, hn, fun y hy => hu y (h1 y hy)⟩⟩
        split
        · obtain ⟨g1, g2⟩ := iha s e d own p.1 p.2 h ha
          exact ⟨g1, weaken g2 (fun x hx => (List.mem_filter.1 hx).1) (fun x hx => (List.mem_filter.1 hx).1)⟩
        · obtain ⟨g1, g2⟩ := ihb s e d own q.1 q.2 h hb
          refine ⟨g1, weaken g2 (fun x hx => ?_) (fun x hx => ?_)⟩
          · simpa using (List.mem_filter.1 hx).2
          · simpa using (List.mem_filter.1 hx).2
  | seq a b iha ihb =>
    intro s e d own d' own' h hc
    simp only [tidy] at hc
    cases ha : tidy a d own with
    | none => simp [ha] at hc
    | some p =>
      simp only [ha] at hc
      obtain ⟨g1, g2⟩ := iha s e d own p.1 p.2 h ha
      simp only [exec, g1, if_true, vexec]
      exact ihb _ _ _ _ _ _ g2 hc

/-- a method whose program is tidy and returns assigned variables -/
def Method.sound (m : Method) : Bool :=
  match Arrays.tidy m.body [] [] with
  | some p => m.ret.all (· ∈ p.1)
  | none => false

/-- the empty environment -/
def noVars : Env := fun _ => []

/-- what a tidy method returns: the values of its variables -/
theorem call_eq (me : VMeaning I) (m : Method) (hm : m.sound = true) (i : I) (args : String → Arr) (t : Tables) :
    (call me.toMeaning m i args t).tables = t ∧ (call me.toMeaning m i args t).args = args ∧
    (call me.toMeaning m i args t).result.map (·.map Prod.snd) =
      some (m.ret.map (vexec me i t args m.body noVars)) := by
  simp only [Method.sound] at hm
  cases ht : Arrays.tidy m.body [] [] with
  | none => simp [ht] at hm
  | some p =>
    simp only [ht] at hm
    have h0 : Stands t args ⟨t, args, [], []⟩ noVars [] [] :=
      ⟨rfl, rfl, (by intro x hx; cases hx), (by intro x hx; cases hx), (by intro x hx; cases hx)⟩
    obtain ⟨g1, g2⟩ := sim me i t args m.body _ _ _ _ p.1 p.2 h0 ht
    refine ⟨g2.tables, g2.args, ?_⟩
    simp only [call, g1, if_true]
    have : ∀ vars : List String, vars.all (· ∈ p.1) = true →
        (returned (exec me.toMeaning i m.body ⟨t, args, [], []⟩).1 vars).map (·.map Prod.snd) =
          some (vars.map (vexec me i t args m.body noVars)) := by
      intro vars
      induction vars with
      | nil => intro _; rfl
      | cons x xs ih =>
        intro hv
        simp only [List.all_cons, Bool.and_eq_true, decide_eq_true_eq] at hv
        obtain ⟨r, h1, h2⟩ := g2.value x hv.1
        have := ih hv.2
        cases hr : returned (exec me.toMeaning i m.body ⟨t, args, [], []⟩).1 xs with
        | none => simp [hr] at this
        | some l =>
          rw [hr] at this
          simp only [Option.map_some, Option.some.injEq] at this
          simp only [returned, h1, hr, Option.map_some, List.map_cons, h2, this]
    exact this m.ret hm

end Arrays
