import Verif.ModelLemmas

/-!
# Scenario objects and models on a heap

`Scenario` objects are mutable and shared by reference: the caller holds
references, each model holds a reference to its own `_scenario` and hands it out
through the `scenario` property (model.py lines 177-179).  This file gives the
construction code of model.py as in-place operations on a heap, and the machine
that runs arbitrary client programs.
-/

/-- a reference to a `Scenario` object: its position in allocation order -/
abbrev Ref := Nat

/-- all `Scenario` objects ever allocated -/
abbrev Heap := List Scenario

namespace Heap

/-- assign to the object behind a reference -/
def write (h : Heap) (r : Ref) (s : Scenario) : Heap := h.set r s

/-- model.py lines 173-175, in place: one read, one check and one item assignment
on the object `r` per parameter.  The heap is returned also when a check raises. -/
noncomputable def checkInputs : List Param → Ref → Heap → Heap × Py Unit
  | [], _, h => (h, pure ())
  | p :: ps, r, h =>
    match h[r]? with
    | none => (h, Py.raise .indexError)
    | some s =>
      match (s.getItem p.name).res with
      | .error e => (h, Py.raise e)
      | .ok v =>
        let c := p.check v
        match c.res with
        | .error e => (h, ⟨c.log, .error e⟩)
        | .ok v' =>
          let rest := checkInputs ps r (h.write r (s.setItem p.name v'))
          (rest.1, ⟨c.log ++ rest.2.log, rest.2.res⟩)

/-- model.py lines 166-171 and the subclass constructor: allocate the model's own
scenario object, check it in place, complete it in place (`fill`), compute.
`src` is the `get` of the mapping passed by the caller. -/
noncomputable def construct {Out : Type} (C : ModelClass Out) (src : String → Val) (h : Heap) :
    Heap × Py (Ref × Out) :=
  match (Scenario.init (Model.select C.params src)).res with
  | .error e => (h, Py.raise e)
  | .ok s0 =>
    let r := h.length
    let h1 := h ++ [s0]
    let (h2, c) := checkInputs C.params r h1
    match c.res with
    | .error e => (h2, ⟨c.log, .error e⟩)
    | .ok () =>
      match h2[r]? with
      | none => (h2, Py.raise .indexError)
      | some s2 =>
        let f := C.fill s2
        match f.res with
        | .error e => (h2, ⟨c.log ++ f.log, .error e⟩)
        | .ok s3 =>
          let h3 := h2.write r s3
          let o := C.compute s3
          match o.res with
          | .error e => (h3, ⟨c.log ++ f.log ++ o.log, .error e⟩)
          | .ok out => (h3, ⟨c.log ++ f.log ++ o.log, .ok (r, out)⟩)

end Heap

/-- What a client program can do. `ι` ranges over the model classes. -/
inductive Op (ι : Type) where
  /-- `Scenario(**kwds)` -/
  | newScenario (kwds : Dict)
  /-- `s.copy_with(**kwds)` -/
  | copyWith (r : Ref) (kwds : Dict)
  /-- `s[k] = v` -/
  | setItem (r : Ref) (k : String) (v : Val)
  /-- `s.k = v` -/
  | setAttr (r : Ref) (k : String) (v : Val)
  /-- `C(s)` -/
  | construct (i : ι) (r : Ref)
  /-- `C(**kwds)`, for duration models -/
  | constructKw (i : ι) (kwds : Dict)

/-- A model object: the reference it holds and what it computed. -/
structure ModelObj (Out : Type) where
  scenario : Ref
  out : Out

/-- The state of a client program. -/
structure World (Out : Type) where
  heap : Heap
  models : List (ModelObj Out)

namespace World
variable {Out ι : Type}

/-- One statement of a client program; an exception leaves the effects made so far
(the client may catch it and continue). -/
noncomputable def step (cls : ι → ModelClass Out) (w : World Out) : Op ι → World Out
  | .newScenario kwds =>
    match (Scenario.init kwds).res with
    | .ok s => { w with heap := w.heap ++ [s] }
    | .error _ => w
  | .copyWith r kwds =>
    match w.heap[r]? with
    | none => w
    | some s =>
      match (s.copyWith kwds).res with
      | .ok t => { w with heap := w.heap ++ [t] }
      | .error _ => w
  | .setItem r k v =>
    match w.heap[r]? with
    | none => w
    | some s => { w with heap := w.heap.write r (s.setItem k v) }
  | .setAttr r k v =>
    match w.heap[r]? with
    | none => w
    | some s => { w with heap := w.heap.write r (s.setAttr k v) }
  | .construct i r =>
    match w.heap[r]? with
    | none => w
    | some s =>
      let (h, c) := w.heap.construct (cls i) s.get
      match c.res with
      | .ok (r', out) => ⟨h, w.models ++ [⟨r', out⟩]⟩
      | .error _ => { w with heap := h }
  | .constructKw i kwds =>
    match (Scenario.init kwds).res with
    | .error _ => w
    | .ok s =>
      let (h, c) := (w.heap ++ [s]).construct (cls i) s.get
      match c.res with
      | .ok (r', out) => ⟨h, w.models ++ [⟨r', out⟩]⟩
      | .error _ => { w with heap := h }

/-- a client program -/
noncomputable def run (cls : ι → ModelClass Out) (w : World Out) (ops : List (Op ι)) : World Out :=
  ops.foldl (step cls) w

end World

namespace Heap
variable {Out : Type}

theorem write_append_last (h : Heap) (a b : Scenario) :
    (h ++ [a]).write h.length b = h ++ [b] := by
  simp [write]

/-- checking in place the last object of the heap: other objects stay, and the
result is that of the functional `Model.checkInputs` -/
theorem checkInputs_last (ps : List Param) (h : Heap) (s : Scenario) :
    ∃ t, (checkInputs ps h.length (h ++ [s])).1 = h ++ [t] ∧
      (∀ t', (Model.checkInputs ps s).res = .ok t' → t = t') ∧
      (checkInputs ps h.length (h ++ [s])).2.log = (Model.checkInputs ps s).log ∧
      ((checkInputs ps h.length (h ++ [s])).2.res =
        match (Model.checkInputs ps s).res with
        | .ok _ => .ok ()
        | .error e => .error e) := by
  induction ps generalizing s with
  | nil => exact ⟨s, rfl, by simp [Model.checkInputs], rfl, rfl⟩
  | cons p ps ih =>
    have hget : (h ++ [s])[h.length]? = some s := by simp
    simp only [checkInputs, hget]
    cases hv : (s.getItem p.name).res with
    | error e =>
      have hM : (Model.checkInputs (p :: ps) s).res = .error e := Py.bind_res_error hv _
      have hL : (Model.checkInputs (p :: ps) s).log = [] := by
        simp only [Model.checkInputs, Py.bind_eq, Py.bind, hv]
        unfold Scenario.getItem at hv ⊢
        split at hv <;> simp_all
      exact ⟨s, rfl, by simp [hM], by simp [hL], by simp [hM]⟩
    | ok v =>
      have hL0 : (s.getItem p.name).log = [] := by
        unfold Scenario.getItem at hv ⊢
        split at hv <;> simp_all
      have hs0 : s.getItem p.name = pure v := Py.ext hL0 hv
      have hM0 : Model.checkInputs (p :: ps) s =
          (p.check v >>= fun v' => Model.checkInputs ps (s.setItem p.name v')) := by
        simp only [Model.checkInputs]; rw [hs0, Py.pure_bind']
      cases hc : (p.check v).res with
      | error e =>
        have hM : (Model.checkInputs (p :: ps) s).res = .error e := by
          rw [hM0]; exact Py.bind_res_error hc _
        have hL : (Model.checkInputs (p :: ps) s).log = (p.check v).log := by
          rw [hM0]; simp only [Py.bind_eq, Py.bind, hc]
        simp only [hc]
        exact ⟨s, rfl, by simp [hM], by simp [hL], by simp [hM]⟩
      | ok v' =>
        have hM : (Model.checkInputs (p :: ps) s).res =
            (Model.checkInputs ps (s.setItem p.name v')).res := by
          rw [hM0]; exact Py.bind_res_ok hc _
        have hL : (Model.checkInputs (p :: ps) s).log =
            (p.check v).log ++ (Model.checkInputs ps (s.setItem p.name v')).log := by
          rw [hM0]; exact Py.bind_log_ok hc _
        simp only [hc, write_append_last]
        obtain ⟨t, h1, h2, h3, h4⟩ := ih (s.setItem p.name v')
        refine ⟨t, h1, ?_, ?_, ?_⟩
        · rw [hM]; exact h2
        · rw [h3, hL]
        · rw [h4, hM]

/-- In-place construction refines the functional `newFrom`: all earlier objects
stay, at most one object is added, and result, exception and warnings agree. -/
theorem construct_spec (C : ModelClass Out) (src : String → Val) (h : Heap) :
    (∃ new, (construct C src h).1 = h ++ new ∧ new.length ≤ 1) ∧
    ((construct C src h).2.log = (C.newFrom src).log) ∧
    (∀ e, (construct C src h).2.res = .error e ↔ (C.newFrom src).res = .error e) ∧
    (∀ r out, (construct C src h).2.res = .ok (r, out) ↔
      r = h.length ∧ ∃ s, (C.newFrom src).res = .ok ⟨s, out⟩) ∧
    (∀ m, (C.newFrom src).res = .ok m → (construct C src h).1 = h ++ [m.scenario]) := by
  unfold construct ModelClass.newFrom
  have hlog0 : (Scenario.init (Model.select C.params src)).log = [] := by
    unfold Scenario.init
    have := Scenario.checkKeys_log (Dict.keys (Dict.update [] (Model.select C.params src)))
    simp only [Py.bind_eq, Py.bind]
    cases (Scenario.checkKeys (Dict.keys (Dict.update [] (Model.select C.params src)))).res <;>
      simp [this]
  cases h0 : (Scenario.init (Model.select C.params src)).res with
  | error e0 =>
    have hx : Scenario.init (Model.select C.params src) = Py.raise e0 := Py.ext hlog0 h0
    rw [hx]
    simp only [Py.raise_bind]
    refine ⟨⟨[], by simp, by simp⟩, rfl, by simp, by simp, by simp⟩
  | ok s0 =>
    have hx : Scenario.init (Model.select C.params src) = pure s0 := Py.ext hlog0 h0
    rw [hx, Py.pure_bind']
    dsimp only
    obtain ⟨t, h1, h2, h3, h4⟩ := checkInputs_last C.params h s0
    generalize hci : checkInputs C.params h.length (h ++ [s0]) = ci at h1 h3 h4 ⊢
    obtain ⟨h2', c⟩ := ci
    simp only at h1 h3 h4
    subst h1
    generalize hM : Model.checkInputs C.params s0 = M at h2 h3 h4 ⊢
    obtain ⟨Ml, Mr⟩ := M
    obtain ⟨cl, cr⟩ := c
    simp only at h3 h4
    subst h3
    cases Mr with
    | error e =>
      simp only at h4; subst h4
      have hb : ∀ {β} (g : Scenario → Py β), ((⟨cl, .error e⟩ : Py Scenario) >>= g) =
        ⟨cl, .error e⟩ := fun g => rfl
      rw [hb]
      refine ⟨⟨[t], rfl, by simp⟩, rfl, by simp, by simp, by simp⟩
    | ok t' =>
      simp only at h4; subst h4
      have := h2 t' rfl
      subst this
      have hb : ∀ {β} (g : Scenario → Py β), ((⟨cl, .ok t⟩ : Py Scenario) >>= g) =
        ⟨cl ++ (g t).log, (g t).res⟩ := fun g => rfl
      rw [hb]
      have hget : (h ++ [t])[h.length]? = some t := by simp
      simp only [hget]
      generalize C.fill t = f
      obtain ⟨fl, fr⟩ := f
      cases fr with
      | error e =>
        have hb2 : ∀ {β} (g : Scenario → Py β), ((⟨fl, .error e⟩ : Py Scenario) >>= g) =
          ⟨fl, .error e⟩ := fun g => rfl
        rw [hb2]
        refine ⟨⟨[t], rfl, by simp⟩, rfl, by simp, by simp, by simp⟩
      | ok s3 =>
        have hb2 : ∀ {β} (g : Scenario → Py β), ((⟨fl, .ok s3⟩ : Py Scenario) >>= g) =
          ⟨fl ++ (g s3).log, (g s3).res⟩ := fun g => rfl
        rw [hb2]
        simp only [write_append_last]
        generalize C.compute s3 = o
        obtain ⟨ol, or⟩ := o
        cases or with
        | error e =>
          have hb3 : ∀ {β} (g : Out → Py β), ((⟨ol, .error e⟩ : Py Out) >>= g) =
            ⟨ol, .error e⟩ := fun g => rfl
          rw [hb3]
          refine ⟨⟨[s3], rfl, by simp⟩, by simp, by simp, by simp, by simp⟩
        | ok out =>
          have hb3 : ∀ {β} (g : Out → Py β), ((⟨ol, .ok out⟩ : Py Out) >>= g) =
            ⟨ol ++ (g out).log, (g out).res⟩ := fun g => rfl
          rw [hb3]
          refine ⟨⟨[s3], rfl, by simp⟩, by simp, by simp, ?_, ?_⟩
          · intro r out'
            simp [eq_comm]
          · intro m hm
            simp only [Py.pure_res, Except.ok.injEq] at hm
            rw [← hm]

end Heap
