import Verif.Props.Framework
import Verif.GMM

/-!
# From checked scenarios to formulas

How a model's formulas read the checked scenario (`s.mag`, `s["width"]`, ...), and what
the checks guarantee about the values they find there.
-/

/-- A scenario value used as a number in numpy arithmetic: `None` and strings raise
`TypeError`, booleans count as 0/1, `nan` stays undefined. -/
noncomputable def Val.toF : Val → Py F
  | .num x => pure (F.ofReal x)
  | .nan => pure F.nan
  | .bool b => pure (F.ofReal (Val.boolNum b))
  | .none => Py.raise .typeError
  | .str _ => Py.raise .typeError

open Classical in
/-- `value == "text"` -/
noncomputable def Val.isStr (v : Val) (t : String) : Bool := decide (v = .str t)

@[simp] theorem Val.isStr_str (a t : String) : (Val.str a).isStr t = decide (a = t) := by
  simp [Val.isStr]
@[simp] theorem Val.isStr_none (t : String) : Val.none.isStr t = false := by simp [Val.isStr]
@[simp] theorem Val.isStr_num (x : ℝ) (t : String) : (Val.num x).isStr t = false := by
  simp [Val.isStr]

/-- Python truth value of a scenario value (`if s.on_hanging_wall:`) -/
noncomputable def Val.truthy : Val → Bool
  | .none => false
  | .num x => by classical exact decide (x ≠ 0)
  | .nan => true
  | .bool b => b
  | .str s => decide (s ≠ "")

open Classical in
/-- A computed number stored back into a scenario: an undefined one is stored as `nan` (the
code may store `inf` or `nan`; neither is a number of the model). -/
noncomputable def F.toVal (x : F) : Val := if x.ok then .num x.val else .nan

theorem F.toVal_ne_none (x : F) : x.toVal ≠ .none := by
  unfold F.toVal; split <;> simp

open Classical in
/-- what a stored number is read back as -/
noncomputable def F.norm (x : F) : F := if x.ok then F.ofReal x.val else F.nan

theorem F.norm_of_ok {x : F} (h : x.ok) : x.norm = x := by
  unfold F.norm
  rw [if_pos h]
  ext
  · rfl
  · simp [h]

@[simp, fsimp] theorem F.norm_ok (x : F) : x.norm.ok ↔ x.ok := by
  unfold F.norm
  by_cases h : x.ok <;> simp [h]

theorem F.toVal_toF (x : F) : x.toVal.toF = pure x.norm := by
  unfold F.toVal F.norm
  by_cases h : x.ok <;> simp [h, Val.toF]

theorem F.toVal_of_ok {x : F} (h : x.ok) : x.toVal = .num x.val := by
  unfold F.toVal; rw [if_pos h]

/-- `s.k` used as a number -/
noncomputable def Scenario.num (s : Scenario) (k : String) : Py F := do
  let v ← s.getAttr k
  v.toF

/-- An optional number: `None` or a value used as a number -/
noncomputable def Scenario.optNum (s : Scenario) (k : String) : Py (Option F) := do
  let v ← s.getAttr k
  match v with
  | .none => pure none
  | v => do
    let x ← v.toF
    pure (some x)

namespace Scenario

theorem getAttr_of {d : Dict} {k : String} {v : Val} (h : d.get? k = some v) :
    (⟨d, []⟩ : Scenario).getAttr k = pure v := by
  simp [getAttr, getItem, Dict.get?, h]

theorem num_of {d : Dict} {k : String} {x : ℝ} (h : d.get? k = some (.num x)) :
    (⟨d, []⟩ : Scenario).num k = pure (F.ofReal x) := by
  simp [num, getAttr_of h, Val.toF]

theorem num_of_none {d : Dict} {k : String} (h : d.get? k = some .none) :
    (⟨d, []⟩ : Scenario).num k = Py.raise .typeError := by
  simp [num, getAttr_of h, Val.toF]

theorem optNum_of {d : Dict} {k : String} {x : ℝ} (h : d.get? k = some (.num x)) :
    (⟨d, []⟩ : Scenario).optNum k = pure (some (F.ofReal x)) := by
  simp [optNum, getAttr_of h, Val.toF]

theorem optNum_of_none {d : Dict} {k : String} (h : d.get? k = some .none) :
    (⟨d, []⟩ : Scenario).optNum k = pure none := by
  simp [optNum, getAttr_of h]

end Scenario

/-- `d` holds the checked values of `ps` for the source values `get` -/
def Checked (ps : List Param) (get : String → Val) (d : Dict) : Prop :=
  (Model.checkVals ps get).res = .ok d

namespace Checked
variable {ps : List Param} {get : String → Val} {d : Dict}

theorem get_eq (h : Checked ps get d) (hn : (ps.map Param.name).Nodup) {p : Param} (hp : p ∈ ps)
    {v : Val} (hv : (p.check (get p.name)).res = .ok v) : d.get? p.name = some v := by
  obtain ⟨w, hw, hd⟩ := Model.checkVals_get hn h hp
  rw [hv] at hw; cases hw; exact hd

/-- a number given for a numeric parameter is kept -/
theorem num (h : Checked ps get d) (hn : (ps.map Param.name).Nodup) {name : String} {r : Bool}
    {mn mx : Option ℚ} {df : Lit} (hp : numP name r mn mx df ∈ ps) {x : ℝ}
    (hv : get name = .num x) : d.get? name = some (.num x) := by
  refine h.get_eq hn hp ?_
  have hv' : get (numP name r mn mx df).name = .num x := hv
  rw [hv', C06_number_kept _ mn mx rfl]

/-- an optional number left out without default stays `None` -/
theorem absent (h : Checked ps get d) (hn : (ps.map Param.name).Nodup) {name : String}
    {mn mx : Option ℚ} (hp : numP name false mn mx .none ∈ ps)
    (hv : get name = .none) : d.get? name = some .none := by
  refine h.get_eq hn hp ?_
  have hv' : get (numP name false mn mx .none).name = .none := hv
  rw [hv', (C06_default _ mn mx rfl rfl).1 rfl]

/-- an optional number left out with default -/
theorem absent_default (h : Checked ps get d) (hn : (ps.map Param.name).Nodup) {name : String}
    {mn mx : Option ℚ} {q : ℚ} (hp : numP name false mn mx (.num q) ∈ ps)
    (hv : get name = .none) : d.get? name = some (.num q) := by
  refine h.get_eq hn hp ?_
  have hv' : get (numP name false mn mx (.num q)).name = .none := hv
  rw [hv', (C06_default _ mn mx rfl rfl).2 q rfl, C06_number_kept _ mn mx rfl]

/-- an option given for a categorical parameter is kept -/
theorem cat (h : Checked ps get d) (hn : (ps.map Param.name).Nodup) {name : String} {r : Bool}
    {opts : List String} {df : Lit} (hp : catP name r opts df ∈ ps) {t : String}
    (ht : t ∈ opts) (hv : get name = .str t) : d.get? name = some (.str t) := by
  refine h.get_eq hn hp ?_
  have hv' : get (catP name r opts df).name = .str t := hv
  rw [hv', C07_option_kept _ (opts.map .str) rfl _ (by simp)]
  exact ⟨.str t, List.mem_map_of_mem ht, by simp [Val.pyEq, Lit.toVal]⟩

/-- any other string becomes the default -/
theorem cat_other (h : Checked ps get d) (hn : (ps.map Param.name).Nodup) {name : String}
    {r : Bool} {opts : List String} {df : Lit} (hp : catP name r opts df ∈ ps) {t : String}
    (ht : t ∉ opts) (hv : get name = .str t) : d.get? name = some df.toVal := by
  refine h.get_eq hn hp ?_
  have hv' : get (catP name r opts df).name = .str t := hv
  rw [hv', C07_other_becomes_default _ (opts.map .str) rfl _ (by simp)]
  · rfl
  · rintro ⟨o, ho, he⟩
    obtain ⟨t', ht', rfl⟩ := List.mem_map.1 ho
    simp only [Val.pyEq, Lit.toVal] at he
    exact ht (he ▸ ht')

/-- an optional categorical parameter left out -/
theorem cat_absent (h : Checked ps get d) (hn : (ps.map Param.name).Nodup) {name : String}
    {opts : List String} {df : Lit} (hp : catP name false opts df ∈ ps)
    (hv : get name = .none) : d.get? name = some df.toVal := by
  refine h.get_eq hn hp ?_
  have hv' : get (catP name false opts df).name = .none := hv
  rw [hv', (C07_missing _ (opts.map .str) rfl rfl).1]; rfl

/-- a boolean is kept -/
theorem bool (h : Checked ps get d) (hn : (ps.map Param.name).Nodup) {name : String} {r : Bool}
    {df : Lit} (hp : boolP name r df ∈ ps) {b : Bool} (hv : get name = .bool b) :
    d.get? name = some (.bool b) := by
  refine h.get_eq hn hp ?_
  have hv' : get (boolP name r df).name = .bool b := hv
  rw [hv', C07_option_kept _ [.bool true, .bool false] rfl _ (by simp)]
  exact ⟨.bool b, by cases b <;> simp, by simp [Val.pyEq, Lit.toVal]⟩

/-- a boolean left out -/
theorem bool_absent (h : Checked ps get d) (hn : (ps.map Param.name).Nodup) {name : String}
    {df : Lit} (hp : boolP name false df ∈ ps) (hv : get name = .none) :
    d.get? name = some df.toVal := by
  refine h.get_eq hn hp ?_
  have hv' : get (boolP name false df).name = .none := hv
  rw [hv', (C07_missing _ [.bool true, .bool false] rfl rfl).1]; rfl

end Checked

/-- Constructing `C` from `s` succeeds and leaves the outputs `o`. -/
def Gives {Out : Type} (C : ModelClass Out) (s : Scenario) (o : Out) : Prop :=
  ∃ inst, (C.new s).res = .ok inst ∧ inst.out = o

/-- Construction succeeds when the checks pass and the class computes from the checked
dictionary (classes without completion). -/
theorem gives_of_checked {Out : Type} {C : ModelClass Out} (hC : ParamsOk C.params)
    (hfill : C.fill = fun s => pure s) (s : Scenario) (o : Out)
    (hpass : ∀ p ∈ C.params, (p.required = true → s.get p.name ≠ .none) ∧
      ¬ Spec.CannotCompare p (s.get p.name))
    (hcomp : ∀ d, Checked C.params s.get d → (C.compute ⟨d, []⟩).res = .ok o) :
    Gives C s o := by
  obtain ⟨d, hd⟩ := C05_checks_pass (ps := C.params) s hpass
  refine ⟨⟨⟨d, []⟩, o⟩, ?_, rfl⟩
  rw [ModelClass.new, ModelClass.newFrom_eq C hC, Py.bind_res_ok hd, hfill]
  rw [Py.pure_bind', Py.bind_res_ok (hcomp d hd)]
  rfl

/-- Construction is a function of the scenario: two outputs of one scenario agree. -/
theorem Gives.unique {Out : Type} {C : ModelClass Out} {s : Scenario} {o o' : Out}
    (h : Gives C s o) (h' : Gives C s o') : o = o' := by
  obtain ⟨i, hi, rfl⟩ := h
  obtain ⟨i', hi', rfl⟩ := h'
  rw [hi] at hi'; cases hi'; rfl

theorem not_cannotCompare_num (p : Param) (x : ℝ) : ¬ Spec.CannotCompare p (.num x) := by
  simp [Spec.CannotCompare]

theorem not_cannotCompare_cat {name : String} {r : Bool} {opts : List String} {df : Lit} (v : Val) :
    ¬ Spec.CannotCompare (catP name r opts df) v := by
  simp [Spec.CannotCompare, catP]

theorem not_cannotCompare_bool {name : String} {r : Bool} {df : Lit} (v : Val) :
    ¬ Spec.CannotCompare (boolP name r df) v := by
  simp [Spec.CannotCompare, boolP]

theorem not_cannotCompare_absent {name : String} {r : Bool} {mn mx : Option ℚ} :
    ¬ Spec.CannotCompare (numP name r mn mx .none) .none := by
  simp [Spec.CannotCompare, numP]

theorem not_cannotCompare_absent' {name : String} {r : Bool} {mn mx : Option ℚ} {q : ℚ} :
    ¬ Spec.CannotCompare (numP name r mn mx (.num q)) .none := by
  simp [Spec.CannotCompare, numP]

/-! ### Comparing predictions row by row -/

/-- both numbers are defined and the second is strictly smaller -/
def F.Drops (y y' : F) : Prop := y.ok ∧ y'.ok ∧ y'.val < y.val

/-- both numbers are defined and the second is not larger -/
def F.NotAbove (y y' : F) : Prop := y.ok ∧ y'.ok ∧ y'.val ≤ y.val

/-- a relation between the rows of a table, for two computations over that table -/
theorem forall₂_map {α : Type} {rel : F → F → Prop} {f g : α → F} {l : List α}
    (h : ∀ c ∈ l, rel (f c) (g c)) : List.Forall₂ rel (l.map f) (l.map g) := by
  induction l with
  | nil => exact List.Forall₂.nil
  | cons a l ih =>
    exact List.Forall₂.cons (h a (by simp)) (ih fun c hc => h c (by simp [hc]))

/-! ### Discharging the checks of a concrete class -/

/-- `None` or a number -/
def Val.ofOpt : Option ℝ → Val
  | .none => .none
  | .some x => .num x

/-- the check of parameter `p` passes on the scenario's value -/
def Passes (s : Scenario) (p : Param) : Prop :=
  (p.required = true → s.get p.name ≠ .none) ∧ ¬ Spec.CannotCompare p (s.get p.name)

theorem pass_num {s : Scenario} {name : String} {r : Bool} {mn mx : Option ℚ} {df : Lit} {x : ℝ}
    (h : s.get name = .num x) : Passes s (numP name r mn mx df) := by
  refine ⟨fun _ => ?_, ?_⟩ <;> simp [numP, h, Spec.CannotCompare]

theorem pass_opt {s : Scenario} {name : String} {mn mx : Option ℚ} {o : Option ℝ}
    (h : s.get name = Val.ofOpt o) : Passes s (numP name false mn mx .none) := by
  refine ⟨fun h => by simp [numP] at h, ?_⟩
  cases o <;> simp [numP, h, Spec.CannotCompare, Val.ofOpt]

theorem pass_opt_default {s : Scenario} {name : String} {mn mx : Option ℚ} {q : ℚ} {o : Option ℝ}
    (h : s.get name = Val.ofOpt o) : Passes s (numP name false mn mx (.num q)) := by
  refine ⟨fun h => by simp [numP] at h, ?_⟩
  cases o <;> simp [numP, h, Spec.CannotCompare, Val.ofOpt]

theorem pass_cat {s : Scenario} {name : String} {r : Bool} {opts : List String} {df : Lit}
    {t : String} (h : s.get name = .str t) : Passes s (catP name r opts df) := by
  refine ⟨fun _ => ?_, not_cannotCompare_cat _⟩; simp [catP, h]

theorem pass_cat_opt {s : Scenario} {name : String} {opts : List String} {df : Lit} :
    Passes s (catP name false opts df) :=
  ⟨fun h => by simp [catP] at h, not_cannotCompare_cat _⟩

theorem pass_bool_opt {s : Scenario} {name : String} {df : Lit} :
    Passes s (boolP name false df) :=
  ⟨fun h => by simp [boolP] at h, not_cannotCompare_bool _⟩

theorem Checked.opt {ps : List Param} {get : String → Val} {d : Dict} (h : Checked ps get d)
    (hn : (ps.map Param.name).Nodup) {name : String} {mn mx : Option ℚ}
    (hp : numP name false mn mx .none ∈ ps) {o : Option ℝ} (hv : get name = Val.ofOpt o) :
    d.get? name = some (Val.ofOpt o) := by
  cases o with
  | none => exact h.absent hn hp hv
  | some x => exact h.num hn hp hv

theorem Checked.opt_default {ps : List Param} {get : String → Val} {d : Dict}
    (h : Checked ps get d) (hn : (ps.map Param.name).Nodup) {name : String} {mn mx : Option ℚ}
    {q : ℚ} (hp : numP name false mn mx (.num q) ∈ ps) {o : Option ℝ}
    (hv : get name = Val.ofOpt o) : d.get? name = some (.num (o.getD q)) := by
  cases o with
  | none => exact h.absent_default hn hp hv
  | some x => exact h.num hn hp hv

theorem Scenario.optNum_ofOpt {d : Dict} {k : String} {o : Option ℝ}
    (h : d.get? k = some (Val.ofOpt o)) :
    (⟨d, []⟩ : Scenario).optNum k = pure (o.map F.ofReal) := by
  cases o with
  | none => exact optNum_of_none h
  | some x => exact optNum_of h

/-- `gives_of_checked` with the checks as one list -/
theorem gives_of {Out : Type} {C : ModelClass Out} (hC : ParamsOk C.params)
    (hfill : C.fill = fun s => pure s) (s : Scenario) (o : Out)
    (hpass : ∀ p ∈ C.params, Passes s p)
    (hcomp : ∀ d, Checked C.params s.get d → (C.compute ⟨d, []⟩).res = .ok o) :
    Gives C s o := gives_of_checked hC hfill s o hpass hcomp

/-! ### One-sided limits of piecewise formulas -/

open Filter Topology

/-- left limit of a function that agrees with a continuous one below `a` -/
theorem tendsto_left {f g : ℝ → ℝ} {a : ℝ} (hg : ContinuousAt g a) (h : ∀ x < a, f x = g x) :
    Tendsto f (𝓝[<] a) (𝓝 (g a)) := by
  refine (hg.tendsto.mono_left nhdsWithin_le_nhds).congr' ?_
  filter_upwards [self_mem_nhdsWithin] with x hx using (h x hx).symm

/-- right limit of a function that agrees with a continuous one above `a` -/
theorem tendsto_right {f g : ℝ → ℝ} {a : ℝ} (hg : ContinuousAt g a) (h : ∀ x, a < x → f x = g x) :
    Tendsto f (𝓝[>] a) (𝓝 (g a)) := by
  refine (hg.tendsto.mono_left nhdsWithin_le_nhds).congr' ?_
  filter_upwards [self_mem_nhdsWithin] with x hx using (h x hx).symm

/-- both numbers of a list of predictions are defined and positive -/
def F.AllPos (l : List F) : Prop := ∀ y ∈ l, y.ok ∧ 0 < y.val

/-- membership of a declaration in a concrete `PARAMS` list -/
macro "mem_tac" : tactic =>
  `(tactic| (first
    | exact List.mem_cons_self
    | exact List.mem_cons_of_mem _ List.mem_cons_self
    | exact List.mem_cons_of_mem _ (List.mem_cons_of_mem _ List.mem_cons_self)
    | (iterate 3 apply List.mem_cons_of_mem
       first
       | exact List.mem_cons_self
       | (apply List.mem_cons_of_mem; exact List.mem_cons_self)
       | (iterate 2 apply List.mem_cons_of_mem
          exact List.mem_cons_self)
       | (iterate 3 apply List.mem_cons_of_mem
          exact List.mem_cons_self)
       | (iterate 4 apply List.mem_cons_of_mem
          exact List.mem_cons_self)
       | (iterate 5 apply List.mem_cons_of_mem
          exact List.mem_cons_self)
       | (iterate 6 apply List.mem_cons_of_mem
          exact List.mem_cons_self)
       | (iterate 7 apply List.mem_cons_of_mem
          exact List.mem_cons_self)
       | (iterate 8 apply List.mem_cons_of_mem
          exact List.mem_cons_self)
       | (iterate 9 apply List.mem_cons_of_mem
          exact List.mem_cons_self)
       | (iterate 10 apply List.mem_cons_of_mem
          exact List.mem_cons_self)
       | (iterate 11 apply List.mem_cons_of_mem
          exact List.mem_cons_self)
       | (iterate 12 apply List.mem_cons_of_mem
          exact List.mem_cons_self)
       | (iterate 13 apply List.mem_cons_of_mem
          exact List.mem_cons_self))))

/-- value of the `i`-th log response of a constructed model -/
noncomputable def GmmOut.resp (o : GmmOut) (i : ℕ) : ℝ := (o.lnResp.getD i F.nan).val

/-- Construction fails with `e` when the checks pass and the class's own computation fails
with `e` on the checked dictionary. -/
theorem fails_of {Out : Type} {C : ModelClass Out} (hC : ParamsOk C.params)
    (hfill : C.fill = fun s => pure s) (s : Scenario) (e : PyErr)
    (hpass : ∀ p ∈ C.params, Passes s p)
    (hcomp : ∀ d, Checked C.params s.get d → (C.compute ⟨d, []⟩).res = .error e) :
    (C.new s).res = .error e := by
  obtain ⟨d, hd⟩ := C05_checks_pass (ps := C.params) s hpass
  rw [ModelClass.new, ModelClass.newFrom_eq C hC, Py.bind_res_ok hd, hfill, Py.pure_bind']
  exact Py.bind_res_error (hcomp d hd) _

/-- both numbers are defined and equal -/
def F.Same (y y' : F) : Prop := y.ok ∧ y'.ok ∧ y'.val = y.val
