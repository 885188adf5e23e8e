import Verif.ArrayValues
import Verif.Models.ArrayMethods
import Verif.GMMLemmas

/-!
# Array programs whose statements are row formulas

Every statement of the programs of `Verif/Models/ArrayMethods.lean` computes entry `j` of its array from
row `j` of the coefficient table and entries `j` of its variables (and, where the code indexes with
`INDEX_PGA`, one entry of a whole array).  `rowwise` makes a meaning of such row formulas: numpy's
element-wise arithmetic.
-/

namespace Arrays

variable {I Row : Type}

/-- the row formulas of a class: `f label input arrays row entries` is the entry in that row, where
`entries k` is the entry of the `k`-th variable in that row and `arrays` the variables as whole arrays -/
structure Kernel (I Row : Type) where
  f : String → I → List Arr → Row → (ℕ → F) → F
  test : String → I → Bool

/-- entry-wise evaluation over the rows -/
def pw (rows : List Row) (k : Row → (ℕ → F) → F) (vs : List Arr) : Arr :=
  rows.zipIdx.map fun p => k p.1 fun n => (vs.getD n []).getD p.2 F.nan

/-- model.py lines 299-315: the accessors `spec_accels`, `ln_stds` and `periods` of the class `C`; other
labels by row formulas -/
noncomputable def rowwise (C : GmmClass) (rows : List Row) (K : Kernel I Row) : VMeaning I where
  formula := fun l i _ _ vs =>
    if l = "model.py:307" then C.indicesPsa.map fun j => F.exp ((vs.getD 0 []).getD j F.nan)
    else if l = "model.py:315" then C.indicesPsa.map fun j => (vs.getD 0 []).getD j F.nan
    else if l = "model.py:302" then C.indicesPsa.map fun j => F.ofRat (C.periods.getD j 0)
    else pw rows (K.f l i vs) vs
  test := fun l i _ => K.test l i

theorem pw_maps (rows : List Row) (k : Row → (ℕ → F) → F) (fs : List (Row → F)) :
    pw rows k (fs.map fun f => rows.map f) = rows.map fun c => k c fun n => (fs.map (· c)).getD n F.nan := by
  apply List.ext_getElem
  · simp [pw]
  · intro j h1 h2
    simp only [pw, List.length_map, List.length_zipIdx] at h1
    simp only [pw, List.getElem_map, List.getElem_zipIdx, Nat.zero_add]
    congr 1
    funext n
    simp only [List.getD_eq_getElem?_getD, List.getElem?_map]
    cases fs[n]? with
    | none => simp
    | some f => simp [List.getElem?_eq_getElem h1]

/-- all in rows -/
theorem pw0 (rows : List Row) (k : Row → (ℕ → F) → F) : pw rows k [] = rows.map fun c => k c fun _ => F.nan := by
  simpa using pw_maps rows k []

theorem pw1 (rows : List Row) (k : Row → (ℕ → F) → F) (a : Row → F) :
    pw rows k [rows.map a] = rows.map fun c => k c fun n => [a c].getD n F.nan := pw_maps rows k [a]

theorem pw2 (rows : List Row) (k : Row → (ℕ → F) → F) (a b : Row → F) :
    pw rows k [rows.map a, rows.map b] = rows.map fun c => k c fun n => [a c, b c].getD n F.nan := pw_maps rows k [a, b]

theorem pw3 (rows : List Row) (k : Row → (ℕ → F) → F) (a b c : Row → F) :
    pw rows k [rows.map a, rows.map b, rows.map c] = rows.map fun r => k r fun n => [a r, b r, c r].getD n F.nan :=
  pw_maps rows k [a, b, c]

theorem pw4 (rows : List Row) (k : Row → (ℕ → F) → F) (a b c d : Row → F) :
    pw rows k [rows.map a, rows.map b, rows.map c, rows.map d] =
      rows.map fun r => k r fun n => [a r, b r, c r, d r].getD n F.nan := pw_maps rows k [a, b, c, d]

theorem pw5 (rows : List Row) (k : Row → (ℕ → F) → F) (a b c d e : Row → F) :
    pw rows k [rows.map a, rows.map b, rows.map c, rows.map d, rows.map e] =
      rows.map fun r => k r fun n => [a r, b r, c r, d r, e r].getD n F.nan := pw_maps rows k [a, b, c, d, e]

theorem pw8 (rows : List Row) (k : Row → (ℕ → F) → F) (a b c d e f g h : Row → F) :
    pw rows k [rows.map a, rows.map b, rows.map c, rows.map d, rows.map e, rows.map f, rows.map g, rows.map h] =
      rows.map fun r => k r fun n => [a r, b r, c r, d r, e r, f r, g r, h r].getD n F.nan :=
  pw_maps rows k [a, b, c, d, e, f, g, h]

theorem map_ite (rows : List Row) (b : Bool) (f g : Row → F) :
    (if b = true then rows.map f else rows.map g) = rows.map fun c => if b = true then f c else g c := by
  cases b <;> rfl

theorem update_same (e : Env) (x : String) (v : Arr) : Function.update e x v x = v := Function.update_self ..

theorem update_other (e : Env) {x y : String} (v : Arr) (h : y ≠ x) : Function.update e x v y = e y :=
  Function.update_of_ne h ..

/-- defined numbers add as usual, and a sum is defined if its terms are -/
theorem add_assoc_F (a b c : F) : a + b + c = a + (b + c) := by
  ext
  · change a.val + b.val + c.val = a.val + (b.val + c.val); ring
  · change (a.ok ∧ b.ok) ∧ c.ok ↔ a.ok ∧ b.ok ∧ c.ok; exact and_assoc

theorem add_zero_F (a : F) : a + 0 = a := by
  ext
  · change a.val + ((0 : ℕ) : ℝ) = a.val; simp
  · change a.ok ∧ True ↔ a.ok; simp

theorem zero_add_F (a : F) : 0 + a = a := by
  ext
  · change ((0 : ℕ) : ℝ) + a.val = a.val; simp
  · change True ∧ a.ok ↔ a.ok; simp

/-- the variables a command assigns or writes to -/
def Cmd.targets : Cmd → List String
  | .skip => []
  | .new x _ _ => [x]
  | .bind x _ => [x]
  | .write x _ _ => [x]
  | .ite _ a b => a.targets ++ b.targets
  | .seq a b => a.targets ++ b.targets

/-- other variables keep their values -/
theorem vexec_frame (m : VMeaning I) (i : I) (t : Tables) (args : String → Arr) (c : Cmd) {x : String} :
    ∀ e : Env, x ∉ c.targets → vexec m i t args c e x = e x := by
  induction c with
  | skip => intro e _; rfl
  | new y l vs => intro e h; exact Function.update_of_ne (by simpa [Cmd.targets] using h) ..
  | bind y s => intro e h; exact Function.update_of_ne (by simpa [Cmd.targets] using h) ..
  | write y l vs => intro e h; exact Function.update_of_ne (by simpa [Cmd.targets] using h) ..
  | ite l a b iha ihb =>
    intro e h
    simp only [Cmd.targets, List.mem_append, not_or] at h
    simp only [vexec]
    split
    · exact iha e h.1
    · exact ihb e h.2
  | seq a b iha ihb =>
    intro e h
    simp only [Cmd.targets, List.mem_append, not_or] at h
    simp only [vexec]
    rw [ihb _ h.2, iha e h.1]

/-- a comparison of defined numbers -/
theorem iteLe_of {a b : F} (ha : a.ok) (hb : b.ok) (x y : F) [Decidable (a.val ≤ b.val)] :
    F.iteLe a b x y = if a.val ≤ b.val then x else y := by
  unfold F.iteLe; split <;> simp_all

theorem iteLt_of {a b : F} (ha : a.ok) (hb : b.ok) (x y : F) [Decidable (a.val < b.val)] :
    F.iteLt a b x y = if a.val < b.val then x else y := by
  unfold F.iteLt; split <;> simp_all

/-- numpy's boolean arrays hold ones and zeros: `a <= b` entry by entry -/
noncomputable def maskLe (a b : F) : F := F.iteLe a b 1 0
/-- `a < b` entry by entry -/
noncomputable def maskLt (a b : F) : F := F.iteLt a b 1 0
/-- one entry of `x[mask] = e[mask]`: `e` where the mask is true, `x` elsewhere -/
noncomputable def where_ (mask e x : F) : F := F.iteLt 0 mask e x

theorem where_le (a b x y : F) : where_ (maskLe a b) x y = F.iteLe a b x y := by
  unfold where_ maskLe F.iteLt F.iteLe
  by_cases h : a.val ≤ b.val <;> ext <;> simp [h, and_assoc]

theorem where_lt (a b x y : F) : where_ (maskLt a b) x y = F.iteLt a b x y := by
  unfold where_ maskLt F.iteLt
  by_cases h : a.val < b.val <;> ext <;> simp [h, and_assoc]

theorem where_one (x y : F) : where_ 1 x y = x := by
  unfold where_ F.iteLt
  ext <;> simp

theorem where_zero (x y : F) : where_ 0 x y = y := by
  unfold where_ F.iteLt
  ext <;> simp

open Classical in
theorem maskLe_of {a b : F} (ha : a.ok) (hb : b.ok) : maskLe a b = if a.val ≤ b.val then 1 else 0 := iteLe_of ha hb _ _

open Classical in
theorem maskLt_of {a b : F} (ha : a.ok) (hb : b.ok) : maskLt a b = if a.val < b.val then 1 else 0 := iteLt_of ha hb _ _

/-- values of the arrays a call returns, none if it raised -/
def Outcome.values (o : Outcome) : Option (List Arr) := o.result.map (·.map Prod.snd)

/-- the arrays a user gets from the accessors of an instance `o` of the class `C`: `spec_accels`,
`ln_stds` and `periods` -/
def Accessed (C : GmmClass) (o : GmmOut) (r : Option (List Arr)) : Prop :=
  ∃ a s p, (Gmm.specAccels C o).res = .ok a ∧ (Gmm.lnStds C o).res = .ok s ∧ (Gmm.periods C).res = .ok p ∧
    r = some [a, s, p.map F.ofRat]

/-- environments after the constructor and after the accessors -/
theorem vexec_block_append (m : VMeaning I) (i : I) (t : Tables) (args : String → Arr) (a b : List Cmd) (e : Env) :
    vexec m i t args (block (a ++ b)) e = vexec m i t args (block b) (vexec m i t args (block a) e) := by
  induction a generalizing e with
  | nil => rfl
  | cons c cs ih => exact ih _

/-- a class whose constructor program leaves the arrays of `o` -/
theorem accessed_of (C : GmmClass) (rows : List Row) (K : Kernel I Row) (name : String) (body : List Cmd)
    (hs : (gmm name body).sound = true) (hC : ∀ i ∈ C.indicesPsa, i < C.periods.length)
    (hlen : rows.length = C.periods.length) (i : I) (args : String → Arr) (t : Tables) (g s : Row → F)
    (h1 : vexec (rowwise C rows K) i t args (block body) noVars "_ln_resp" = rows.map g)
    (h2 : vexec (rowwise C rows K) i t args (block body) noVars "_ln_std" = rows.map s) :
    Accessed C ⟨rows.map g, some (rows.map s)⟩
      (call (rowwise C rows K).toMeaning (gmm name body) i args t).values := by
  have hc := (call_eq (rowwise C rows K) (gmm name body) hs i args t).2.2
  refine ⟨C.indicesPsa.map fun j => F.exp ((rows.map g).getD j F.nan),
    C.indicesPsa.map fun j => (rows.map s).getD j F.nan, C.indicesPsa.map fun j => C.periods.getD j 0, ?_, ?_, ?_, ?_⟩
  · simp only [Gmm.specAccels]
    rw [pyTake_eq _ _ (by simpa [hlen] using hC) F.nan]
    simp only [Py.pure_bind', List.map_map]
    rfl
  · simp only [Gmm.lnStds]
    rw [pyTake_eq _ _ (by simpa [hlen] using hC) F.nan]
    rfl
  · simp only [Gmm.periods]; rw [pyTake_eq _ _ hC 0]; rfl
  · simp only [Outcome.values]
    rw [hc]
    simp only [gmm, vexec_block_append, gmmAccessors, block, vexec, List.map_cons, List.map_nil]
    simp only [String.reduceAppend, update_same, update_other, ne_eq, String.reduceEq, not_false_eq_true, h1, h2]
    simp [rowwise]

/-- symbolic execution -/
macro "rowrun" "[" ls:Lean.Parser.Tactic.simpLemma,* "]" : tactic => `(tactic| (
  simp only [block, vexec, List.cons_append, List.nil_append, List.map_cons, List.map_nil, rowwise, String.reduceEq, ↓reduceIte, Source.value, ite_self,
    String.reduceAppend, update_same, update_other, ne_eq, not_false_eq_true, ite_apply, pw0, pw1, pw2, pw3, pw4, pw5, pw8, map_ite,
    List.getD_cons_zero, List.getD_cons_succ, $ls,*]))

end Arrays
