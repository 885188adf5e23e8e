import Verif.Attr
import Mathlib.Analysis.SpecialFunctions.Log.Base
import Mathlib.Analysis.SpecialFunctions.Pow.Real
import Mathlib.Analysis.SpecialFunctions.Trigonometric.Basic
import Mathlib.Analysis.SpecialFunctions.Trigonometric.DerivHyp
import Mathlib.Analysis.SpecialFunctions.Sqrt
import Mathlib.Data.Real.Basic
import Mathlib.Tactic.NormNum
import Mathlib.Tactic.Linarith
import Mathlib.Tactic.Positivity

/-!
# Numbers

pygmm computes with IEEE doubles through numpy.  The model computes in exact
real arithmetic, but it keeps track of *definedness*: a number `x : F` is a
real value `x.val` together with the proposition `x.ok` that no operation that
led to it left the finite reals (division by zero, logarithm of a non-positive
number, square root of a negative number, fractional power of a negative
number).  In the code each of these produces `nan`, `inf`, a complex number or
an exception.  When `x.ok` fails, `x.val` has no meaning and no theorem
speaks about it.  Rounding, overflow and underflow are not modelled.
-/

/-- A number as computed by the code, in exact real arithmetic: value and
definedness of the whole computation that produced it. -/
@[ext] structure F where
  val : ℝ
  ok : Prop

namespace F

noncomputable section

instance : Coe ℝ F := ⟨fun x => ⟨x, True⟩⟩
instance : Coe ℚ F := ⟨fun x => ⟨(x : ℝ), True⟩⟩

/-- an input number -/
def ofReal (x : ℝ) : F := ⟨x, True⟩
/-- a coefficient read from a data file -/
def ofRat (x : ℚ) : F := ⟨(x : ℝ), True⟩
/-- `np.nan` -/
def nan : F := ⟨0, False⟩

instance (n : ℕ) : OfNat F n := ⟨⟨(n : ℝ), True⟩⟩
instance : OfScientific F := ⟨fun m s e => ⟨OfScientific.ofScientific m s e, True⟩⟩
instance : Inhabited F := ⟨nan⟩

instance : Add F := ⟨fun a b => ⟨a.val + b.val, a.ok ∧ b.ok⟩⟩
instance : Sub F := ⟨fun a b => ⟨a.val - b.val, a.ok ∧ b.ok⟩⟩
instance : Mul F := ⟨fun a b => ⟨a.val * b.val, a.ok ∧ b.ok⟩⟩
instance : Neg F := ⟨fun a => ⟨-a.val, a.ok⟩⟩
/-- Python `/`: undefined when the divisor is zero. -/
instance : Div F := ⟨fun a b => ⟨a.val / b.val, a.ok ∧ b.ok ∧ b.val ≠ 0⟩⟩
/-- `x ** n` for a literal natural number `n`. -/
instance : HPow F ℕ F := ⟨fun a n => ⟨a.val ^ n, a.ok⟩⟩
/-- `x ** y` for a non-integral exponent: undefined for a negative base, and
for a zero base with a non-positive exponent. -/
instance : HPow F F F :=
  ⟨fun a b => ⟨a.val ^ b.val, a.ok ∧ b.ok ∧ (0 < a.val ∨ (a.val = 0 ∧ 0 < b.val))⟩⟩

/-- `np.log` -/
def log (a : F) : F := ⟨Real.log a.val, a.ok ∧ 0 < a.val⟩
/-- `np.log10` -/
def log10 (a : F) : F := ⟨Real.logb 10 a.val, a.ok ∧ 0 < a.val⟩
/-- `np.exp` -/
def exp (a : F) : F := ⟨Real.exp a.val, a.ok⟩
/-- `np.sqrt` -/
def sqrt (a : F) : F := ⟨Real.sqrt a.val, a.ok ∧ 0 ≤ a.val⟩
/-- `np.cosh` -/
def cosh (a : F) : F := ⟨Real.cosh a.val, a.ok⟩
/-- `np.tanh` -/
def tanh (a : F) : F := ⟨Real.tanh a.val, a.ok⟩
/-- `np.cos` -/
def cos (a : F) : F := ⟨Real.cos a.val, a.ok⟩
/-- `np.sin` -/
def sin (a : F) : F := ⟨Real.sin a.val, a.ok⟩
/-- `np.tan`: in exact arithmetic undefined where the cosine vanishes. -/
def tan (a : F) : F := ⟨Real.tan a.val, a.ok ∧ Real.cos a.val ≠ 0⟩
/-- `np.pi` -/
def pi : F := ⟨Real.pi, True⟩
/-- `np.radians` -/
def radians (a : F) : F := ⟨a.val * (Real.pi / 180), a.ok⟩
/-- `np.abs` -/
def abs (a : F) : F := ⟨|a.val|, a.ok⟩
/-- `np.minimum`, `min` -/
def min (a b : F) : F := ⟨Min.min a.val b.val, a.ok ∧ b.ok⟩
/-- `np.maximum`, `max` -/
def max (a b : F) : F := ⟨Max.max a.val b.val, a.ok ∧ b.ok⟩
/-- `np.clip(x, lo, hi)`, which numpy defines as `minimum(maximum(x, lo), hi)`;
with `lo > hi` the result is therefore always `hi`. -/
def clip (x lo hi : F) : F := min (max x lo) hi

open Classical in
/-- `if a <= b: x else: y` (or the row-wise `np.select`); only the selected
branch has to be defined. -/
def iteLe (a b x y : F) : F :=
  ⟨if a.val ≤ b.val then x.val else y.val,
   a.ok ∧ b.ok ∧ if a.val ≤ b.val then x.ok else y.ok⟩

open Classical in
/-- `if a < b: x else: y` -/
def iteLt (a b x y : F) : F :=
  ⟨if a.val < b.val then x.val else y.val,
   a.ok ∧ b.ok ∧ if a.val < b.val then x.ok else y.ok⟩

open Classical in
/-- `if a == b: x else: y` -/
def iteEq (a b x y : F) : F :=
  ⟨if a.val = b.val then x.val else y.val,
   a.ok ∧ b.ok ∧ if a.val = b.val then x.ok else y.ok⟩

/-- sum of a list of numbers, as `np.sum` or a matrix product forms it -/
def sum : List F → F
  | [] => 0
  | a :: l => a + sum l

end

/-! ### How `val` and `ok` unfold -/

section lemmas

-- The equations are stated with `Eq.trans rfl rfl` so that the simplifier treats them as
-- propositional: then it rebuilds the decision procedure of an `if` when it rewrites its
-- condition.
variable (a b x y : F)

@[simp, fsimp] theorem val_ofReal (r : ℝ) : (ofReal r).val = r := Eq.trans rfl rfl
@[simp, fsimp] theorem ok_ofReal (r : ℝ) : (ofReal r).ok ↔ True := Iff.rfl
@[simp, fsimp] theorem val_ofRat (r : ℚ) : (ofRat r).val = r := Eq.trans rfl rfl
@[simp, fsimp] theorem ok_ofRat (r : ℚ) : (ofRat r).ok ↔ True := Iff.rfl
@[simp, fsimp] theorem val_mk (r : ℝ) (p : Prop) : (F.mk r p).val = r := Eq.trans rfl rfl
@[simp, fsimp] theorem ok_mk (r : ℝ) (p : Prop) : (F.mk r p).ok ↔ p := Iff.rfl
@[simp, fsimp] theorem ok_nan : nan.ok ↔ False := Iff.rfl
@[simp, fsimp] theorem val_zero : (0 : F).val = 0 := by
  change ((0 : ℕ) : ℝ) = 0; simp
@[simp, fsimp] theorem ok_zero : (0 : F).ok ↔ True := Iff.rfl
@[simp, fsimp] theorem val_one : (1 : F).val = 1 := by
  change ((1 : ℕ) : ℝ) = 1; simp
@[simp, fsimp] theorem ok_one : (1 : F).ok ↔ True := Iff.rfl
@[simp, fsimp] theorem val_ofNat (n : ℕ) [n.AtLeastTwo] :
    (ofNat(n) : F).val = (ofNat(n) : ℝ) := Eq.trans rfl rfl
@[simp, fsimp] theorem ok_ofNat (n : ℕ) : (ofNat(n) : F).ok ↔ True := Iff.rfl
@[simp, fsimp] theorem val_ofScientific (m : ℕ) (s : Bool) (e : ℕ) :
    (OfScientific.ofScientific m s e : F).val = (OfScientific.ofScientific m s e : ℝ) := Eq.trans rfl rfl
@[simp, fsimp] theorem ok_ofScientific (m : ℕ) (s : Bool) (e : ℕ) :
    (OfScientific.ofScientific m s e : F).ok ↔ True := Iff.rfl
@[simp, fsimp] theorem val_add : (a + b).val = a.val + b.val := Eq.trans rfl rfl
@[simp, fsimp] theorem ok_add : (a + b).ok ↔ a.ok ∧ b.ok := Iff.rfl
@[simp, fsimp] theorem val_sub : (a - b).val = a.val - b.val := Eq.trans rfl rfl
@[simp, fsimp] theorem ok_sub : (a - b).ok ↔ a.ok ∧ b.ok := Iff.rfl
@[simp, fsimp] theorem val_mul : (a * b).val = a.val * b.val := Eq.trans rfl rfl
@[simp, fsimp] theorem ok_mul : (a * b).ok ↔ a.ok ∧ b.ok := Iff.rfl
@[simp, fsimp] theorem val_neg : (-a).val = -a.val := Eq.trans rfl rfl
@[simp, fsimp] theorem ok_neg : (-a).ok ↔ a.ok := Iff.rfl
@[simp, fsimp] theorem val_div : (a / b).val = a.val / b.val := Eq.trans rfl rfl
@[simp, fsimp] theorem ok_div : (a / b).ok ↔ a.ok ∧ b.ok ∧ b.val ≠ 0 := Iff.rfl
@[simp, fsimp] theorem val_npow (n : ℕ) : (a ^ n).val = a.val ^ n := Eq.trans rfl rfl
@[simp, fsimp] theorem ok_npow (n : ℕ) : (a ^ n).ok ↔ a.ok := Iff.rfl
@[simp, fsimp] theorem val_rpow : (a ^ b).val = a.val ^ b.val := Eq.trans rfl rfl
@[simp, fsimp] theorem ok_rpow :
    (a ^ b).ok ↔ a.ok ∧ b.ok ∧ (0 < a.val ∨ (a.val = 0 ∧ 0 < b.val)) := Iff.rfl
@[simp, fsimp] theorem val_log : (log a).val = Real.log a.val := Eq.trans rfl rfl
@[simp, fsimp] theorem ok_log : (log a).ok ↔ a.ok ∧ 0 < a.val := Iff.rfl
@[simp, fsimp] theorem val_log10 : (log10 a).val = Real.logb 10 a.val := Eq.trans rfl rfl
@[simp, fsimp] theorem ok_log10 : (log10 a).ok ↔ a.ok ∧ 0 < a.val := Iff.rfl
@[simp, fsimp] theorem val_exp : (exp a).val = Real.exp a.val := Eq.trans rfl rfl
@[simp, fsimp] theorem ok_exp : (exp a).ok ↔ a.ok := Iff.rfl
@[simp, fsimp] theorem val_sqrt : (sqrt a).val = Real.sqrt a.val := Eq.trans rfl rfl
@[simp, fsimp] theorem ok_sqrt : (sqrt a).ok ↔ a.ok ∧ 0 ≤ a.val := Iff.rfl
@[simp, fsimp] theorem val_cosh : (cosh a).val = Real.cosh a.val := Eq.trans rfl rfl
@[simp, fsimp] theorem ok_cosh : (cosh a).ok ↔ a.ok := Iff.rfl
@[simp, fsimp] theorem val_tanh : (tanh a).val = Real.tanh a.val := Eq.trans rfl rfl
@[simp, fsimp] theorem ok_tanh : (tanh a).ok ↔ a.ok := Iff.rfl
@[simp, fsimp] theorem val_cos : (cos a).val = Real.cos a.val := Eq.trans rfl rfl
@[simp, fsimp] theorem ok_cos : (cos a).ok ↔ a.ok := Iff.rfl
@[simp, fsimp] theorem val_sin : (sin a).val = Real.sin a.val := Eq.trans rfl rfl
@[simp, fsimp] theorem ok_sin : (sin a).ok ↔ a.ok := Iff.rfl
@[simp, fsimp] theorem val_tan : (tan a).val = Real.tan a.val := Eq.trans rfl rfl
@[simp, fsimp] theorem ok_tan : (tan a).ok ↔ a.ok ∧ Real.cos a.val ≠ 0 := Iff.rfl
@[simp, fsimp] theorem val_pi : pi.val = Real.pi := Eq.trans rfl rfl
@[simp, fsimp] theorem ok_pi : pi.ok ↔ True := Iff.rfl
@[simp, fsimp] theorem val_radians : (radians a).val = a.val * (Real.pi / 180) := Eq.trans rfl rfl
@[simp, fsimp] theorem ok_radians : (radians a).ok ↔ a.ok := Iff.rfl
@[simp, fsimp] theorem val_abs : (abs a).val = |a.val| := Eq.trans rfl rfl
@[simp, fsimp] theorem ok_abs : (abs a).ok ↔ a.ok := Iff.rfl
@[simp, fsimp] theorem val_min : (min a b).val = Min.min a.val b.val := Eq.trans rfl rfl
@[simp, fsimp] theorem ok_min : (min a b).ok ↔ a.ok ∧ b.ok := Iff.rfl
@[simp, fsimp] theorem val_max : (max a b).val = Max.max a.val b.val := Eq.trans rfl rfl
@[simp, fsimp] theorem ok_max : (max a b).ok ↔ a.ok ∧ b.ok := Iff.rfl
@[simp, fsimp] theorem val_clip : (clip x a b).val = Min.min (Max.max x.val a.val) b.val := Eq.trans rfl rfl
@[simp, fsimp] theorem ok_clip : (clip x a b).ok ↔ (x.ok ∧ a.ok) ∧ b.ok := Iff.rfl
@[simp, fsimp] theorem val_iteLe :
    (iteLe a b x y).val = if a.val ≤ b.val then x.val else y.val := by
  unfold iteLe; simp only
@[simp, fsimp] theorem ok_iteLe :
    (iteLe a b x y).ok ↔ a.ok ∧ b.ok ∧ if a.val ≤ b.val then x.ok else y.ok := by
  unfold iteLe; simp only
@[simp, fsimp] theorem val_iteLt :
    (iteLt a b x y).val = if a.val < b.val then x.val else y.val := by
  unfold iteLt; simp only
@[simp, fsimp] theorem ok_iteLt :
    (iteLt a b x y).ok ↔ a.ok ∧ b.ok ∧ if a.val < b.val then x.ok else y.ok := by
  unfold iteLt; simp only

@[simp, fsimp] theorem val_iteEq :
    (iteEq a b x y).val = if a.val = b.val then x.val else y.val := by
  unfold iteEq; simp only
@[simp, fsimp] theorem ok_iteEq :
    (iteEq a b x y).ok ↔ a.ok ∧ b.ok ∧ if a.val = b.val then x.ok else y.ok := by
  unfold iteEq; simp only

@[simp, fsimp] theorem val_ite (p : Prop) [Decidable p] :
    (if p then x else y).val = if p then x.val else y.val := by split <;> rfl
@[simp, fsimp] theorem ok_ite (p : Prop) [Decidable p] :
    (if p then x else y).ok ↔ if p then x.ok else y.ok := by split <;> rfl

@[simp, fsimp] theorem val_sum (l : List F) : (sum l).val = (l.map F.val).sum := by
  induction l with
  | nil => simp [sum]
  | cons a l ih => simp [sum, ih]
@[simp, fsimp] theorem ok_sum (l : List F) : (sum l).ok ↔ ∀ a ∈ l, a.ok := by
  induction l with
  | nil => simp [sum]
  | cons a l ih => simp [sum, ih]

attribute [fsimp] true_and and_true and_self if_true if_false

end lemmas

end F
