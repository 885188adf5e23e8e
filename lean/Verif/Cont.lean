import Verif.Compute
import Verif.Fill
import Verif.Interp
import Mathlib.Analysis.SpecialFunctions.Pow.Continuity
import Mathlib.Analysis.SpecialFunctions.Log.Basic
import Mathlib.Topology.Order.Lattice

/-!
# Continuity of computed numbers

`F.CA f x₀`: if the number computed at `x₀` is defined, its value depends continuously on the
point at `x₀`.  Every arithmetic operation of the model preserves this; a branch preserves it if
its two sides agree at the points where the condition switches.
-/

open Filter Topology

variable {X : Type*} [TopologicalSpace X]

/-- where the computation is defined, its value is continuous -/
def F.CA (f : X → F) (x₀ : X) : Prop := (f x₀).ok → ContinuousAt (fun x => (f x).val) x₀

namespace F.CA

variable {f g h k : X → F} {x₀ : X}

theorem const (a : F) : F.CA (fun _ : X => a) x₀ := fun _ => continuousAt_const

theorem ofReal {r : X → ℝ} (hr : ContinuousAt r x₀) : F.CA (fun x => F.ofReal (r x)) x₀ := fun _ => hr

theorem add (hf : F.CA f x₀) (hg : F.CA g x₀) : F.CA (fun x => f x + g x) x₀ := fun h =>
  (hf h.1).add (hg h.2)

theorem sub (hf : F.CA f x₀) (hg : F.CA g x₀) : F.CA (fun x => f x - g x) x₀ := fun h =>
  (hf h.1).sub (hg h.2)

theorem mul (hf : F.CA f x₀) (hg : F.CA g x₀) : F.CA (fun x => f x * g x) x₀ := fun h =>
  (hf h.1).mul (hg h.2)

theorem div (hf : F.CA f x₀) (hg : F.CA g x₀) : F.CA (fun x => f x / g x) x₀ := fun h =>
  (hf h.1).div₀ (hg h.2.1) h.2.2

theorem neg (hf : F.CA f x₀) : F.CA (fun x => -f x) x₀ := fun h => (hf h).neg

theorem pow (hf : F.CA f x₀) (n : ℕ) : F.CA (fun x => f x ^ n) x₀ := fun h => (hf h).pow n

theorem rpow (hf : F.CA f x₀) (hg : F.CA g x₀) : F.CA (fun x => f x ^ g x) x₀ := fun h => by
  refine ContinuousAt.rpow (hf h.1) (hg h.2.1) ?_
  rcases h.2.2 with h | h
  · exact Or.inl h.ne'
  · exact Or.inr h.2

theorem log (hf : F.CA f x₀) : F.CA (fun x => F.log (f x)) x₀ := fun h => (hf h.1).log h.2.ne'

theorem log10 (hf : F.CA f x₀) : F.CA (fun x => F.log10 (f x)) x₀ := fun h =>
  ((hf h.1).log h.2.ne').div_const _

theorem exp (hf : F.CA f x₀) : F.CA (fun x => F.exp (f x)) x₀ := fun h => (hf h).rexp

theorem sqrt (hf : F.CA f x₀) : F.CA (fun x => F.sqrt (f x)) x₀ := fun h => (hf h.1).sqrt

theorem cosh (hf : F.CA f x₀) : F.CA (fun x => F.cosh (f x)) x₀ := fun h =>
  Real.continuous_cosh.continuousAt.comp (hf h)

theorem tanh (hf : F.CA f x₀) : F.CA (fun x => F.tanh (f x)) x₀ := fun h => by
  have e : (fun x => (F.tanh (f x)).val) = fun x => Real.sinh (f x).val / Real.cosh (f x).val := by
    funext x; exact Real.tanh_eq_sinh_div_cosh _
  rw [e]
  exact (Real.continuous_sinh.continuousAt.comp (hf h)).div₀
    (Real.continuous_cosh.continuousAt.comp (hf h)) (Real.cosh_pos _).ne'

theorem cos (hf : F.CA f x₀) : F.CA (fun x => F.cos (f x)) x₀ := fun h =>
  Real.continuous_cos.continuousAt.comp (hf h)

theorem sin (hf : F.CA f x₀) : F.CA (fun x => F.sin (f x)) x₀ := fun h =>
  Real.continuous_sin.continuousAt.comp (hf h)

theorem tan (hf : F.CA f x₀) : F.CA (fun x => F.tan (f x)) x₀ := fun h => by
  have e : (fun x => (F.tan (f x)).val) = fun x => Real.sin (f x).val / Real.cos (f x).val := by
    funext x; exact Real.tan_eq_sin_div_cos _
  rw [e]
  exact (Real.continuous_sin.continuousAt.comp (hf h.1)).div₀
    (Real.continuous_cos.continuousAt.comp (hf h.1)) h.2

theorem radians (hf : F.CA f x₀) : F.CA (fun x => F.radians (f x)) x₀ := fun h => (hf h).mul_const _

theorem abs (hf : F.CA f x₀) : F.CA (fun x => F.abs (f x)) x₀ := fun h => (hf h).abs

theorem min (hf : F.CA f x₀) (hg : F.CA g x₀) : F.CA (fun x => F.min (f x) (g x)) x₀ := fun h =>
  (hf h.1).min (hg h.2)

theorem max (hf : F.CA f x₀) (hg : F.CA g x₀) : F.CA (fun x => F.max (f x) (g x)) x₀ := fun h =>
  (hf h.1).max (hg h.2)

theorem clip (hf : F.CA f x₀) (hg : F.CA g x₀) (hh : F.CA h x₀) :
    F.CA (fun x => F.clip (f x) (g x) (h x)) x₀ := (hf.max hg).min hh

theorem norm (hf : F.CA f x₀) (hok : ∀ x, (f x).ok) : F.CA (fun x => F.norm (f x)) x₀ := fun h => by
  have e : (fun x => (F.norm (f x)).val) = fun x => (f x).val := by
    funext x; rw [F.norm_of_ok (hok x)]
  rw [e]
  exact hf (hok x₀)

/-- a branch `if a <= b` whose sides agree where `a = b` -/
theorem iteLe {a b : X → F} (ha : F.CA a x₀) (hb : F.CA b x₀) (hf : F.CA f x₀) (hg : F.CA g x₀)
    (heq : (a x₀).ok → (b x₀).ok → (f x₀).ok → (a x₀).val = (b x₀).val →
      (g x₀).ok ∧ (g x₀).val = (f x₀).val) :
    F.CA (fun x => F.iteLe (a x) (b x) (f x) (g x)) x₀ := by
  rintro ⟨oa, ob, hs⟩
  change ContinuousAt (fun x => if (a x).val ≤ (b x).val then (f x).val else (g x).val) x₀
  rcases lt_trichotomy (a x₀).val (b x₀).val with hl | he | hl
  · rw [if_pos hl.le] at hs
    refine (hf hs).congr ?_
    filter_upwards [(ha oa).eventually_lt (hb ob) hl] with x hx
    rw [if_pos hx.le]
  · rw [if_pos he.le] at hs
    obtain ⟨h1, h2⟩ := heq oa ob hs he
    have c1 := hf hs
    have c2 := hg h1
    unfold ContinuousAt at c1 c2 ⊢
    dsimp only at c1 c2 ⊢
    rw [if_pos he.le]
    rw [h2] at c2
    exact Tendsto.if' c1 c2
  · rw [if_neg (not_le.2 hl)] at hs
    refine (hg hs).congr ?_
    filter_upwards [(hb ob).eventually_lt (ha oa) hl] with x hx
    rw [if_neg (not_le.2 hx)]

/-- a branch `if a < b` whose sides agree where `a = b` -/
theorem iteLt {a b : X → F} (ha : F.CA a x₀) (hb : F.CA b x₀) (hf : F.CA f x₀) (hg : F.CA g x₀)
    (heq : (a x₀).ok → (b x₀).ok → (g x₀).ok → (a x₀).val = (b x₀).val →
      (f x₀).ok ∧ (f x₀).val = (g x₀).val) :
    F.CA (fun x => F.iteLt (a x) (b x) (f x) (g x)) x₀ := by
  rintro ⟨oa, ob, hs⟩
  change ContinuousAt (fun x => if (a x).val < (b x).val then (f x).val else (g x).val) x₀
  rcases lt_trichotomy (a x₀).val (b x₀).val with hl | he | hl
  · rw [if_pos hl] at hs
    refine (hf hs).congr ?_
    filter_upwards [(ha oa).eventually_lt (hb ob) hl] with x hx
    rw [if_pos hx]
  · rw [if_neg he.not_lt] at hs
    obtain ⟨h1, h2⟩ := heq oa ob hs he
    have c1 := hf h1
    have c2 := hg hs
    unfold ContinuousAt at c1 c2 ⊢
    dsimp only at c1 c2 ⊢
    rw [if_neg he.not_lt]
    rw [h2] at c1
    exact Tendsto.if' c1 c2
  · rw [if_neg (not_lt.2 hl.le)] at hs
    refine (hg hs).congr ?_
    filter_upwards [(hb ob).eventually_lt (ha oa) hl] with x hx
    rw [if_neg (not_lt.2 hx.le)]

theorem ite {p : Prop} [Decidable p] (hf : F.CA f x₀) (hg : F.CA g x₀) :
    F.CA (fun x => if p then f x else g x) x₀ := by
  by_cases h : p
  · simpa only [h, if_true] using hf
  · simpa only [h, if_false] using hg

theorem congr {f' : X → F} (hf : F.CA f x₀) (h : ∀ x, f' x = f x) : F.CA f' x₀ := by
  rw [show f' = f from funext h]; exact hf

theorem sum {ι : Type*} (l : List ι) {t : ι → X → F} (ht : ∀ i ∈ l, F.CA (t i) x₀) :
    F.CA (fun x => F.sum (l.map fun i => t i x)) x₀ := by
  induction l with
  | nil => exact const _
  | cons i l ih =>
    exact add (ht i (List.mem_cons_self ..)) (ih fun j hj => ht j (List.mem_cons_of_mem _ hj))

end F.CA

/-- takes the arithmetic of a formula apart; branches are left as goals -/
macro "fcont" : tactic => `(tactic| repeat' first
  | assumption
  | with_reducible exact F.CA.const _
  | with_reducible apply F.CA.add | with_reducible apply F.CA.sub | with_reducible apply F.CA.mul
  | with_reducible apply F.CA.div | with_reducible apply F.CA.neg | with_reducible apply F.CA.pow
  | with_reducible apply F.CA.rpow | with_reducible apply F.CA.log | with_reducible apply F.CA.log10
  | with_reducible apply F.CA.exp | with_reducible apply F.CA.sqrt | with_reducible apply F.CA.cosh
  | with_reducible apply F.CA.tanh | with_reducible apply F.CA.cos | with_reducible apply F.CA.sin
  | with_reducible apply F.CA.tan | with_reducible apply F.CA.radians | with_reducible apply F.CA.abs
  | with_reducible apply F.CA.min | with_reducible apply F.CA.max | with_reducible apply F.CA.clip
  | with_reducible apply F.CA.iteLe | with_reducible apply F.CA.iteLt
  | with_reducible apply F.CA.ite)

/-! ### Families of scenarios -/

/-- `S` is a family of scenarios in which the parameters `ks` are numbers that vary continuously
at `x₀`, and all the others are the same everywhere -/
structure Varies (ks : List String) (S : X → Scenario) (x₀ : X) : Prop where
  fixed : ∀ k, k ∉ ks → ∀ x, (S x).get k = (S x₀).get k
  moving : ∀ k ∈ ks, ∃ g : X → ℝ, (∀ x, (S x).get k = .num (g x)) ∧ ContinuousAt g x₀

/-- two parameters that move freely -/
theorem Varies.pair (k l : String) (rest : List (String × Val)) (hkl : k ≠ l) (x₀ : ℝ × ℝ) :
    Varies [k, l] (fun x : ℝ × ℝ => (⟨(k, .num x.1) :: (l, .num x.2) :: rest, []⟩ : Scenario)) x₀ where
  fixed := fun n hn x => by
    simp only [List.mem_cons, List.not_mem_nil, or_false, not_or] at hn
    simp [Scenario.get, Dict.get?, Ne.symm hn.1, Ne.symm hn.2]
  moving := by
    simp only [List.forall_mem_cons]
    exact ⟨⟨fun x => x.1, fun x => by simp [Scenario.get, Dict.get?], continuous_fst.continuousAt⟩,
      ⟨fun x => x.2, fun x => by simp [Scenario.get, Dict.get?, hkl], continuous_snd.continuousAt⟩,
      fun _ h => by simp at h⟩

/-- a given number -/
theorem Varies.num {ks : List String} {S : X → Scenario} {x₀ : X} (h : Varies ks S x₀) {k : String} {r : ℝ}
    (h0 : (S x₀).get k = .num r) :
    ∃ g : X → ℝ, (∀ x, (S x).get k = .num (g x)) ∧ g x₀ = r ∧ ContinuousAt g x₀ := by
  by_cases hk : k ∈ ks
  · obtain ⟨g, h1, h2⟩ := h.moving k hk
    exact ⟨g, h1, Val.num.inj ((h1 x₀).symm.trans h0), h2⟩
  · exact ⟨fun _ => r, fun x => (h.fixed k hk x).trans h0, rfl, continuousAt_const⟩

/-- an optional number: given everywhere, or nowhere -/
inductive OptCont (o : X → Option ℝ) (x₀ : X) : Prop
  | none (h : ∀ x, o x = .none)
  | some (g : X → ℝ) (h : ∀ x, o x = .some (g x)) (hg : ContinuousAt g x₀)

theorem Varies.opt {ks : List String} {S : X → Scenario} {x₀ : X} (h : Varies ks S x₀) {k : String}
    {r : Option ℝ} (h0 : (S x₀).get k = Val.ofOpt r) :
    ∃ o : X → Option ℝ, (∀ x, (S x).get k = Val.ofOpt (o x)) ∧ o x₀ = r ∧ OptCont o x₀ := by
  by_cases hk : k ∈ ks
  · obtain ⟨g, h1, h2⟩ := h.moving k hk
    refine ⟨fun x => .some (g x), h1, ?_, .some g (fun _ => rfl) h2⟩
    have := (h1 x₀).symm.trans h0
    cases r with
    | none => cases this
    | some r => exact congrArg _ (Val.num.inj this)
  · cases r with
    | none => exact ⟨fun _ => .none, fun x => (h.fixed k hk x).trans h0, rfl, .none fun _ => rfl⟩
    | some r =>
      exact ⟨fun _ => .some r, fun x => (h.fixed k hk x).trans h0, rfl,
        .some _ (fun _ => rfl) continuousAt_const⟩

/-- an estimate that is defined nearby fills a missing number -/
theorem F.CA.orEst {o : X → Option ℝ} {e : X → F} {x₀ : X} (ho : OptCont o x₀) (he : F.CA e x₀)
    (hok : (e x₀).ok → ∀ᶠ x in 𝓝 x₀, (e x).ok) : F.CA (fun x => F.orEst (o x) (e x)) x₀ := by
  rcases ho with h | ⟨g, h, hg⟩
  · intro hh
    simp only [h] at hh ⊢
    have h0 : (e x₀).ok := (F.norm_ok _).1 hh
    refine (he h0).congr ?_
    filter_upwards [hok h0] with x hx
    change _ = (F.norm (e x)).val
    rw [F.norm_of_ok hx]
  · refine (F.CA.ofReal hg).congr fun x => ?_
    rw [h x]; rfl

/-- ... and what it fills is defined nearby -/
theorem OptCont.orEst_ok {o : X → Option ℝ} {e : X → F} {x₀ : X} (ho : OptCont o x₀)
    (hok : (e x₀).ok → ∀ᶠ x in 𝓝 x₀, (e x).ok) :
    (F.orEst (o x₀) (e x₀)).ok → ∀ᶠ x in 𝓝 x₀, (F.orEst (o x) (e x)).ok := by
  rcases ho with h | ⟨g, h, hg⟩
  · simp only [h]
    intro hh
    filter_upwards [hok ((F.norm_ok _).1 hh)] with x hx using (F.norm_ok _).2 hx
  · simp only [h]
    exact fun _ => Eventually.of_forall fun _ => trivial

theorem OptCont.getD {o : X → Option ℝ} {x₀ : X} (ho : OptCont o x₀) (d : ℝ) :
    ContinuousAt (fun x => (o x).getD d) x₀ := by
  rcases ho with h | ⟨g, h, hg⟩
  · simp only [h, Option.getD_none]; exact continuousAt_const
  · simpa only [h, Option.getD_some] using hg

/-- `np.interp` with increasing abscissae -/
theorem F.CA.npInterpF {l : List (ℝ × F)} (hs : Interp.Sorted (l.map fun p => (p.1, p.2.val))) {f : X → F} {x₀ : X}
    (hf : F.CA f x₀) : F.CA (fun x => _root_.npInterpF l (f x)) x₀ := fun h => by
  have e : (fun x => (_root_.npInterpF l (f x)).val) =
      fun x => interpR (l.map fun p => (p.1, p.2.val)) (f x).val := by
    funext x; exact Interp.val_eq _ _
  rw [e]
  exact (Interp.continuous _ hs).continuousAt.comp (hf h.1)

/-- a branch `if a == b` away from equality -/
theorem F.CA.iteEq {a b f g : X → F} {x₀ : X} (ha : F.CA a x₀) (hb : F.CA b x₀) (hg : F.CA g x₀)
    (hne : (a x₀).val ≠ (b x₀).val) :
    F.CA (fun x => F.iteEq (a x) (b x) (f x) (g x)) x₀ := by
  rintro ⟨oa, ob, hs⟩
  rw [if_neg hne] at hs
  refine (hg hs).congr ?_
  have hd : ContinuousAt (fun x => (a x).val - (b x).val) x₀ := (ha oa).sub (hb ob)
  filter_upwards [hd.eventually_ne (sub_ne_zero.2 hne)] with x hx'
  have hx := sub_ne_zero.1 hx'
  change _ = if (a x).val = (b x).val then (f x).val else (g x).val
  rw [if_neg hx]


/-- an entry of a list computed from two lists -/
theorem CA_zipWith {α β : Type*} (l : List α) (l' : List β) (f : α → β → X → F) {x₀ : X}
    (h : ∀ c ∈ l, ∀ b ∈ l', F.CA (f c b) x₀) (i : ℕ) :
    F.CA (fun x => (List.zipWith (fun c b => f c b x) l l').getD i F.nan) x₀ := by
  simp only [List.getD_eq_getElem?_getD, List.getElem?_zipWith]
  cases hi : l[i]? with
  | none => exact F.CA.const _
  | some c =>
    cases hj : l'[i]? with
    | none => exact F.CA.const _
    | some b => exact h c (List.mem_of_getElem? hi) b (List.mem_of_getElem? hj)

/-- an entry of a list of computed numbers -/
theorem CA_getD {α : Type*} (l : List α) (f : α → X → F) {x₀ : X} (h : ∀ c ∈ l, F.CA (f c) x₀) (i : ℕ) :
    F.CA (fun x => (l.map fun c => f c x).getD i F.nan) x₀ := by
  simp only [List.getD_eq_getElem?_getD, List.getElem?_map]
  cases hi : l[i]? with
  | none => exact F.CA.const _
  | some c => exact h c (List.mem_of_getElem? hi)

/-- the specification: among the points where it is defined, the computed number is continuous
at `x₀` (which is one of them) -/
def ContinuousNumber (f : X → F) (x₀ : X) : Prop :=
  (f x₀).ok → ContinuousWithinAt (fun x => (f x).val) {x | (f x).ok} x₀

theorem F.CA.spec {f : X → F} {x₀ : X} (h : F.CA f x₀) : ContinuousNumber f x₀ :=
  fun ho => (h ho).continuousWithinAt

/-- every entry of the list is a continuous number at `x₀` -/
def ContinuousEntries (L : X → List F) (x₀ : X) : Prop :=
  ∀ i, ContinuousNumber (fun x => (L x).getD i F.nan) x₀

theorem ContinuousEntries.map {α : Type*} (l : List α) (f : α → X → F) {x₀ : X}
    (h : ∀ c ∈ l, F.CA (f c) x₀) : ContinuousEntries (fun x => l.map fun c => f c x) x₀ :=
  fun i => (CA_getD l f h i).spec
