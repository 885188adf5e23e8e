import Verif.Decls
import Verif.Props.Framework

/-!
# C14: the shipped parameter declarations are well formed
-/

/-- Specification of a well-formed declaration, in terms of the limits, options and
default written in the source. -/
def Spec.WellFormed (p : Param) : Prop :=
  match p.kind with
  | .numeric mn mx =>
    (∀ a, mn = some a → ∀ b, mx = some b → a < b) ∧
    (p.default = .none ∨ ∃ q, p.default = .num q ∧
      (∀ a, mn = some a → a ≤ q) ∧ (∀ b, mx = some b → q ≤ b))
  | .categorical opts => opts ≠ [] ∧ opts.Nodup ∧ (p.default = .none ∨ p.default ∈ opts)

/-- a decision procedure for `Spec.WellFormed` -/
def Spec.wellFormedB (p : Param) : Bool :=
  match p.kind with
  | .numeric mn mx =>
    (match mn, mx with
      | some a, some b => decide (a < b)
      | _, _ => true) &&
    (match p.default with
      | .none => true
      | .num q => (match mn with | some a => decide (a ≤ q) | none => true) &&
          (match mx with | some b => decide (q ≤ b) | none => true)
      | _ => false)
  | .categorical opts => decide (opts ≠ []) && decide opts.Nodup &&
      (decide (p.default = .none) || decide (p.default ∈ opts))

theorem Spec.wellFormed_of {p : Param} (h : Spec.wellFormedB p = true) : Spec.WellFormed p := by
  unfold Spec.wellFormedB at h
  unfold Spec.WellFormed
  cases hk : p.kind with
  | numeric mn mx =>
    simp only [hk, Bool.and_eq_true] at h ⊢
    refine ⟨?_, ?_⟩
    · rintro a rfl b rfl; simpa using h.1
    · cases hd : p.default with
      | none => left; rfl
      | num q =>
        simp only [hd, Bool.and_eq_true] at h
        right
        refine ⟨q, rfl, ?_, ?_⟩
        · rintro a rfl; simpa using h.2.1
        · rintro b rfl; simpa using h.2.2
      | bool b => simp [hd] at h
      | str s => simp [hd] at h
  | categorical opts =>
    simp only [hk, Bool.and_eq_true, Bool.or_eq_true, decide_eq_true_eq] at h ⊢
    exact ⟨h.1.1, h.1.2, h.2⟩

/-- Every shipped class: names distinct and recognised, every declaration well formed. -/
theorem C14_declarations_well_formed (name : String) (ps : List Param)
    (h : (name, ps) ∈ Decls.all) :
    (ps.map Param.name).Nodup ∧ (∀ p ∈ ps, Spec.Recognised p.name) ∧
    (∀ p ∈ ps, Spec.WellFormed p) := by
  have key : ∀ c ∈ Decls.all, ParamsOk c.2 ∧ ∀ p ∈ c.2, Spec.wellFormedB p = true := by
    decide +kernel
  obtain ⟨⟨h1, h2⟩, h3⟩ := key _ h
  exact ⟨h1, fun p hp => (Spec.recognised_iff _).2 (h2 p hp), fun p hp => Spec.wellFormed_of (h3 p hp)⟩

theorem Spec.shipped_ok {name : String} {ps : List Param} (h : (name, ps) ∈ Decls.all) :
    ParamsOk ps := by
  obtain ⟨h1, h2, -⟩ := C14_declarations_well_formed name ps h
  exact ⟨h1, fun p hp => (Spec.recognised_iff _).1 (h2 p hp)⟩

/-- Consequence: the checks of a shipped class never raise the unknown-key `Warning`,
whatever mapping it is built from. -/
theorem C14_no_unknown_key {Out : Type} (name : String) (C : ModelClass Out)
    (h : (name, C.params) ∈ Decls.all)
    (hfill : ∀ s k, (C.fill s).res ≠ .error (.warning k))
    (hcomp : ∀ s k, (C.compute s).res ≠ .error (.warning k))
    (get : String → Val) (k : String) : (C.newFrom get).res ≠ .error (.warning k) := by
  rw [ModelClass.newFrom_eq C (Spec.shipped_ok h)]
  intro he
  rw [Py.bind_error_iff] at he
  rcases he with he | ⟨d, -, he⟩
  · obtain ⟨pre, p, post, -, -, hp⟩ := Model.checkVals_error he
    rw [C05_check_error_iff] at hp
    rcases hp with ⟨-, -, hp⟩ | ⟨-, hp⟩ <;> cases hp
  rw [Py.bind_error_iff] at he
  rcases he with he | ⟨s, -, he⟩
  · exact hfill _ _ he
  rw [Py.bind_error_iff] at he
  rcases he with he | ⟨o, -, he⟩
  · exact hcomp _ _ he
  · cases he

/-- Consequence: the defaults of shipped classes never produce a warning by themselves:
an optional parameter that is left out is checked silently, unless it is categorical
without a default (there is none). -/
theorem C14_defaults_silent (name : String) (ps : List Param) (h : (name, ps) ∈ Decls.all)
    (p : Param) (hp : p ∈ ps) (hopt : p.required = false) : (p.check .none).log = [] := by
  have hwf := (C14_declarations_well_formed name ps h).2.2 p hp
  unfold Spec.WellFormed at hwf
  cases hk : p.kind with
  | numeric mn mx =>
    simp only [hk] at hwf
    rcases hwf.2 with hd | ⟨q, hd, ha, hb⟩
    · rw [(C06_default p mn mx hk hopt).1 hd]
    · rw [(C06_default p mn mx hk hopt).2 q hd, C06_number_kept p mn mx hk]
      have h1 : ¬ Spec.Below mn (q : ℝ) := by
        rintro ⟨m, rfl, hx⟩
        have := ha m rfl
        exact absurd hx (not_lt.2 (by exact_mod_cast this))
      have h2 : ¬ Spec.Above mx (q : ℝ) := by
        rintro ⟨m, rfl, hx⟩
        have := hb m rfl
        exact absurd hx (not_lt.2 (by exact_mod_cast this))
      simp [h1, h2]
  | categorical opts =>
    simp only [hk] at hwf
    have key : ∀ c ∈ Decls.all, ∀ p ∈ c.2, p.required = false →
        (match p.kind with | .categorical _ => decide (p.default ≠ .none) | _ => true) = true := by
      decide +kernel
    have hne : p.default ≠ .none := by simpa [hk] using key _ h p hp hopt
    have hin : p.default ∈ opts := hwf.2.2.resolve_left hne
    refine (C07_missing p opts hk hopt).2 ⟨p.default, hin, ?_⟩
    cases p.default <;> simp_all [Lit.toVal, Val.pyEq]

example : ("AbrahamsonSilvaKamai2014", Decls.ask14) ∈ Decls.all := by simp [Decls.all]
