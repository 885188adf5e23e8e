import Verif.Models.ArrayMethods

/-! # C09, C78: coefficient tables and arrays -/

namespace Arrays

theorem shipped_private : ∀ m ∈ shipped, m.private = true := by decide +kernel

/-- the calls of a history -/
def calls {I : Type} : List (Step I) → List (Method × I × (String → Arr))
  | [] => []
  | .call m i args :: h => (m, i, args) :: calls h
  | .overwrite _ _ _ :: h => calls h

/-- a history in which only the listed operations are called -/
def Uses {I : Type} (ms : List Method) (h : List (Step I)) : Prop := ∀ c ∈ calls h, c.1 ∈ ms

variable {I : Type}

/-- no returned array is a table column -/
def Clean (w : World) : Prop := ∀ r ∈ w.results, ∀ l, r = some l → ∀ p ∈ l, ∃ n, p.1 = Ref.tmp n

theorem clean_where {w : World} (h : Clean w) (k j : ℕ) (c : String) : w.where k j ≠ some (.column c) := by
  unfold World.where
  intro hw
  simp only [Option.map_eq_some_iff, Option.bind_eq_some_iff] at hw
  obtain ⟨p, ⟨l, ⟨r, hr, hl⟩, hp⟩, hc⟩ := hw
  obtain ⟨n, hn⟩ := h r (List.mem_of_getElem? hr) l hl p (List.mem_of_getElem? hp)
  rw [hn] at hc; cases hc

theorem step_clean (me : Meaning I) {w : World} (hw : Clean w) {st : Step I}
    (hu : ∀ m i args, st = .call m i args → m ∈ shipped) :
    Clean (step me w st) ∧ (step me w st).tables = w.tables := by
  cases st with
  | call m i args =>
    have hm := shipped_private m (hu m i args rfl)
    constructor
    · intro r hr l hl p hp
      rcases List.mem_append.1 hr with hr | hr
      · exact hw r hr l hl p hp
      · rw [List.mem_singleton] at hr
        rw [hr] at hl
        exact call_private me hm i args w.tables hl p hp
    · exact (call_tidy me (private_tidy hm) i args w.tables).1
  | overwrite k j v =>
    simp only [step]
    split
    · rename_i c hc; exact absurd hc (clean_where hw k j c)
    · exact ⟨hw, rfl⟩

theorem run_clean (me : Meaning I) : ∀ (h : List (Step I)) {w : World}, Clean w → Uses shipped h →
    (run me w h).tables = w.tables ∧
      (run me w h).results = w.results ++ (calls h).map fun c => (call me c.1 c.2.1 c.2.2 w.tables).result
  | [], w, _, _ => by simp [run, calls]
  | st :: h, w, hw, hu => by
    have hs : ∀ m i args, st = .call m i args → m ∈ shipped := by
      rintro m i args rfl
      exact hu (m, i, args) (by simp [calls])
    have hu' : Uses shipped h := by
      intro c hc
      apply hu c
      cases st with
      | call m i args => simp only [calls, List.mem_cons]; right; exact hc
      | overwrite k j v => exact hc
    obtain ⟨h1, h2⟩ := step_clean me hw hs
    obtain ⟨h3, h4⟩ := run_clean me h h1 hu'
    refine ⟨h3.trans h2, ?_⟩
    show (run me (step me w st) h).results = _
    rw [h4, h2]
    cases st with
    | call m i args => simp [step, calls]
    | overwrite k j v =>
      have : (step me w (.overwrite k j v)).results = w.results := by
        simp only [step]; split <;> rfl
      rw [this]; rfl

theorem exec_seq_congr (me : Meaning I) (i : I) {a a' b : Cmd} {s : State} (h : exec me i a s = exec me i a' s) :
    exec me i (.seq a b) s = exec me i (.seq a' b) s := by
  show (if (exec me i a s).2 then exec me i b (exec me i a s).1 else exec me i a s) = _
  rw [h]; rfl

end Arrays

open Arrays in
/-- C09: however the formulas compute, no history of constructions, accessor reads, site-term calls
(returning normally or raising) and user overwrites of returned arrays changes a coefficient table. -/
theorem C09_tables {I : Type} (me : Meaning I) (t : Tables) (h : List (Step I)) (hu : Uses shipped h) :
    (run me ⟨t, []⟩ h).tables = t :=
  (run_clean me h (fun r hr => by simp at hr) hu).1

open Arrays in
/-- C09: the result of every call in every such history is the result of that call alone on the tables
as loaded. -/
theorem C09_results {I : Type} (me : Meaning I) (t : Tables) (h : List (Step I)) (hu : Uses shipped h) :
    (run me ⟨t, []⟩ h).results = (calls h).map fun c => (call me c.1 c.2.1 c.2.2 t).result := by
  have := (run_clean me h (w := ⟨t, []⟩) (fun r hr => by simp at hr) hu).2
  simpa using this

open Arrays in
/-- C09: none of these operations writes into an array of its caller. -/
theorem C09_arguments {I : Type} (me : Meaning I) (t : Tables) (m : Method) (hm : m ∈ shipped) (i : I)
    (args : String → Arr) : (call me m i args t).args = args :=
  (call_tidy me (private_tidy (shipped_private m hm)) i args t).2

open Arrays in
/-- C78: `BaylessAbrahamson2019.freqs` is the one accessor that hands out table memory: overwriting the
returned array changes the frequency column itself, for all later calls and all other instances. -/
theorem C78_freqs {I : Type} (me : Meaning I) (t : Tables) (i : I) (args : String → Arr) (v : Arr) :
    let w := run me ⟨t, []⟩ [.call ba19Freqs i args, .overwrite 0 0 v]
    w.tables "BaylessAbrahamson2019.freq_hz" = v ∧
      (∀ k, k ≠ "BaylessAbrahamson2019.freq_hz" → w.tables k = t k) ∧
      ∀ j args', (call me ba19Freqs j args' w.tables).result =
        some [(.column "BaylessAbrahamson2019.freq_hz", v)] := by
  have e : run me ⟨t, []⟩ [.call ba19Freqs i args, .overwrite 0 0 v] =
      ⟨Function.update t "BaylessAbrahamson2019.freq_hz" v,
        [some [(.column "BaylessAbrahamson2019.freq_hz", t "BaylessAbrahamson2019.freq_hz")]]⟩ := rfl
  simp only [e]
  refine ⟨Function.update_self .., fun k hk => Function.update_of_ne hk .., fun j args' => ?_⟩
  have : (call me ba19Freqs j args' (Function.update t "BaylessAbrahamson2019.freq_hz" v)).result =
      some [(.column "BaylessAbrahamson2019.freq_hz",
        Function.update t "BaylessAbrahamson2019.freq_hz" v "BaylessAbrahamson2019.freq_hz")] := rfl
  rw [this, Function.update_self]

open Arrays in
/-- C78: `AbrahamsonSilva1996.interp` writes into the caller's array when given one: afterwards it holds
what the masking statement made of it (twice, `interp` and `calc_ln_dur_incr`). -/
theorem C78_interp {I : Type} (me : Meaning I) (t : Tables) (i : I) (args : String → Arr) (v w : Arr)
    (ha : me.test "as96:68 is array" i args = true)
    (h1 : me.formula "as96:71" i t args [args "nias"] = some v)
    (h2 : me.formula "as96:58" i t (Function.update args "nias" v) [v] = some w) :
    (call me as96Interp i args t).args "nias" = w ∧ (call me as96Interp i args t).tables = t := by
  have e : (call me as96Interp i args t).args = Function.update (Function.update args "nias" v) "nias" w ∧
      (call me as96Interp i args t).tables = t := by
    unfold call as96Interp block
    simp only [block, exec, ha, if_true, State.source, State.assign]
    simp [eval, State.values, State.look, State.read, h1, State.store, h2, exec, Function.update_self]
    split <;> simp
  rw [e.1]
  exact ⟨Function.update_self .., e.2⟩

open Arrays in
/-- C78: given a list, `AbrahamsonSilva1996.interp` works on an array of its own: nothing of the caller and
no table changes, also if it raises. -/
theorem C78_list {I : Type} (me : Meaning I) (t : Tables) (i : I) (args : String → Arr)
    (ha : me.test "as96:68 is array" i args = false) :
    (call me as96Interp i args t).args = args ∧ (call me as96Interp i args t).tables = t := by
  have h := check_sound me i (block [.new "nias" "as96:68" [], .write "nias" "as96:71" ["nias"],
    .write "nias" "as96:58" ["nias"], .new "ln_dur" "as96:73" ["nias"]]) [] ["ln_dur", "nias"] ⟨t, args, [], []⟩
    (by decide +kernel) (by intro x hx; simp at hx)
  have e : exec me i as96Interp.body ⟨t, args, [], []⟩ = exec me i (block [.new "nias" "as96:68" [],
      .write "nias" "as96:71" ["nias"], .write "nias" "as96:58" ["nias"], .new "ln_dur" "as96:73" ["nias"]])
      ⟨t, args, [], []⟩ := by
    apply exec_seq_congr
    exact if_neg (by rw [ha]; simp)
  unfold call
  rw [e]
  exact ⟨h.2.1, h.1⟩

/-! ### What goes wrong without the copies -/

/-- chiou_youngs_2014.py line 82 without `np.array`: the check refuses it ... -/
example : (Arrays.Method.mk "CY14 without copy"
    (Arrays.block (.bind "ln_resp" (.column "ChiouYoungs2014.c_1") :: Arrays.cy14Ref.tail)) []).tidy = false := by
  decide +kernel

/-- ... and rightly so: with formulas that give arrays, the column changes. -/
example : ∃ (me : Arrays.Meaning Unit) (t : Arrays.Tables),
    (Arrays.call me ⟨"CY14 without copy",
      Arrays.block (.bind "ln_resp" (.column "ChiouYoungs2014.c_1") :: Arrays.cy14Ref.tail), []⟩ () (fun _ => []) t).tables
      "ChiouYoungs2014.c_1" ≠ t "ChiouYoungs2014.c_1" := by
  refine ⟨⟨fun _ _ _ _ _ => some [1], fun _ _ _ => false⟩, fun _ => [], ?_⟩
  have : (Arrays.call (⟨fun _ _ _ _ _ => some [1], fun _ _ _ => false⟩ : Arrays.Meaning Unit) ⟨"CY14 without copy",
      Arrays.block (.bind "ln_resp" (.column "ChiouYoungs2014.c_1") :: Arrays.cy14Ref.tail), []⟩ () (fun _ => [])
      (fun _ => [])).tables "ChiouYoungs2014.c_1" = [1] := rfl
  rw [this]; simp

/-- the private attribute `_ln_std` of Campbell2003 is table memory at large magnitudes; only the public
accessors copy -/
example : (Arrays.Method.mk "Campbell2003._ln_std" Arrays.c03.body ["_ln_std"]).private = false ∧
    (Arrays.Method.mk "Campbell2003._ln_std" Arrays.c03.body ["_ln_std"]).tidy = true := by decide +kernel

/-- a history to which C09 applies -/
example : Arrays.Uses Arrays.shipped
    ([Arrays.Step.call Arrays.cy14 () (fun _ => []), Arrays.Step.call Arrays.c03 () (fun _ => []),
      Arrays.Step.overwrite 0 1 [1], Arrays.Step.call Arrays.cy14 () (fun _ => [])] : List (Arrays.Step Unit)) := by
  intro c hc
  simp only [Arrays.calls, List.mem_cons, List.not_mem_nil, or_false] at hc
  rcases hc with rfl | rfl | rfl <;> simp [Arrays.shipped]
