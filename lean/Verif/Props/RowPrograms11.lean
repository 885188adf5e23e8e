import Verif.Models.RowKernels11

/-! # C124, continued: Bayless & Abrahamson (2018), `corr` and `cov` -/

set_option linter.unusedSimpArgs false
set_option maxHeartbeats 1000000

open Arrays Classical

namespace BA18

theorem index_lt {n i j : ℕ} (hi : i < n) (hj : j < n) : i * n + j < n * n := by
  calc i * n + j < i * n + n := by omega
    _ = (i + 1) * n := by ring
    _ ≤ n * n := Nat.mul_le_mul_right _ hi

theorem entry_matrix {n : ℕ} (f : ℕ → ℕ → F) {i j : ℕ} (hi : i < n) (hj : j < n) : entry n (matrix n f) i j = f i j := by
  have h := index_lt hi hj
  have hn : 0 < n := by omega
  have h1 : (i * n + j) / n = i := by rw [mul_comm, Nat.mul_add_div hn, Nat.div_eq_of_lt hj, add_zero]
  have h2 : (i * n + j) % n = j := by rw [mul_comm, Nat.mul_add_mod, Nat.mod_eq_of_lt hj]
  simp [entry, matrix, h, h1, h2]

theorem matrix_congr {n : ℕ} {f g : ℕ → ℕ → F} (h : ∀ i < n, ∀ j < n, f i j = g i j) : matrix n f = matrix n g := by
  refine List.map_congr_left fun k hk => ?_
  rw [List.mem_range] at hk
  have hn : 0 < n := by
    rcases Nat.eq_zero_or_pos n with rfl | h
    · simp at hk
    · exact h
  exact h _ (Nat.div_lt_of_lt_mul hk) _ (Nat.mod_lt _ hn)

theorem matrix_length (n : ℕ) (f : ℕ → ℕ → F) : (matrix n f).length = n * n := by simp [matrix]

theorem entry_append {n : ℕ} (f : ℕ → ℕ → F) (r : Arr) {i j : ℕ} (hi : i < n) (hj : j < n) :
    entry n (matrix n f ++ r) i j = f i j := by
  rw [← entry_matrix f hi hj]
  unfold entry
  rw [List.getD_eq_getElem?_getD, List.getElem?_append_left (by rw [matrix_length]; exact index_lt hi hj), List.getD_eq_getElem?_getD]

theorem entry_drop {n : ℕ} (a r : Arr) (k : ℕ) (ha : a.length = k) (i j : ℕ) : entry n ((a ++ r).drop k) i j = entry n r i j := by
  rw [List.drop_append, List.drop_of_length_le (by omega), List.nil_append, ha, Nat.sub_self, List.drop_zero]

/-- the frequencies as a function of the position -/
def freqAt (a : Arr) (k : ℕ) : F := a.getD k F.nan

/-- `corr` by positions -/
noncomputable def corrAt (f : ℕ → F) (i j : ℕ) : F :=
  ((if i = j then 1 else raw (f j) (f i)) + (if j = i then 1 else raw (f i) (f j))) / 2

theorem corrAt_eq {n : ℕ} (f : ℕ → F) (i j : Fin n) : corrAt f i j = corr (fun k : Fin n => f k) i j := by
  simp only [corrAt, corr, filled, Fin.ext_iff]

/-- bayless_abrahamson_2018.py lines 41-57 -/
theorem run_corr (p : In) (freqs : Arr) (args : String → Arr) (hf : args "freqs" = freqs) (t : Tables) (e : Env) :
    vexec meaning p t args (block ba18CorrBody) e "corr" = matrix p.n (corrAt fun k => freqs.getD k F.nan) := by
  unfold ba18CorrBody
  rowrun [meaning, hf]
  have h44 : formula "ba18:44" p [freqs] = matrix p.n fun _ j => freqs.getD j F.nan := by
    simp only [formula, String.reduceEq, ↓reduceIte, List.getD_cons_zero]
  rw [h44]
  have h52 : formula "ba18:52" p [matrix p.n fun _ j => freqs.getD j F.nan] =
      matrix p.n fun i j => F.abs (F.log (freqs.getD j F.nan / freqs.getD i F.nan)) := by
    simp only [formula, String.reduceEq, ↓reduceIte, List.getD_cons_zero]
    exact matrix_congr fun i hi j hj => by rw [entry_matrix _ hi hj, entry_matrix _ hj hi]
  have h53 : formula "ba18:53" p [matrix p.n fun _ j => freqs.getD j F.nan] =
      matrix p.n fun i j => F.min (freqs.getD j F.nan) (freqs.getD i F.nan) := by
    simp only [formula, String.reduceEq, ↓reduceIte, List.getD_cons_zero]
    exact matrix_congr fun i hi j hj => by rw [entry_matrix _ hi hj, entry_matrix _ hj hi]
  rw [h52, h53]
  generalize hm : (fun i j : ℕ => F.min (freqs.getD j F.nan) (freqs.getD i F.nan)) = m
  generalize hr : (fun i j : ℕ => F.abs (F.log (freqs.getD j F.nan / freqs.getD i F.nan))) = r
  have h54 : formula "ba18:54" p [matrix p.n m] =
      matrix p.n (fun i j => interp Row.A (m i j)) ++ (matrix p.n (fun i j => interp Row.B (m i j)) ++
        (matrix p.n (fun i j => interp Row.C (m i j)) ++ matrix p.n (fun i j => interp Row.D (m i j)))) := by
    simp only [formula, String.reduceEq, ↓reduceIte, List.getD_cons_zero, List.append_assoc]
    congr 1
    · exact matrix_congr fun i hi j hj => by rw [entry_matrix _ hi hj]
    congr 1
    · exact matrix_congr fun i hi j hj => by rw [entry_matrix _ hi hj]
    congr 1
    · exact matrix_congr fun i hi j hj => by rw [entry_matrix _ hi hj]
    · exact matrix_congr fun i hi j hj => by rw [entry_matrix _ hi hj]
  rw [h54]
  have h55 : formula "ba18:55" p [matrix p.n (fun i j => interp Row.A (m i j)) ++ (matrix p.n (fun i j => interp Row.B (m i j)) ++
        (matrix p.n (fun i j => interp Row.C (m i j)) ++ matrix p.n (fun i j => interp Row.D (m i j)))), matrix p.n r] =
      matrix p.n fun i j => raw (freqs.getD j F.nan) (freqs.getD i F.nan) := by
    simp only [formula, String.reduceEq, ↓reduceIte, List.getD_cons_zero, List.getD_cons_succ]
    refine matrix_congr fun i hi j hj => ?_
    have l0 : ∀ f, (matrix p.n f).length = p.n * p.n := matrix_length p.n
    rw [zero_mul, List.drop_zero, entry_append _ _ hi hj, entry_matrix _ hi hj, one_mul, entry_drop _ _ _ (l0 _), entry_append _ _ hi hj,
      ← List.append_assoc, entry_drop _ _ (2 * (p.n * p.n)) (by rw [List.length_append, l0, l0]; ring), entry_append _ _ hi hj,
      ← List.append_assoc, entry_drop _ _ (3 * (p.n * p.n)) (by simp only [List.length_append, l0]; ring), entry_matrix _ hi hj, ← hm, ← hr]
    rfl
  rw [h55]
  simp only [formula, String.reduceEq, ↓reduceIte, List.getD_cons_zero]
  refine matrix_congr fun i hi j hj => ?_
  rw [entry_matrix _ hi hj, entry_matrix _ hj hi, entry_matrix _ hi hj, entry_matrix _ hj hi]
  rfl

end BA18

/-- `corr`: the entry in row `i`, column `j` of the returned array -/
theorem C124_ba18_corr {n : ℕ} (freqs : Fin n → F) (args : String → Arr) (hf : args "freqs" = List.ofFn freqs) (t : Tables) :
    ∃ a, (call BA18.meaning.toMeaning ba18Corr ⟨n, false, none⟩ args t).values = some [a] ∧ a.length = n * n ∧
      ∀ i j : Fin n, BA18.entry n a i j = BA18.corr freqs i j := by
  refine ⟨BA18.matrix n (BA18.corrAt fun k => (List.ofFn freqs).getD k F.nan), ?_, BA18.matrix_length _ _, ?_⟩
  · unfold Outcome.values
    rw [(call_eq BA18.meaning ba18Corr (by decide +kernel) _ args t).2.2]
    unfold ba18Corr
    simp only [List.map_cons, List.map_nil]
    rw [BA18.run_corr _ _ args hf]
  · intro i j
    rw [BA18.entry_matrix _ i.2 j.2, BA18.corrAt_eq]
    have : (fun k : Fin n => (List.ofFn freqs).getD k F.nan) = freqs := by
      funext k
      simp [List.getD_eq_getElem?_getD]
    rw [this]

/-- `cov` with standard deviations, or with the name of a published one -/
theorem C124_ba18_cov {n : ℕ} (freqs : Fin n → F) (std : Option (Fin n → F)) (component : Option String) (col : Option (BA18.Row → ℚ))
    (hc : std = none → ∃ k c, component = some k ∧ BA18.column k = pure c ∧ col = some c)
    (args : String → Arr) (hf : args "freqs" = List.ofFn freqs) (hs : ∀ y, std = some y → args "std" = List.ofFn y) (t : Tables) :
    ∃ m a, BA18.cov freqs std component = pure m ∧
      (call BA18.meaning.toMeaning ba18Cov ⟨n, std.isSome, col⟩ args t).values = some [a] ∧ a.length = n * n ∧
      ∀ i j : Fin n, BA18.entry n a i j = m i j := by
  have hg : ∀ y : Fin n → F, (fun k : Fin n => (List.ofFn y).getD k F.nan) = y := by
    intro y
    funext k
    simp [List.getD_eq_getElem?_getD]
  -- the array of standard deviations used
  have key : ∀ y : Fin n → F, BA18.stdOf freqs std component = pure y →
      (∀ e : Env, e "freqs" = List.ofFn freqs → vexec BA18.meaning ⟨n, std.isSome, col⟩ t args
        (.ite "ba18:85" (.new "std" "ba18:87" ["freqs"]) (.ite "ba18:88" (.new "std" "ba18:89 raises" []) (.bind "std" (.arg "std")))) e "std" =
          List.ofFn y) →
      ∃ m a, BA18.cov freqs std component = pure m ∧
      (call BA18.meaning.toMeaning ba18Cov ⟨n, std.isSome, col⟩ args t).values = some [a] ∧ a.length = n * n ∧
      ∀ i j : Fin n, BA18.entry n a i j = m i j := by
    intro y hy hv
    refine ⟨fun i j => BA18.corr freqs i j * y j * y i,
      BA18.matrix n fun i j => BA18.corrAt (fun k => (List.ofFn freqs).getD k F.nan) i j * (List.ofFn y).getD j F.nan * (List.ofFn y).getD i F.nan,
      ?_, ?_, BA18.matrix_length _ _, ?_⟩
    · unfold BA18.cov
      rw [hy, Py.pure_bind']
    · unfold Outcome.values
      rw [(call_eq BA18.meaning ba18Cov (by decide +kernel) _ args t).2.2]
      unfold ba18Cov
      simp only [List.map_cons, List.map_nil]
      rw [vexec_block_append]
      have e1 := BA18.run_corr ⟨n, std.isSome, col⟩ _ args hf t noVars
      have e2 : vexec BA18.meaning ⟨n, std.isSome, col⟩ t args (block ba18CorrBody) noVars "freqs" = List.ofFn freqs := by
        unfold ba18CorrBody
        rowrun [BA18.meaning, hf]
      generalize vexec _ _ _ _ _ noVars = e at e1 e2 ⊢
      change some [vexec _ _ _ _ (.seq _ (block [_, _])) e "cov"] = _
      rw [vexec]
      have e3 := hv e e2
      have e4 : vexec BA18.meaning ⟨n, std.isSome, col⟩ t args
        (.ite "ba18:85" (.new "std" "ba18:87" ["freqs"]) (.ite "ba18:88" (.new "std" "ba18:89 raises" []) (.bind "std" (.arg "std")))) e "corr" = _ :=
        (vexec_frame _ _ _ _ _ _ (by decide +kernel)).trans e1
      generalize vexec _ _ _ _ (.ite "ba18:85" _ _) e = e' at e3 e4 ⊢
      rowrun [BA18.meaning, e3, e4]
      simp only [BA18.formula, String.reduceEq, ↓reduceIte, List.getD_cons_zero, List.getD_cons_succ]
      refine congrArg some (congrArg (fun x => [x]) (BA18.matrix_congr fun i hi j hj => ?_))
      rw [BA18.entry_matrix _ hi hj, BA18.entry_matrix _ hi hj, BA18.entry_matrix _ hj hi]
    · intro i j
      have h1 := congrFun (hg y) i
      have h2 := congrFun (hg y) j
      rw [BA18.entry_matrix _ i.2 j.2, BA18.corrAt_eq, hg freqs, h1, h2]
  cases std with
  | some y =>
    refine key y rfl fun e he => ?_
    rowrun [BA18.meaning, BA18.test, hs y rfl, Option.isSome_some, Bool.not_true, Bool.false_and, Bool.false_eq_true]
  | none =>
    obtain ⟨k, c, rfl, hk, rfl⟩ := hc rfl
    refine key (fun i => BA18.interp c (freqs i)) ?_ fun e he => ?_
    · simp only [BA18.stdOf]
      rw [hk, Py.pure_bind']
    · rowrun [BA18.meaning, BA18.test, he, Option.isSome_some, Option.isSome_none, Bool.not_false, Bool.and_self]
      simp only [BA18.formula, String.reduceEq, ↓reduceIte, List.getD_cons_zero, List.map_ofFn]
      rfl

/-- two frequencies and the published total deviation -/
example : ∃ m a, BA18.cov (n := 2) (fun i => if i = 0 then F.ofReal 1 else F.ofReal 5) none (some "sigma") = pure m ∧
    (call BA18.meaning.toMeaning ba18Cov ⟨2, false, some BA18.Row.sigma⟩
      (fun _ => List.ofFn fun i : Fin 2 => if i = 0 then F.ofReal 1 else F.ofReal 5) (fun _ => [])).values = some [a] ∧ a.length = 2 * 2 ∧
    ∀ i j : Fin 2, BA18.entry 2 a i j = m i j :=
  C124_ba18_cov _ none (some "sigma") _ (fun _ => ⟨_, _, rfl, rfl, rfl⟩) _ rfl (fun _ h => by cases h) _
