import Verif.Models.RowKernels12

/-! # C124, continued: Stafford (2017), `cov` -/

set_option linter.unusedSimpArgs false
set_option maxHeartbeats 1000000

open Arrays Classical

namespace Stafford

/-- assigning entries one after the other -/
theorem foldl_set (g : ℕ → F) (l : List ℕ) : ∀ a : Arr,
    (l.foldl (fun a k => a.set k (g k)) a).length = a.length ∧
    ∀ k, k < a.length → (l.foldl (fun a k => a.set k (g k)) a).getD k F.nan = if k ∈ l then g k else a.getD k F.nan := by
  induction l with
  | nil => intro a; simp
  | cons x l ih =>
    intro a
    obtain ⟨h1, h2⟩ := ih (a.set x (g x))
    rw [List.length_set] at h1 h2
    refine ⟨h1, fun k hk => ?_⟩
    simp only [List.foldl_cons]
    rw [h2 k hk]
    by_cases hl : k ∈ l
    · simp [hl]
    · by_cases hx : x = k
      · subst hx
        simp [hl, List.getD_eq_getElem?_getD, hk]
      · have hx' : ¬ k = x := fun h => hx h.symm
        simp [hl, hx, hx', List.getD_eq_getElem?_getD, List.getElem?_set]

/-- the nested loops assign every entry -/
theorem loop_eq (n : ℕ) (f : ℕ → ℕ → F) (a : Arr) (ha : a.length = n * n) :
    (loop n f a).length = n * n ∧ ∀ i j, i < n → j < n → (loop n f a).getD (i * n + j) F.nan = f i j := by
  have e : loop n f a = ((List.range n).flatMap fun i => (List.range n).map fun j => i * n + j).foldl
      (fun a k => a.set k (f (k / n) (k % n))) a := by
    rw [List.foldl_flatMap]
    unfold loop
    congr 1
    funext a i
    rw [List.foldl_map]
    have : ∀ (l : List ℕ), (∀ j ∈ l, j < n) → ∀ b : Arr, l.foldl (fun a j => a.set (i * n + j) (f i j)) b =
        l.foldl (fun x y => x.set (i * n + y) (f ((i * n + y) / n) ((i * n + y) % n))) b := by
      intro l
      induction l with
      | nil => intro _ b; rfl
      | cons j l ih =>
        intro hl b
        have hj : j < n := hl j (by simp)
        have h1 : (i * n + j) / n = i := by rw [mul_comm, Nat.mul_add_div (by omega), Nat.div_eq_of_lt hj, add_zero]
        have h2 : (i * n + j) % n = j := by rw [mul_comm, Nat.mul_add_mod, Nat.mod_eq_of_lt hj]
        simp only [List.foldl_cons, h1, h2]
        exact ih (fun j hj => hl j (by simp [hj])) _
    exact this _ (fun j hj => List.mem_range.1 hj) a
  obtain ⟨h1, h2⟩ := foldl_set (fun k => f (k / n) (k % n)) ((List.range n).flatMap fun i => (List.range n).map fun j => i * n + j) a
  rw [e]
  refine ⟨h1.trans ha, fun i j hi hj => ?_⟩
  have hlt : i * n + j < n * n := by
    calc i * n + j < i * n + n := by omega
      _ = (i + 1) * n := by ring
      _ ≤ n * n := Nat.mul_le_mul_right _ hi
  rw [h2 _ (by rw [ha]; exact hlt), if_pos]
  · have h1 : (i * n + j) / n = i := by rw [mul_comm, Nat.mul_add_div (by omega), Nat.div_eq_of_lt hj, add_zero]
    have h2 : (i * n + j) % n = j := by rw [mul_comm, Nat.mul_add_mod, Nat.mod_eq_of_lt hj]
    rw [h1, h2]
  · simp only [List.mem_flatMap, List.mem_range, List.mem_map]
    exact ⟨i, hi, j, hj, rfl⟩

end Stafford

/-- `cov` of Stafford (2017), where the given standard deviations, if any, have the length of the
frequencies: the entry in row `i`, column `j` of the returned array -/
theorem C124_stafford_cov (freqs : List ℝ) (sE sS sA : Option (List ℝ)) (mag : ℝ)
    (hlen : ∀ e s a, sE = some e → sS = some s → sA = some a → e.length = freqs.length ∧ s.length = freqs.length ∧ a.length = freqs.length)
    (args : String → Arr) (hf : args "freqs" = freqs.map F.ofReal)
    (hs : ∀ e s a, sE = some e → sS = some s → sA = some a →
      args "sigma_E" = e.map F.ofReal ∧ args "sigma_S" = s.map F.ofReal ∧ args "sigma_A" = a.map F.ofReal) (t : Tables) :
    ∃ m a, Stafford.cov freqs sE sS sA mag = pure m ∧
      (call Stafford.meaning.toMeaning staffordCov ⟨sE.isSome && sS.isSome && sA.isSome, mag⟩ args t).values = some [a] ∧
      a.length = freqs.length * freqs.length ∧
      ∀ i j, i < freqs.length → j < freqs.length → a.getD (i * freqs.length + j) F.nan = (m.getD i []).getD j F.nan := by
  have hlv : (Stafford.variances freqs sE sS sA).1.length = freqs.length ∧ (Stafford.variances freqs sE sS sA).2.1.length = freqs.length ∧
      (Stafford.variances freqs sE sS sA).2.2.length = freqs.length := by
    rcases sE with _ | e <;> rcases sS with _ | s <;> rcases sA with _ | a <;>
      simp only [Stafford.variances, Stafford.computeVariances, List.length_map, and_self]
    exact hlen e s a rfl rfl rfl
  have hvar : ∀ x, (x = "sigma_E" ∨ x = "sigma_S" ∨ x = "sigma_A" ∨ x = "freqs") →
      vexec Stafford.meaning ⟨sE.isSome && sS.isSome && sA.isSome, mag⟩ t args (block
        [.bind "freqs" (.arg "freqs"), .bind "sigma_E" (.arg "sigma_E"), .bind "sigma_S" (.arg "sigma_S"), .bind "sigma_A" (.arg "sigma_A"),
         .ite "stafford:294" (block [.new "sigma_E" "stafford:295 E" ["freqs"], .new "sigma_S" "stafford:295 S" ["freqs"],
           .new "sigma_A" "stafford:295 A" ["freqs"]]) .skip]) noVars x =
        if x = "sigma_E" then (Stafford.variances freqs sE sS sA).1 else if x = "sigma_S" then (Stafford.variances freqs sE sS sA).2.1
        else if x = "sigma_A" then (Stafford.variances freqs sE sS sA).2.2 else freqs.map F.ofReal := by
    intro x hx
    have hg : ∀ s : F → F, (freqs.map F.ofReal).map s = freqs.map fun f => s (F.ofReal f) := fun s => by rw [List.map_map]; rfl
    rcases sE with _ | e <;> rcases sS with _ | s <;> rcases sA with _ | a <;> rcases hx with rfl | rfl | rfl | rfl <;>
      rowrun [Stafford.meaning, Stafford.formula, hf, Option.isSome_none, Option.isSome_some, Bool.and_self, Bool.and_true, Bool.and_false,
        Bool.false_and, Bool.not_true, Bool.not_false, Bool.false_eq_true, Stafford.variances, Stafford.computeVariances, hg]
    · exact (hs e s a rfl rfl rfl).1
    · exact (hs e s a rfl rfl rfl).2.1
    · exact (hs e s a rfl rfl rfl).2.2
  have hE := hvar "sigma_E" (by simp)
  have hS := hvar "sigma_S" (by simp)
  have hA := hvar "sigma_A" (by simp)
  have hF := hvar "freqs" (by simp)
  generalize hv : Stafford.variances freqs sE sS sA = v at hE hS hA hF hlv
  have hget : ∀ i, i < freqs.length → (freqs.map F.ofReal).getD i F.nan = F.ofReal (freqs.getD i 0) := by
    intro i hi
    simp [hi]
  refine ⟨(List.range freqs.length).map fun i => (List.range freqs.length).map fun j => Stafford.covEntry freqs v mag i j, ?_⟩
  have hm : Stafford.cov freqs sE sS sA mag =
      pure ((List.range freqs.length).map fun i => (List.range freqs.length).map fun j => Stafford.covEntry freqs v mag i j) := by
    unfold Stafford.cov
    rw [hv]
    dsimp only
    rw [if_neg (by simp only [hlv.1, hlv.2.1, hlv.2.2, ne_eq, not_true_eq_false, or_self, not_false_eq_true])]
  have hcall := (call_eq Stafford.meaning staffordCov (by decide +kernel) ⟨sE.isSome && sS.isSome && sA.isSome, mag⟩ args t).2.2
  have hz : (List.replicate ((freqs.map F.ofReal).length * (freqs.map F.ofReal).length) (0 : F)).length = freqs.length * freqs.length := by
    rw [List.length_replicate, List.length_map]
  obtain ⟨h1, h2⟩ := Stafford.loop_eq freqs.length (fun i j =>
      let rhoE := Stafford.betweenEvent ((freqs.map F.ofReal).getD i F.nan) ((freqs.map F.ofReal).getD j F.nan) (F.ofReal mag)
      let covE := rhoE * v.1.getD i F.nan * v.1.getD j F.nan
      let rhoS := Stafford.betweenSite ((freqs.map F.ofReal).getD i F.nan).val ((freqs.map F.ofReal).getD j F.nan).val
      let covS := rhoS * v.2.1.getD i F.nan * v.2.1.getD j F.nan
      let rhoA := Stafford.withinEvent ((freqs.map F.ofReal).getD i F.nan).val ((freqs.map F.ofReal).getD j F.nan).val
      let covA := rhoA * v.2.2.getD i F.nan * v.2.2.getD j F.nan
      covE + covS + covA) _ hz
  refine ⟨_, hm, ?_, h1, ?_⟩
  · unfold Outcome.values
    rw [hcall]
    change some [vexec _ _ _ _ (block ([_, _, _, _, _] ++ [_, _])) _ "cov_matrix"] = _
    rw [vexec_block_append]
    generalize vexec _ _ _ _ _ noVars = e at hE hS hA hF ⊢
    simp only [String.reduceEq, ↓reduceIte] at hE hS hA hF
    rowrun [Stafford.meaning, hE, hS, hA, hF]
    simp only [Stafford.formula, String.reduceEq, ↓reduceIte, List.getD_cons_zero, List.getD_cons_succ, List.length_map]
  · intro i j hi hj
    rw [h2 i j hi hj, hget i hi, hget j hj]
    simp only [List.getD_eq_getElem?_getD, List.getElem?_map, List.getElem?_range hi, List.getElem?_range hj, Option.map_some, Option.getD_some]
    rfl

/-- two frequencies, the published deviations -/
example : ∃ m a, Stafford.cov [1, 5] none none none 6 = pure m ∧
    (call Stafford.meaning.toMeaning staffordCov ⟨false, 6⟩ (fun _ => [F.ofReal 1, F.ofReal 5]) (fun _ => [])).values = some [a] ∧
    a.length = 2 * 2 ∧ ∀ i j, i < 2 → j < 2 → a.getD (i * 2 + j) F.nan = (m.getD i []).getD j F.nan :=
  C124_stafford_cov [1, 5] none none none 6 (by intro _ _ _ h; cases h) _ rfl (by intro _ _ _ h; cases h) _
