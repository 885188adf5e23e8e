import Verif.Models.RowKernels9
import Verif.Props.RowPrograms8

/-! # C124, continued: Derras, Bard & Cotton (2014) -/

set_option linter.unusedSimpArgs false
set_option maxHeartbeats 1000000

open Arrays Classical

namespace DBC14

theorem inner_dot (q : List ℚ) (x : Arr) : inner (q.map F.ofRat) x = dot q x := by
  induction q generalizing x with
  | nil => rfl
  | cons a q ih =>
    cases x with
    | nil => rfl
    | cons y x => simp only [List.map_cons, inner, dot, ih]; rfl

theorem flatten_row (w : List (List F)) (h : ∀ r ∈ w, r.length = 5) :
    w.flatten.length = w.length * 5 ∧ ∀ (j : ℕ) (hj : j < w.length), (w.flatten.drop (j * 5)).take 5 = w[j] := by
  induction w with
  | nil => simp
  | cons a w ih =>
    have ha : a.length = 5 := h a (by simp)
    obtain ⟨h1, h2⟩ := ih fun r hr => h r (by simp [hr])
    refine ⟨by simp only [List.flatten_cons, List.length_append, h1, ha, List.length_cons]; omega, ?_⟩
    intro j hj
    cases j with
    | zero => simp [ha]
    | succ j =>
      have e : (j + 1) * 5 = a.length + j * 5 := by rw [ha]; ring
      rw [List.flatten_cons, e, List.drop_append]
      simp only [List.length_cons] at hj
      rw [List.drop_of_length_le (by omega), List.nil_append, show a.length + j * 5 - a.length = j * 5 by omega,
        h2 j (by omega), List.getElem_cons_succ]

/-- the product of a matrix stored row by row -/
theorem matVec_rows (w : List (List F)) (h : ∀ r ∈ w, r.length = 5) (x : Arr) : matVec w.flatten x = w.map fun r => inner r x := by
  obtain ⟨h1, h2⟩ := flatten_row w h
  apply List.ext_getElem
  · simp [matVec, h1]
  · intro j h3 h4
    simp only [List.length_map] at h4
    simp only [matVec, List.getElem_map, List.getElem_range, h2 j h4]

/-- lines 60-66 -/
theorem run_inputs (i : In) : formula "dbc14:64" i [formula "dbc14:62" i [], formula "dbc14:63" i []] =
    inputs i.dist i.mag i.vs30 i.depth i.mech := by
  simp only [formula, String.reduceEq, ↓reduceIte, inputs, inputLimits, normalise, List.range, List.range.loop, List.map_cons, List.map_nil,
    List.zipWith_cons_cons, List.zipWith_nil_right, List.flatten_cons, List.cons_append, List.nil_append, List.flatten_nil]
  rfl

theorem w1_rows : ∀ r ∈ w1, r.length = 5 := by decide +kernel
theorem w2_rows : ∀ c ∈ table, c.w2.length = 5 := by decide +kernel

/-- line 74 -/
theorem run_net (i : In) (p : List F) :
    formula "dbc14:74" i [formula "dbc14:69" i [], formula "dbc14:70" i [], formula "dbc14:71" i [], formula "dbc14:72" i [], p] =
      table.map fun c => c.b2 + dot c.w2 (hidden p) := by
  simp only [formula, String.reduceEq, ↓reduceIte, List.getD_cons_zero, List.getD_cons_succ]
  rw [matVec_rows _ (by intro r hr; obtain ⟨q, hq, rfl⟩ := List.mem_map.1 hr; rw [List.length_map]; exact w2_rows q hq),
    matVec_rows _ (by intro r hr; obtain ⟨q, hq, rfl⟩ := List.mem_map.1 hr; rw [List.length_map]; exact w1_rows q hq)]
  simp only [List.map_map, Function.comp_def, inner_dot, List.zipWith_map]
  rw [List.zipWith_self]
  rfl

/-- lines 78-87 -/
theorem run_tail (i : In) (x : Row → F) :
    formula "dbc14:87" i [formula "dbc14:78" i [table.map x], formula "dbc14:85" i []] =
      table.mapIdx fun j c => F.log ((10 : F) ^ (0.5 * (x c + 1) * ((c.respMax : F) - c.respMin) + c.respMin - F.log10 (scale j))) := by
  simp only [formula, String.reduceEq, ↓reduceIte, List.getD_cons_zero, List.getD_cons_succ]
  have e : List.zipWith (fun (c : Row) y => 0.5 * (y + 1) * ((c.respMax : F) - c.respMin) + c.respMin) table (table.map x) =
      table.map fun c => 0.5 * (x c + 1) * ((c.respMax : F) - c.respMin) + c.respMin := by
    rw [List.zipWith_map_right, List.zipWith_self]
  rw [e]
  have hl : table.length = 64 := by decide +kernel
  apply List.ext_getElem
  · simp [hl]
  · intro j h1 h2
    simp only [List.getElem_zipWith, List.getElem_map, List.getElem_mapIdx]
    congr 4
    cases j with
    | zero => rfl
    | succ j => simp [scale, -List.reduceReplicate]

/-- derras_bard_cotton_2014.py lines 48-88 -/
theorem run (i : In) (t : Tables) (args : String → Arr) :
    Accessed .dbc14 (out i.dist i.mag i.vs30 i.depth i.mech) (call (accessors .dbc14 formula fun _ _ => false).toMeaning dbc14 i args t).values := by
  have hl : table.length = GmmClass.dbc14.periods.length := by decide +kernel
  refine accessed_of' _ _ _ _ _ (by decide +kernel) (by decide +kernel) _ _ _ _ _
    (by rw [List.length_mapIdx, hl]) (by rw [List.length_map, hl]) ?_ ?_
  · rowrun [accessors]
    rw [run_inputs, run_net, run_tail]
    rfl
  · rowrun [accessors]
    rfl

end DBC14

/-- Derras, Bard & Cotton (2014) -/
theorem C124_dbc14 (s : Scenario) {m r v z : ℝ} {k : String} (hm : s.get "mag" = .num m)
    (hr : s.get "dist_jb" = .num r) (hv : s.get "v_s30" = .num v) (hz : s.get "depth_hyp" = .num z)
    (hk : s.get "mechanism" = .str k) (hmem : k ∈ ["SS", "NS", "RS"]) (args : String → Arr) (t : Tables) :
    ∃ o, Gives DBC14.cls s o ∧
      Accessed .dbc14 o (call (accessors .dbc14 DBC14.formula fun _ _ => false).toMeaning dbc14
        ⟨F.ofReal r, F.ofReal m, F.ofReal v, F.ofReal z, F.ofReal (DBC14.mechCode k)⟩ args t).values :=
  ⟨_, DBC14.gives' s hm hr hv hz hk hmem, DBC14.run ⟨F.ofReal r, F.ofReal m, F.ofReal v, F.ofReal z, F.ofReal (DBC14.mechCode k)⟩ t args⟩

/-- a strike-slip event -/
example : ∃ o, Gives DBC14.cls ⟨[("mag", .num 6.5), ("dist_jb", .num 20), ("v_s30", .num 500), ("depth_hyp", .num 10),
      ("mechanism", .str "SS")], []⟩ o ∧
    Accessed .dbc14 o (call (accessors .dbc14 DBC14.formula fun _ _ => false).toMeaning dbc14
      ⟨F.ofReal 20, F.ofReal 6.5, F.ofReal 500, F.ofReal 10, F.ofReal (DBC14.mechCode "SS")⟩ (fun _ => []) (fun _ => [])).values :=
  C124_dbc14 _ rfl rfl rfl rfl rfl (by simp) _ _
