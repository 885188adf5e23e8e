import Verif.Compute
import Verif.Decls
import Verif.GMMClasses

/-! # Derras, Bard & Cotton (2014): src/pygmm/derras_bard_cotton_2014.py -/

namespace DBC14
noncomputable section

/-- one entry of a matrix product: weights times values -/
def dot : List ℚ → List F → F
  | q :: qs, x :: xs => (q : F) * x + dot qs xs
  | _, _ => 0

/-- derras_bard_cotton_2014.py line 58: the mechanism dictionary; any other value raises
`KeyError` (`None` is looked up as a key too). -/
def mechNumber (v : Val) : Py F :=
  if v.isStr "NS" then pure 1
  else if v.isStr "RS" then pure 3
  else if v.isStr "SS" then pure 4
  else Py.raise (.keyError "mechanism")

/-- derras_bard_cotton_2014.py lines 63-66: one normalised input -/
def normalise (lim : ℚ × ℚ) (x : F) : F := 2 * (x - lim.1) / (lim.2 - lim.1) - 1

/-- derras_bard_cotton_2014.py lines 61-66: the normalised input vector, in the order of
`keys` -/
def inputs (dist mag vs30 depth mech : F) : List F :=
  List.zipWith normalise inputLimits [F.log10 dist, mag, F.log10 vs30, depth, mech]

/-- derras_bard_cotton_2014.py line 74: the hidden layer `tanh(b_1 + w_1 @ p_n)` -/
def hidden (p : List F) : List F :=
  List.zipWith (fun (b : ℚ) w => F.tanh (b + dot w p)) b1 w1

/-- derras_bard_cotton_2014.py lines 34, 85: `10 ** scale`, from m/s to cm/s for the first
entry and from m/s² to g for the others -/
def scale (i : ℕ) : F := if i = 0 then 0.01 else 9.80665

/-- derras_bard_cotton_2014.py lines 74-87: output `i`; `h` is the hidden layer -/
def lnResp (c : Row) (i : ℕ) (h : List F) : F :=
  let respN := c.b2 + dot c.w2 h
  let log10Resp := 0.5 * (respN + 1) * (c.respMax - c.respMin) + c.respMin
  F.log ((10 : F) ^ (log10Resp - F.log10 (scale i)))

/-- derras_bard_cotton_2014.py line 88 -/
def lnStd (c : Row) : F := F.log ((10 : F) ^ (c.stdTotal : F))

/-- what the constructor leaves for numeric inputs -/
def out (dist mag vs30 depth mech : F) : GmmOut :=
  ⟨table.mapIdx fun i c => lnResp c i (hidden (inputs dist mag vs30 depth mech)),
   some (table.map lnStd)⟩

/-- derras_bard_cotton_2014.py lines 48-88: the class.  `s = dict(self._scenario)` is a
copy; the items are read by key. -/
def cls : ModelClass GmmOut where
  params := Decls.dbc14
  compute := fun s => do
    let vs30 ← s.num "v_s30"
    let dist ← s.num "dist_jb"
    let m ← s.getAttr "mechanism"
    let mech ← mechNumber m
    let mag ← s.num "mag"
    let depth ← s.num "depth_hyp"
    pure (out dist mag vs30 depth mech)

end

/-- the code's number for a mechanism -/
def mechCode (t : String) : ℝ := if t = "NS" then 1 else if t = "RS" then 3 else 4

/-- construction from a scenario that has the four numbers and a known mechanism -/
theorem gives' (s : Scenario) {m r v z : ℝ} {t : String} (hm : s.get "mag" = .num m)
    (hr : s.get "dist_jb" = .num r) (hv : s.get "v_s30" = .num v)
    (hz : s.get "depth_hyp" = .num z) (ht : s.get "mechanism" = .str t)
    (hmem : t ∈ ["SS", "NS", "RS"]) :
    Gives cls s (out (F.ofReal r) (F.ofReal m) (F.ofReal v) (F.ofReal z)
      (F.ofReal (mechCode t))) := by
  apply gives_of (by decide +kernel) rfl
  · simp only [cls, Decls.dbc14, List.forall_mem_cons]
    exact ⟨pass_num hr, pass_num hm, pass_num hv, pass_num hz, pass_cat ht,
      fun _ h => by simp at h⟩
  · intro d hd
    have hn : (Decls.dbc14.map Param.name).Nodup := by decide +kernel
    have h1 := Checked.num hd hn (name := "mag") (by mem_tac) hm
    have h2 := Checked.num hd hn (name := "dist_jb") (by mem_tac) hr
    have h3 := Checked.num hd hn (name := "v_s30") (by mem_tac) hv
    have h4 := Checked.num hd hn (name := "depth_hyp") (by mem_tac) hz
    have h5 := Checked.cat hd hn (name := "mechanism") (by mem_tac) hmem ht
    have h6 : mechNumber (.str t) = pure (F.ofReal (mechCode t)) := by
      simp only [List.mem_cons, List.not_mem_nil, or_false] at hmem
      have one : (1 : F) = F.ofReal 1 := by ext <;> simp
      have three : (3 : F) = F.ofReal 3 := by ext <;> simp
      have four : (4 : F) = F.ofReal 4 := by ext <;> simp
      rcases hmem with rfl | rfl | rfl <;>
        simp [mechNumber, mechCode, one, three, four]
    simp only [cls, Scenario.num_of h1, Scenario.num_of h2, Scenario.num_of h3,
      Scenario.num_of h4, Scenario.getAttr_of h5, h6, Py.pure_bind']
    rfl

theorem gives (s : Scenario) {m r v z : ℝ} {t : String} (hm : s.get "mag" = .num m)
    (hr : s.get "dist_jb" = .num r) (hv : s.get "v_s30" = .num v)
    (hz : s.get "depth_hyp" = .num z) (ht : s.get "mechanism" = .str t)
    (hmem : t ∈ ["SS", "NS", "RS"]) :
    ∃ x : ℝ, Gives cls s (out (F.ofReal r) (F.ofReal m) (F.ofReal v) (F.ofReal z) (F.ofReal x)) :=
  ⟨_, gives' s hm hr hv hz ht hmem⟩

end DBC14
