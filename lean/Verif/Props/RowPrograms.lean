import Verif.Models.RowKernels

/-!
# C124: the array programs compute the row formulas

The statements of the constructors, executed one after the other on shared arrays with in-place and
masked updates (`Arrays.call`), give exactly the arrays the accessors of the instance return.
-/

set_option linter.unusedSimpArgs false

open Arrays Classical

/-- Every operation of the package on arrays returns what its statements say when every variable simply
has a value and an in-place update changes the value of one variable: sharing of arrays never shows. -/
theorem C124_by_value {I : Type} (m : Method) (hm : m ∈ shipped) (me : VMeaning I) (i : I) (args : String → Arr) (t : Tables) :
    (call me.toMeaning m i args t).tables = t ∧ (call me.toMeaning m i args t).args = args ∧
      (call me.toMeaning m i args t).values = some (m.ret.map (vexec me i t args m.body noVars)) := by
  have key : ∀ m ∈ shipped, m.sound = true := by decide +kernel
  exact call_eq me m (key m hm) i args t

/-- sharing does show in `AbrahamsonSilva1996.interp`: there the two readings differ -/
example : ∃ (me : VMeaning Unit) (args : String → Arr) (t : Tables),
    (call me.toMeaning as96Interp () args t).args ≠ args :=
  ⟨⟨fun _ _ _ _ _ => [1], fun _ _ _ => true⟩, fun _ => [], fun _ => [], fun h => by
    have := congrFun h "nias"
    simp [call, as96Interp, block, exec, State.source, State.assign, State.look, State.values, eval, VMeaning.toMeaning,
      State.read, State.store] at this⟩

/-- Campbell (2003) -/
theorem C124_c03 (s : Scenario) {m r : ℝ} (hm : s.get "mag" = .num m) (hr : s.get "dist_rup" = .num r)
    (args : String → Arr) (t : Tables) (ht : t "Campbell2003.c_13" = C03.table.map fun c => F.ofRat c.c_13) :
    ∃ o, Gives C03.cls s o ∧ Accessed .c03 o (call (rowwise .c03 C03.table C03.kernel).toMeaning c03 (m, r) args t).values := by
  refine ⟨_, C03.gives s hm hr, ?_⟩
  refine accessed_of _ _ _ _ _ (by decide +kernel) (by decide +kernel) (by decide +kernel) _ args t _ _ ?_ ?_
  · rowrun [C03.kernel]
    refine List.map_congr_left fun c _ => ?_
    simp only [C03.lnResp, C03.f1, C03.f2, C03.f3, iteLe_of, iteLt_of, fsimp, decide_eq_true_eq]
  · rowrun [C03.kernel, ht]
    refine List.map_congr_left fun c _ => ?_
    simp only [C03.lnStd, iteLe_of, iteLt_of, fsimp, decide_eq_true_eq]
    rfl

example : ∃ o, Gives C03.cls ⟨[("mag", .num 7), ("dist_rup", .num 80)], []⟩ o ∧ Accessed .c03 o
    (call (rowwise .c03 C03.table C03.kernel).toMeaning c03 (7, 80) (fun _ => []) (fun _ => C03.table.map fun c => F.ofRat c.c_13)).values :=
  C124_c03 _ rfl rfl _ _ rfl

/-- Tavakoli & Pezeshk (2005) -/
theorem C124_tp05 (s : Scenario) {m r : ℝ} (hm : s.get "mag" = .num m) (hr : s.get "dist_rup" = .num r)
    (args : String → Arr) (t : Tables) (ht : t "TavakoliPezeshk05.c_16" = TP05.table.map fun c => F.ofRat c.c_16) :
    ∃ o, Gives TP05.cls s o ∧
      Accessed .tp05 o (call (rowwise .tp05 TP05.table TP05.kernel).toMeaning tp05 (m, r) args t).values := by
  refine ⟨_, TP05.gives s hm hr, ?_⟩
  refine accessed_of _ _ _ _ _ (by decide +kernel) (by decide +kernel) (by decide +kernel) _ args t _ _ ?_ ?_
  · rowrun [TP05.kernel]
    refine List.map_congr_left fun c _ => ?_
    simp only [TP05.lnResp, TP05.f1, TP05.f2, TP05.f3, TP05.distR, iteLe_of, iteLt_of, fsimp, decide_eq_true_eq]
  · rowrun [TP05.kernel, ht]
    refine List.map_congr_left fun c _ => ?_
    simp only [TP05.lnStd, iteLe_of, iteLt_of, fsimp, decide_eq_true_eq]
    rfl

example : ∃ o, Gives TP05.cls ⟨[("mag", .num 7), ("dist_rup", .num 80)], []⟩ o ∧ Accessed .tp05 o
    (call (rowwise .tp05 TP05.table TP05.kernel).toMeaning tp05 (7, 80) (fun _ => []) (fun _ => TP05.table.map fun c => F.ofRat c.c_16)).values :=
  C124_tp05 _ rfl rfl _ _ rfl

/-- Pezeshk, Zandieh & Tavakoli (2011) -/
theorem C124_pea11 (s : Scenario) {m r : ℝ} (hm : s.get "mag" = .num m) (hr : s.get "dist_rup" = .num r)
    (args : String → Arr) (t : Tables) :
    ∃ o, Gives Pea11.cls s o ∧
      Accessed .pea11 o (call (rowwise .pea11 Pea11.table Pea11.kernel).toMeaning pea11 (m, r) args t).values := by
  refine ⟨_, Pea11.gives s hm hr, ?_⟩
  refine accessed_of _ _ _ _ _ (by decide +kernel) (by decide +kernel) (by decide +kernel) _ args t _ _ ?_ ?_
  · rowrun [Pea11.kernel]
    refine List.map_congr_left fun c _ => ?_
    simp only [Pea11.lnResp, Pea11.log10Resp, Pea11.distR]
  · rowrun [Pea11.kernel]
    refine List.map_congr_left fun c _ => ?_
    simp only [Pea11.lnStd, iteLe_of, iteLt_of, fsimp, decide_eq_true_eq]

example : ∃ o, Gives Pea11.cls ⟨[("mag", .num 7), ("dist_rup", .num 80)], []⟩ o ∧ Accessed .pea11 o
    (call (rowwise .pea11 Pea11.table Pea11.kernel).toMeaning pea11 (7, 80) (fun _ => []) (fun _ => [])).values :=
  C124_pea11 _ rfl rfl _ _

/-- Idriss (2014) -/
theorem C124_i14 (s : Scenario) {m r v : ℝ} {k : String} (hm : s.get "mag" = .num m) (hr : s.get "dist_rup" = .num r)
    (hv : s.get "v_s30" = .num v) (hk : s.get "mechanism" = .str k) (args : String → Arr) (t : Tables) :
    ∃ o, Gives I14.cls s o ∧
      Accessed .i14 o (call (rowwise .i14 (I14.coeff (F.ofReal m)) I14.kernel).toMeaning i14 (m, r, v, k = "RS") args t).values := by
  refine ⟨_, I14.gives s hm hr hv hk, ?_⟩
  have hl : (I14.coeff (F.ofReal m)).length = GmmClass.i14.periods.length := by
    unfold I14.coeff; split <;> decide +kernel
  have e : I14.out (F.ofReal m) (F.ofReal r) (F.ofReal v) (k = "RS") =
      ⟨(I14.coeff (F.ofReal m)).map fun c => I14.lnResp c (F.ofReal m) (F.ofReal r) (F.ofReal v) (k = "RS"),
       some ((I14.coeff (F.ofReal m)).map fun c => I14.lnStd c.period (F.ofReal m))⟩ := by
    have hp : (I14.coeff (F.ofReal m)).map (·.period) = I14.small.map (·.period) := by
      unfold I14.coeff; split
      · rfl
      · decide +kernel
    have : I14.small.map (fun c => I14.lnStd c.period (F.ofReal m)) =
        (I14.coeff (F.ofReal m)).map fun c => I14.lnStd c.period (F.ofReal m) := by
      have h := congrArg (List.map fun p => I14.lnStd p (F.ofReal m)) hp
      rw [List.map_map, List.map_map] at h
      exact h.symm
    simp only [I14.out, this]
  rw [e]
  refine accessed_of _ _ _ _ _ (by decide +kernel) (by decide +kernel) hl _ args t _ _ ?_ ?_
  · rowrun [I14.kernel]
    refine List.map_congr_left fun c _ => ?_
    simp only [I14.lnResp]
  · rowrun [I14.kernel]
    refine List.map_congr_left fun c _ => ?_
    simp only [I14.lnStd]

example : ∃ o, Gives I14.cls ⟨[("mag", .num 7), ("dist_rup", .num 80), ("v_s30", .num 500), ("mechanism", .str "RS")], []⟩ o ∧
    Accessed .i14 o (call (rowwise .i14 (I14.coeff (F.ofReal 7)) I14.kernel).toMeaning i14 (7, 80, 500, "RS" = "RS") (fun _ => []) (fun _ => [])).values :=
  C124_i14 _ rfl rfl rfl rfl _ _

/-- akkar_sandikkaya_bommer_2014.py lines 75-87 -/
theorem AKB14.run_ref (rows : List AKB14.Row) (m d v : ℝ) (k : AKB14.Mech) (args : String → Arr) (t : Tables) (e : Env) :
    vexec (rowwise .akb14 rows AKB14.kernel) (m, d, v, k) t args (block
    [.new "ln_resp_ref" "akb14:75" [], .new "mask" "akb14:80" [], .write "ln_resp_ref" "akb14:81" ["ln_resp_ref", "mask"],
     .write "ln_resp_ref" "akb14:82" ["ln_resp_ref", "mask"],
     .ite "akb14:84" (.write "ln_resp_ref" "akb14:85" ["ln_resp_ref"])
       (.ite "akb14:86" (.write "ln_resp_ref" "akb14:87" ["ln_resp_ref"]) .skip)]) e "ln_resp_ref" =
      rows.map fun c => AKB14.lnRef c (F.ofReal m) (F.ofReal d) k := by
  rowrun [AKB14.kernel, where_le]
  refine List.map_congr_left fun c _ => ?_
  simp only [iteLe_of, fsimp, AKB14.lnRef, decide_eq_true_eq]
  by_cases h : m ≤ c.c_1 <;> cases k <;>
    simp only [h, if_true, if_false, AKB14.fMech, add_assoc_F, add_zero_F, reduceCtorEq]

/-- Akkar, Sandıkkaya & Bommer (2014), with whichever distance -/
theorem C124_akb14 (s : Scenario) {m v : ℝ} {k : String} {a b c : Option ℝ} {p : ℝ × List AKB14.Row}
    (hm : s.get "mag" = .num m) (hv : s.get "v_s30" = .num v) (hk : s.get "mechanism" = .str k)
    (ha : s.get "dist_jb" = Val.ofOpt a) (hb : s.get "dist_hyp" = Val.ofOpt b) (hc : s.get "dist_epi" = Val.ofOpt c)
    (hp : AKB14.spec a b c = some p) (args : String → Arr) (t : Tables) :
    ∃ o, Gives AKB14.cls s o ∧
      Accessed .akb14 o (call (rowwise .akb14 p.2 AKB14.kernel).toMeaning akb14 (m, p.1, v, AKB14.mechFor k) args t).values := by
  refine ⟨_, AKB14.gives s hm hv hk ha hb hc hp, ?_⟩
  have hl : p.2.length = GmmClass.akb14.periods.length := by
    have h1 : AKB14.jb.length = GmmClass.akb14.periods.length := by decide +kernel
    have h2 : AKB14.hyp.length = GmmClass.akb14.periods.length := by decide +kernel
    have h3 : AKB14.epi.length = GmmClass.akb14.periods.length := by decide +kernel
    cases a <;> cases b <;> cases c <;> simp only [AKB14.spec, Option.some.injEq, reduceCtorEq] at hp <;> subst hp <;> assumption
  have hrun := AKB14.run_ref p.2 m p.1 v (AKB14.mechFor k) args t noVars
  refine accessed_of _ _ _ _ _ (by decide +kernel) (by decide +kernel) hl _ args t _ _ ?_ ?_
  · have := vexec_block_append (rowwise .akb14 p.2 AKB14.kernel) (m, p.1, v, AKB14.mechFor k) t args
      [.new "ln_resp_ref" "akb14:75" [], .new "mask" "akb14:80" [], .write "ln_resp_ref" "akb14:81" ["ln_resp_ref", "mask"],
       .write "ln_resp_ref" "akb14:82" ["ln_resp_ref", "mask"],
       .ite "akb14:84" (.write "ln_resp_ref" "akb14:85" ["ln_resp_ref"])
         (.ite "akb14:86" (.write "ln_resp_ref" "akb14:87" ["ln_resp_ref"]) .skip)]
      [.ite "akb14:92" (.new "site" "akb14:94" ["ln_resp_ref"]) (.new "site" "akb14:98" []),
       .new "_ln_resp" "akb14:100" ["ln_resp_ref", "site"], .new "_ln_std" "akb14:101" []] noVars
    simp only [List.cons_append, List.nil_append] at this
    rw [this]
    generalize vexec _ _ _ _ _ noVars = e1 at hrun ⊢
    rowrun [AKB14.kernel, hrun]
    refine List.map_congr_left fun c _ => ?_
    simp only [AKB14.site, iteLe_of, fsimp, AKB14.pgaRef, decide_eq_true_eq]
  · rowrun [AKB14.kernel]

example : ∃ o, Gives AKB14.cls ⟨[("mag", .num 7), ("dist_epi", .num 80), ("v_s30", .num 500), ("mechanism", .str "RS")], []⟩ o ∧
    Accessed .akb14 o (call (rowwise .akb14 AKB14.epi AKB14.kernel).toMeaning akb14 (7, 80, 500, AKB14.mechFor "RS") (fun _ => []) (fun _ => [])).values :=
  C124_akb14 _ (a := none) (b := none) (c := some 80) (p := (80, AKB14.epi)) rfl rfl rfl rfl rfl rfl rfl _ _
