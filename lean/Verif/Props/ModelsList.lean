import Verif.Models.ModelsList
import Verif.Props.ASK14
import Verif.Props.BA19
import Verif.Props.BSSA14
import Verif.Props.CB14
import Verif.Props.CY14
import Verif.Props.GA11

/-! # C106: walking through `pygmm.models` with one scenario -/

namespace PyGmm

/-- a scenario that has everything: the numbers and names that some model in `pygmm.models`
requires, with the numbers that are optional either left out or given as numbers -/
structure Complete (s : Scenario) : Prop where
  mag : ∃ x, s.get "mag" = .num x
  rup : ∃ x, s.get "dist_rup" = .num x
  jb : ∃ x, s.get "dist_jb" = .num x
  x : ∃ x, s.get "dist_x" = .num x
  dip : ∃ x, s.get "dip" = .num x
  v : ∃ x, s.get "v_s30" = .num x ∧ x ≠ 0
  tor : ∃ x, s.get "depth_tor" = .num x
  hyp : ∃ x, s.get "depth_hyp" = .num x
  pga : ∃ x, s.get "pga_ref" = .num x
  mech : ∃ t ∈ ["SS", "NS", "RS"], s.get "mechanism" = .str t
  site : ∃ t, s.get "site_cond" = .str t
  event : ∃ t, s.get "event_type" = .str t
  optional : ∀ k ∈ ["dist_y0", "width", "depth_1_0", "depth_2_5", "dist_crjb", "depth_bot",
    "depth_bor", "dpp_centered", "dist_hyp", "dist_epi"],
    s.get k = .none ∨ ∃ x, s.get k = .num x

/-- the names some entry of `pygmm.models` cannot do without -/
def needed : List String :=
  ["mag", "dist_rup", "dist_jb", "dist_x", "dip", "v_s30", "depth_tor", "depth_hyp", "pga_ref",
   "mechanism", "site_cond", "event_type"]

theorem construct_ok {Out : Type} {C : ModelClass Out} {s : Scenario} {o : Out}
    (h : Gives C s o) : (construct C s).res = .ok () := by
  obtain ⟨i, hi, -⟩ := h
  rw [construct, Py.bind_res_ok hi]; rfl

theorem construct_missing {Out : Type} {C : ModelClass Out} (hC : ParamsOk C.params) {s : Scenario}
    {p : Param} (hp : p ∈ C.params) (hr : p.required = true)
    (h : (construct C s).res = .ok ()) : s.get p.name ≠ .none := by
  intro hn
  obtain ⟨pre, q, post, h1, h2, h3⟩ := C05_missing_required_fails C hC s p hp hr hn
  have : ∃ e, (C.new s).res = .error e := by
    rcases h3 with ⟨-, -, h⟩ | ⟨-, h⟩ <;> exact ⟨_, h⟩
  obtain ⟨e, he⟩ := this
  rw [construct, Py.bind_res_error he] at h
  cases h

theorem opt_of {s : Scenario} {k : String} (h : s.get k = .none ∨ ∃ x, s.get k = .num x) :
    ∃ o, s.get k = Val.ofOpt o := by
  rcases h with h | ⟨x, h⟩
  · exact ⟨none, h⟩
  · exact ⟨some x, h⟩

/-- every entry but the last returns -/
theorem all_ok {s : Scenario} (h : Complete s) :
    ∀ e ∈ models, e.1 ≠ "Stafford2017" → (e.2 s).res = .ok () := by
  obtain ⟨m, hm⟩ := h.mag
  obtain ⟨r, hr⟩ := h.rup
  obtain ⟨jb, hjb⟩ := h.jb
  obtain ⟨x, hx⟩ := h.x
  obtain ⟨dip, hdip⟩ := h.dip
  obtain ⟨v, hv, hv0⟩ := h.v
  obtain ⟨tor, htor⟩ := h.tor
  obtain ⟨hyp, hhyp⟩ := h.hyp
  obtain ⟨p, hp⟩ := h.pga
  obtain ⟨t, ht, hmech⟩ := h.mech
  obtain ⟨c, hc⟩ := h.site
  obtain ⟨e, he⟩ := h.event
  have ho := h.optional
  obtain ⟨y0, hy0⟩ := opt_of (ho "dist_y0" (by simp))
  obtain ⟨w, hw⟩ := opt_of (ho "width" (by simp))
  obtain ⟨z1, hz1⟩ := opt_of (ho "depth_1_0" (by simp))
  obtain ⟨z25, hz25⟩ := opt_of (ho "depth_2_5" (by simp))
  obtain ⟨crjb, hcrjb⟩ := opt_of (ho "dist_crjb" (by simp))
  obtain ⟨bot, hbot⟩ := opt_of (ho "depth_bot" (by simp))
  obtain ⟨bor, hbor⟩ := opt_of (ho "depth_bor" (by simp))
  obtain ⟨dpp, hdpp⟩ := opt_of (ho "dpp_centered" (by simp))
  obtain ⟨dh, hdh⟩ := opt_of (ho "dist_hyp" (by simp))
  obtain ⟨de, hde⟩ := opt_of (ho "dist_epi" (by simp))
  have hmn : s.get "mechanism" ≠ .none := by rw [hmech]; simp
  simp only [models, List.forall_mem_cons]
  refine ⟨fun _ => construct_ok (AS96.gives s hm hr hc), fun _ => construct_ok (ASK14.gives
      (g := ⟨m, r, jb, dip, v, some x, y0, w, some tor, z1, crjb⟩)
      ⟨hm, hr, hjb, hdip, hv, hx, hy0, hw, htor, hz1, hcrjb, hmn⟩ (fun _ => by simp)),
    fun _ => construct_ok (AS16.gives s hm hr hv hz1 hmech),
    fun _ => construct_ok (AKB14.gives (a := some jb) (b := dh) (c := de) s hm hv hmech hjb hdh hde rfl),
    fun _ => construct_ok (AB06.gives s hm hr hv),
    fun _ => construct_ok (BA19.gives (g := ⟨r, m, v, tor, z1⟩) ⟨hr, hm, hv, htor, hz1⟩),
    fun _ => construct_ok (BSSA14.gives (g := ⟨m, jb, v, z1⟩) ⟨hm, hjb, hv, hz1⟩),
    fun _ => construct_ok (C03.gives s hm hr),
    fun _ => construct_ok (CB14.gives
      (g := ⟨m, r, jb, x, dip, v, bot, z1, z25, bor, some hyp, some tor, w⟩)
      ⟨hm, hr, hjb, hx, hdip, hv, hbot, hz1, hz25, hbor, hhyp, htor, hw, hmn⟩ hv0),
    fun _ => construct_ok (CY14.gives (g := ⟨m, r, jb, x, dip, v, some tor, z1, dpp⟩)
      ⟨hm, hr, hjb, hx, hdip, hv, htor, hz1, hdpp⟩),
    fun _ => construct_ok (CoppersmithBommer.gives s hm hr hv he 1),
    fun _ => construct_ok (DBC14.gives' s hm hjb hv hhyp hmech ht),
    fun _ => construct_ok (GA11.gives s hm hr hv hp hmech),
    fun _ => construct_ok (KS06.gives s hm hr hv),
    fun _ => construct_ok (I14.gives s hm hr hv hmech),
    fun _ => construct_ok (Pea11.gives s hm hr),
    fun _ => construct_ok (TP05.gives s hm hr), fun hn => absurd rfl hn, fun _ hx => by simp at hx⟩

theorem runAll_append (s : Scenario) (l l' : List (String × (Scenario → Py Unit)))
    (h : ∀ e ∈ l, (e.2 s).res = .ok ()) : runAll s (l ++ l') = l.length + runAll s l' := by
  induction l with
  | nil => simp
  | cons e l ih =>
    rw [List.forall_mem_cons] at h
    rw [List.cons_append, runAll, h.1, List.length_cons, ih h.2]
    simp only
    omega

/-- Whatever the scenario, `Stafford2017(scenario)` raises `TypeError`: the last entry of
`pygmm.models` is not a model of a scenario. -/
theorem C106_stafford (s : Scenario) :
    ∃ f, ("Stafford2017", f) ∈ models ∧ (f s).res = .error .typeError :=
  ⟨stafford, by simp [models], rfl⟩

/-- With a complete scenario every other entry of `pygmm.models` can be constructed, whatever the
values are, and a loop over the list stops exactly at its last entry. -/
theorem C106_complete (s : Scenario) (h : Complete s) :
    (∀ e ∈ models, (e.2 s).res = .ok () ↔ e.1 ≠ "Stafford2017") ∧
    models.length = 18 ∧ runAll s models = 17 := by
  refine ⟨fun e he => ⟨fun h' hn => ?_, all_ok h e he⟩, rfl, ?_⟩
  · have : e = ("Stafford2017", stafford) := by
      simp only [models, List.mem_cons, List.not_mem_nil, or_false] at he
      rcases he with rfl | rfl | rfl | rfl | rfl | rfl | rfl | rfl | rfl | rfl | rfl | rfl | rfl |
        rfl | rfl | rfl | rfl | rfl <;> first | rfl | simp at hn
    subst this
    cases h'
  · have hs : models = models.dropLast ++ [("Stafford2017", stafford)] := rfl
    rw [hs, runAll_append s _ _ (fun e he => all_ok h e (List.mem_of_mem_dropLast he) ?_)]
    · rfl
    · rintro hn
      simp only [models, List.dropLast, List.mem_cons, List.not_mem_nil, or_false] at he
      rcases he with rfl | rfl | rfl | rfl | rfl | rfl | rfl | rfl | rfl | rfl | rfl | rfl | rfl |
        rfl | rfl | rfl | rfl <;> simp at hn

/-- the required names of a class whose constructor returned are there -/
theorem present {Out : Type} {C : ModelClass Out} {s : Scenario} (ps : List Param)
    (e : C.params = ps) (hC : ParamsOk ps) (hh : (construct C s).res = .ok ()) (k : String)
    (hk : (ps.any fun p => p.name == k && p.required) = true) : s.get k ≠ .none := by
  rw [List.any_eq_true] at hk
  obtain ⟨p, hp, hk⟩ := hk
  simp only [Bool.and_eq_true, beq_iff_eq] at hk
  rw [← hk.1]
  exact construct_missing (e ▸ hC) (e ▸ hp) hk.2 hh

theorem present_cb14 {s : Scenario} (h : (construct CB14.cls s).res = .ok ()) :
    ∀ k ∈ ["mag", "dist_rup", "dist_jb", "dist_x", "dip", "v_s30", "mechanism"],
      s.get k ≠ .none := by
  intro k hk
  have : ∀ k ∈ ["mag", "dist_rup", "dist_jb", "dist_x", "dip", "v_s30", "mechanism"],
      (Decls.cb14.any fun p => p.name == k && p.required) = true := by decide +kernel
  exact present Decls.cb14 rfl (by decide +kernel) h k (this k hk)
theorem present_ba19 {s : Scenario} (h : (construct BA19.cls s).res = .ok ()) :
    s.get "depth_tor" ≠ .none :=
  present Decls.ba19 rfl (by decide +kernel) h _ (by decide +kernel)
theorem present_dbc14 {s : Scenario} (h : (construct DBC14.cls s).res = .ok ()) :
    s.get "depth_hyp" ≠ .none :=
  present Decls.dbc14 rfl (by decide +kernel) h _ (by decide +kernel)
theorem present_ga11 {s : Scenario} (h : (construct GA11.cls s).res = .ok ()) :
    s.get "pga_ref" ≠ .none :=
  present Decls.ga11 rfl (by decide +kernel) h _ (by decide +kernel)
theorem present_as96 {s : Scenario} (h : (construct AS96.cls s).res = .ok ()) :
    s.get "site_cond" ≠ .none :=
  present Decls.as96 rfl (by decide +kernel) h _ (by decide +kernel)
theorem present_cb {s : Scenario} (h : (construct (CoppersmithBommer.cls 1) s).res = .ok ()) :
    s.get "event_type" ≠ .none :=
  present Decls.coppersmith rfl (by decide +kernel) h _ (by decide +kernel)

/-- Conversely, if every entry but `Stafford2017` can be constructed from a scenario, the scenario
has all of the needed names. -/
theorem C106_needed (s : Scenario)
    (h : ∀ e ∈ models, e.1 ≠ "Stafford2017" → (e.2 s).res = .ok ()) :
    ∀ k ∈ needed, s.get k ≠ .none := by
  simp only [models, List.forall_mem_cons] at h
  obtain ⟨h5, -, -, -, -, h2, -, -, h1, -, h6, h3, h4, -⟩ := h
  replace h1 := present_cb14 (h1 (by simp))
  replace h2 := present_ba19 (h2 (by simp))
  replace h3 := present_dbc14 (h3 (by simp))
  replace h4 := present_ga11 (h4 (by simp))
  replace h5 := present_as96 (h5 (by simp))
  replace h6 := present_cb (h6 (by simp))
  simp only [List.forall_mem_cons] at h1
  obtain ⟨a1, a2, a3, a4, a5, a6, a7, -⟩ := h1
  simp only [needed, List.forall_mem_cons]
  exact ⟨a1, a2, a3, a4, a5, a6, h2, h3, h4, a7, h5, h6, fun _ hx => by simp at hx⟩

/-- a complete scenario -/
example : Complete ⟨[("mag", .num 6), ("dist_rup", .num 20), ("dist_jb", .num 18),
    ("dist_x", .num 15), ("dip", .num 60), ("v_s30", .num 500), ("depth_tor", .num 3),
    ("depth_hyp", .num 9), ("pga_ref", .num 0.1), ("mechanism", .str "RS"),
    ("site_cond", .str "rock"), ("event_type", .str "interface")], []⟩ := by
  constructor <;> simp [Scenario.get, Dict.get?]

end PyGmm
