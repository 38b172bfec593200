import Verif.Model.NativeProgram
import Verif.Props.Native
import Verif.Props.FlightConditions

/-!
# Property C121 for projects: the native code in whole projects
-/

namespace Verif

open V3

/-! ## One chordwise panel everywhere -/

theorem loaded_onePanel {root : String} {airfoilOk : String → Bool} {f : FileAircraft}
    {ac : LoadedAircraft} (h : loadAircraft root airfoilOk f = .ok ac) {autoC : ℤ} (hC : 1 ≤ autoC) :
    ac.toP.OnePanel autoC := by
  have hfile := (C92_accepted_iff _ _ _).1 ⟨_, h⟩
  obtain ⟨-, -, hw, -⟩ := C92_content _ _ _ _ h
  refine ⟨hC, ?_⟩
  intro w hw'
  obtain ⟨w0, hw0, rfl⟩ := List.mem_map.1 hw'
  obtain ⟨e, he, hwf⟩ := forall₂_mem_right hw hw0
  constructor
  · intro s' hs' n hn
    obtain ⟨s0, hs0, rfl⟩ := List.mem_map.1 hs'
    obtain ⟨es, hes, hsf⟩ := forall₂_mem_right hwf.segments hs0
    exact ((hfile.wings e he).segments es hes).numC n (by rw [← hsf.numC]; exact hn)
  · intro c hc n hn
    rw [hwf.controls_toP] at hc
    obtain ⟨c0, hc0, rfl⟩ := List.mem_map.1 hc
    exact ((hfile.wings e he).controls c0 hc0).2.panels n hn

theorem loaded_settings {W : World} {P : Project} {d : PyDict} {a b : String}
    (hn : NativeProject W P d a b) {x : Loaded} (hx : loadProject W P = .ok x) :
    loadSettings W.suffix (.dict d) = .ok x.settings := by
  cases hs : loadSettings W.suffix (.dict d) with
  | error e =>
    unfold loadProject at hx
    rw [hn.settings, hs] at hx
    cases hx
  | ok s =>
    obtain ⟨-, -, -, -, e⟩ := loadProject_native hn hs
    rw [e] at hx
    cases h1 : P.aircraft a with
    | none => rw [h1] at hx; cases hx
    | some f =>
    rw [h1] at hx
    simp only at hx
    cases h2 : loadAircraft P.root W.airfoilOk f with
    | error e => rw [h2] at hx; cases hx
    | ok ac =>
    rw [h2] at hx
    simp only at hx
    cases h3 : P.state b with
    | none => rw [h3] at hx; cases hx
    | some sd =>
    rw [h3] at hx
    simp only at hx
    cases h4 : updateFromDict W.atm Store.fresh sd with
    | error e => rw [h4] at hx; cases hx
    | ok st =>
    rw [h4] at hx
    simp only at hx
    cases h5 : loadDeformationFrom P s ac with
    | error e => rw [h5] at hx; cases hx
    | ok defs =>
    rw [h5] at hx
    cases hx
    rfl

/-- **C121** (project): in a project whose setting `vlm_autopanels_c` is positive, if given, native code
gets what it expects and stays inside its arrays, whatever else the files contain: the run on Python
objects and flat arrays stops with the same exception and files as the run on real numbers, or both
finish with the same table and files. -/
theorem C121_project_partial (strict : Bool) (W : World) (hW : Lapack W.dgesv) (P : Project) (d : PyDict)
    (a b : String) (hn : NativeProject W P d a b)
    (hC : IfGiven d "vlm_autopanels_c" PyVal.IsPositive) :
    (∀ x files, runProject W P = .error (x, files) →
      nRunProject strict W P = .error (.stop x, files)) ∧
    (∀ out, runProject W P = .ok out → ∃ nout, nRunProject strict W P = .ok nout ∧
      nout.table = out.table ∧ nout.files = out.files ∧ nout.vlm = out.vlm.obj) := by
  unfold runProject nRunProject
  cases hx : loadProject W P with
  | error e =>
    refine ⟨fun x files h => ?_, fun out h => by cases h⟩
    simp only [Except.error.injEq, Prod.mk.injEq] at h
    obtain ⟨rfl, rfl⟩ := h
    rfl
  | ok x =>
    obtain ⟨f, sd, hf, -⟩ := loaded_reads hn hx
    have hs := loaded_settings hn hx
    have hac := loaded_aircraft hn hx hf
    obtain ⟨k1, k2, -, -⟩ := C98_content W.suffix d hn.keys _ hs
    have h1 : 1 ≤ (x.env W P).autoC := int_positive (fun v hv => k1 "vlm_autopanels_c" v (by decide) hv)
      (k2 ("vlm_autopanels_c", .int 4) (by simp [settingsLeftOut])) hC
    obtain ⟨c1, c2⟩ := C121_run_partial strict (x.env W P) hW x.aircraft.toP (loaded_unpanelled _)
      (loaded_onePanel hac h1) x.state
    refine ⟨c1, fun out h => ?_⟩
    obtain ⟨ac', t, -, e⟩ := c2 out h
    exact ⟨_, e, rfl, rfl, rfl⟩

/-! ## No chordwise panels -/

/-- All numbers of chordwise panels are zero. -/
def PAircraft.NoPanels (ac : PAircraft ℝ) : Prop :=
  ∀ w ∈ ac.wings, (∀ s ∈ w.segments, s.numC = some 0) ∧ ∀ c ∈ w.controls, c.numC = some 0

theorem contig_zero {l : List BookEntry} {x y : ℤ} (h : Contig x l y) (h0 : ∀ e ∈ l, e.numC = 0) :
    y = x := by
  induction l generalizing x with
  | nil => exact h.symm
  | cons e l ih =>
    obtain ⟨h1, h2, h3⟩ := h
    rw [ih h3 fun e' he => h0 e' (List.mem_cons_of_mem _ he), h2, h0 e List.mem_cons_self, add_zero]

/-- Book-keeping without panels. -/
theorem noPanels_book {ac ac' : PAircraft ℝ} (hu : ac.Unpanelled) (h : prePanelling ac = .ok ac')
    (hz : ac.NoPanels) (hseg : ∃ w ∈ ac.wings, w.segments ≠ []) :
    ∃ b, genBook ac' = .ok b ∧ b.numP = 0 ∧ 0 < b.entries.length ∧ b.numSub = b.entries.length := by
  have hn : ac.NumC 0 := fun w hw => ⟨fun s hs => ⟨0, (hz w hw).1 s hs, le_rfl⟩,
    fun c hc => ⟨0, (hz w hw).2 c hc, le_rfl⟩⟩
  obtain ⟨b, gs, hb, g1, g2, g3, g4, -⟩ := genBook_facts hu h le_rfl hn
  have hnum : ∀ e ∈ b.entries, e.numC = 0 := by
    intro e he
    rw [← g2, List.mem_flatten] at he
    obtain ⟨g, hg, he⟩ := he
    obtain ⟨t, ht, e0, -, -, -, hpre, hg'⟩ := forall₂_mem_right g1 hg
    obtain ⟨m1, m2, -, -⟩ := mem_allSubareas ht
    obtain ⟨w, hw, hww⟩ := forall₂_mem_right (prePanelling_step h) m1
    obtain ⟨s, hs, hr, -⟩ := forall₂_mem_right hww.segs m2
    have hcs : t.2.2.2.2.controls = w.controls := by rw [hww.rest]
    have hns : t.2.2.1.2.numC = s.numC := by rw [hr]
    have h0 : e0.numC = 0 := by
      unfold prescribed at hpre
      split at hpre
      · obtain ⟨p, hp, -, hp2⟩ := hpre
        rw [hcs] at hp
        rw [(hz w hw).2 p hp] at hp2
        exact (Option.some.inj hp2).symm
      · obtain ⟨m, hm, e⟩ := hpre
        rw [hns, (hz w hw).1 s hs] at hm
        obtain rfl := Option.some.inj hm
        rw [e]
        simp
    rcases hg' with ⟨-, rfl⟩ | ⟨-, e', rfl, -, -, -, h5, -⟩
    · rw [List.mem_singleton.1 he, h0]
    · simp only [List.mem_cons, List.not_mem_nil, or_false] at he
      rcases he with rfl | rfl
      · exact h0
      · rw [h5, h0]
  refine ⟨b, hb, contig_zero g3 hnum, ?_, g4⟩
  obtain ⟨w, hw, hne⟩ := hseg
  obtain ⟨w', hw', hww⟩ := forall₂_mem_left (prePanelling_step h) hw
  obtain ⟨s, hsm⟩ := List.exists_mem_of_ne_nil _ hne
  obtain ⟨s', hs', -⟩ := forall₂_mem_left hww.segs hsm
  obtain ⟨i, ⟨p, hp, -⟩, -⟩ := (C01_aircraft_strips_tile ac ac' hu h w' hw' s' hs').cover 0 le_rfl
    zero_lt_one
  rw [List.getElem?_map] at hp
  obtain ⟨d, hd, -⟩ := Option.map_eq_some_iff.1 hp
  obtain ⟨m, hm⟩ := List.mem_iff_getElem?.1 hw'
  obtain ⟨k, hk⟩ := List.mem_iff_getElem?.1 hs'
  have ht : ((0, ⟨"segment", d.main, none⟩), (i, d), (k, s'), (m, w')) ∈ allSubareas ac' :=
    ((C60_all_subareas ac').1 m k i 0 w' s' d _).2 ⟨hm, hk, hd, rfl⟩
  obtain ⟨g, hg, e, -, -, -, -, he⟩ := forall₂_mem_left g1 ht
  have hmem : e ∈ b.entries := by
    rw [← g2, List.mem_flatten]
    refine ⟨g, hg, ?_⟩
    rcases he with ⟨-, rfl⟩ | ⟨-, e', rfl, -⟩ <;> simp
  exact List.length_pos_of_mem hmem

/-- A run without chordwise panels reads outside of an array. -/
theorem noPanels_run (strict : Bool) (env : RunEnv) (ac ac1 ac2 : PAircraft ℝ)
    (h1 : setAutopanels env.autoC env.autoS ac = .ok ac1) (hu : ac1.Unpanelled)
    (h2 : prePanelling ac1 = .ok ac2) (hz : ac1.NoPanels) (hseg : ∃ w ∈ ac1.wings, w.segments ≠ [])
    (hl : ∀ al be, ∃ l, genLattice env.lat env.doRot al be ac2 = .ok l) (st : FlightSt ℝ)
    (h0 : st.num ≠ 0) (cur : CurSt ℝ) (s : FlowState) (hc : st.current 0 = .ok cur)
    (hs : cur.toFlow = some s) : nStandardRun strict env ac st = .error (.memory, []) := by
  obtain ⟨b, b1, b2, b3, b4⟩ := noPanels_book hu h2 hz hseg
  obtain ⟨l, hl⟩ := hl s.alpha s.beta
  obtain ⟨cs, hcs⟩ : ∃ cs, mapE (entryCorners env.lat ac2) b.entries = .ok cs := by
    unfold genLattice at hl
    rw [b1] at hl
    simp only [] at hl
    cases hcs : mapE (entryCorners env.lat ac2) b.entries with
    | error x => rw [hcs] at hl; cases hl
    | ok cs => exact ⟨cs, rfl⟩
  have hm := C121_too_few_panels strict env ac2 b b1 (by omega) (by omega) b4 cs hcs cur s hs
  obtain ⟨k, hk⟩ := Nat.exists_eq_succ_of_ne_zero h0
  unfold nStandardRun
  rw [h1, hk]
  unfold nRunLoop nRunStep prePanelFirst
  simp only [hc, hs, if_true, h2, orNStop, nAnalyse, hm]

/-- **C121**, the condition is needed: every project with `vlm_autopanels_c = 0` and an aircraft file that
leaves the numbers of chordwise panels to the settings reads outside of an array, although its files are
accepted. -/
theorem C121_no_panels (strict : Bool) (W : World) (P : Project) (d : PyDict) (a b : String)
    (hn : NativeProject W P d a b) (h0 : ("vlm_autopanels_c", PyVal.int 0) ∈ d)
    (hS : IfGiven d "vlm_autopanels_s" PyVal.IsPositive) (f : FileAircraft)
    (hf : P.aircraft a = some f) (hlayout : ∀ w ∈ f.wings, WingLayoutOk w)
    (hseg : ∃ w ∈ f.wings, w.segments ≠ [])
    (hz : ∀ w ∈ f.wings, (∀ s ∈ w.segments, s.numC = none) ∧ ∀ c ∈ w.controls, c.data.numC = none)
    (sd : List (String × Arg ℝ)) (hsd : P.state b = some sd) (hnd : (sd.map Prod.fst).Nodup)
    (s : FlowState) (hs : FlightAt W.atm sd 0 s) (hload : ∃ x, loadProject W P = .ok x) :
    nRunProject strict W P = .error (.memory, []) := by
  obtain ⟨x, hx⟩ := hload
  obtain ⟨f', sd', hf', hsd', -, hfile, hst, hr⟩ := loaded_reads hn hx
  rw [hf] at hf'
  cases hf'
  rw [hsd] at hsd'
  cases hsd'
  have hset := loaded_settings hn hx
  have hac := loaded_aircraft hn hx hf
  obtain ⟨k1, k2, -, -⟩ := C98_content W.suffix d hn.keys _ hset
  obtain ⟨-, -, hw, -⟩ := C92_content _ _ _ _ hac
  have hC : (x.env W P).autoC = 0 := hr.panelsC.1 0 h0
  have hS1 : 1 ≤ x.settings.int "vlm_autopanels_s" :=
    int_positive (fun v hv => k1 _ v (by decide) hv)
      (k2 ("vlm_autopanels_s", .int 4) (by simp [settingsLeftOut])) hS
  have hentry : ∀ w ∈ x.aircraft.toP.wings, ∃ e ∈ f.wings, ∃ w0, w = w0.toP ∧ WingFrom P.root e w0 := by
    intro w hw'
    obtain ⟨w0, hw0, rfl⟩ := List.mem_map.1 hw'
    obtain ⟨e, he, hf⟩ := forall₂_mem_right hw hw0
    exact ⟨e, he, w0, rfl, hf⟩
  obtain ⟨ac1, ac2, h1, h2⟩ := C91_autopanels_accepted_partial x.aircraft.toP (loaded_unpanelled _) (by
      intro w hw'
      obtain ⟨e, he, w0, rfl, hf⟩ := hentry w hw'
      exact hf.good (hfile.wings e he) (hlayout e he))
    (x.settings.int "vlm_autopanels_c") (x.settings.int "vlm_autopanels_s") hS1 (loaded_spans hac) (by
      intro w hw' s hs' n hn
      obtain ⟨e, he, w0, rfl, hf⟩ := hentry w hw'
      obtain ⟨s0, hs0, rfl⟩ := List.mem_map.1 hs'
      obtain ⟨es, hes, hsf⟩ := forall₂_mem_right hf.segments hs0
      exact (((hfile.wings e he).segments es hes).numS n (by rw [← hsf.numS]; exact hn)).le)
  have hrest := setAutopanels_rest h1
  have hnum := C10_user_numbers_kept _ _ _ _ h1
  have hunp1 : ac1.Unpanelled := by
    intro w1 hw1 s1 hs1
    obtain ⟨w, hw', -, -, -, hf⟩ := forall₂_mem_right hrest hw1
    obtain ⟨s, hs', e⟩ := forall₂_mem_right hf hs1
    rw [e]
    exact loaded_unpanelled _ w hw' s hs'
  have hC' : x.settings.int "vlm_autopanels_c" = 0 := hC
  have hz1 : ac1.NoPanels := by
    intro w1 hw1
    obtain ⟨w, hw', -, -, hf, hfc⟩ := forall₂_mem_right hnum hw1
    obtain ⟨e, he, w0, rfl, hwf⟩ := hentry w hw'
    constructor
    · intro s1 hs1
      obtain ⟨s', hs', -, -, e1, -⟩ := forall₂_mem_right hf hs1
      obtain ⟨s0, hs0, rfl⟩ := List.mem_map.1 hs'
      obtain ⟨es, hes, hsf⟩ := forall₂_mem_right hwf.segments hs0
      have : s0.toP.numC = none := by
        rw [← (hz e he).1 es hes, ← hsf.numC]
        rfl
      rw [e1, this, hC']
      rfl
    · intro c1 hc1
      obtain ⟨c, hc', -, e1⟩ := forall₂_mem_right hfc hc1
      rw [hwf.controls_toP] at hc'
      obtain ⟨c0, hc0, rfl⟩ := List.mem_map.1 hc'
      rw [e1, hC']
      simp only [(hz e he).2 c0 hc0, Option.getD_none]
  have hseg1 : ∃ w ∈ ac1.wings, w.segments ≠ [] := by
    obtain ⟨e, he, hne⟩ := hseg
    obtain ⟨w0, hw0, hf⟩ := forall₂_mem_left hw he
    obtain ⟨w1, hw1, -, -, -, hf1⟩ := forall₂_mem_left hrest
      (List.mem_map.2 ⟨w0, hw0, rfl⟩ : w0.toP ∈ x.aircraft.toP.wings)
    refine ⟨w1, hw1, fun hx => hne ?_⟩
    have e1 := hf.segments.length_eq
    have e2 := hf1.length_eq
    rw [hx] at e2
    have e3 : w0.toP.segments.length = w0.segments.length := List.length_map _
    rw [← List.length_eq_zero_iff, e1, ← e3, e2]
    rfl
  have hlat : ∀ al be, ∃ l, genLattice (x.env W P).lat (x.env W P).doRot al be ac2 = .ok l := by
    intro al be
    refine C76_lattice_generated ac1 ac2 hunp1 h2 (fun w hw => ⟨fun s hs => ⟨0, (hz1 w hw).1 s hs, le_rfl⟩,
      fun c hc => ⟨0, (hz1 w hw).2 c hc, le_rfl⟩⟩) (x.env W P).lat (x.env W P).doRot al be ?_
    rintro ⟨⟨l, ar⟩, ⟨k, dd⟩, ⟨j, s⟩, m, w⟩ ht hsym
    obtain ⟨g1, -, -, -⟩ := ((C60_all_subareas ac2).1 m j k l w s dd ar).1 ht
    obtain ⟨w1, hw1, r2⟩ := forall₂_get (prePanelling_step h2) g1
    obtain ⟨wp, hwp, r1⟩ := forall₂_get hrest hw1
    have hwp' : (x.aircraft.wings.map LoadedWing.toP)[m]? = some wp := hwp
    rw [List.getElem?_map] at hwp'
    obtain ⟨w0, hm, rfl⟩ := Option.map_eq_some_iff.1 hwp'
    have es : w.symmetry = w0.symmetry := by
      rw [r2.rest]
      exact r1.1
    simp only at hsym ⊢
    have hgeo : ((x.env W P).lat.geo m j).symmetry = w0.symmetry := by
      show (match x.aircraft.wings[m]? with
        | some w => w.geo x.defs j
        | none => (⟨noCorners, 0, none, none⟩ : GeoEnv ℝ)).symmetry = _
      rw [hm]
      rfl
    rw [hgeo, ← es]
    obtain ⟨e, he, hf⟩ := forall₂_mem_right hw (List.mem_of_getElem? hm)
    have := (hfile.wings e he).symmetry
    rw [← hf.symmetry, ← es] at this
    unfold SymFlag
    omega
  obtain ⟨hacc, hfin⟩ := accepted angle_limits W.atm sd hnd
  obtain ⟨j1, j2, j3, j4, j5, j6, j7⟩ :=
    (flightAt_iff (hfin _ hst).2 hnd (hacc.1 ⟨_, hst⟩).documented 0 s).1 hs
  obtain ⟨cur, c1, c2⟩ := flow_current j1 j2 j3 j4 j5 j6 j7
  have hnz := flightAt_lt (hfin _ hst).1 hs
  unfold nRunProject
  rw [hx]
  exact noPanels_run strict (x.env W P) x.aircraft.toP ac1 ac2 h1 hunp1 h2 hz1 hseg1 hlat x.state (by omega)
    cur s c1 c2

/-- Example for C121: the flat wing. -/
example : ∃ out nout, runProject exampleWorld (exampleProject rectFile) = .ok out ∧
    nRunProject true exampleWorld (exampleProject rectFile) = .ok nout ∧ nout.table = out.table := by
  obtain ⟨out, h⟩ := rect_finishes
  obtain ⟨nout, h1, h2, -⟩ := (C121_project_partial true exampleWorld exactDgesv_lapack
    (exampleProject rectFile) exampleSettings "plane.json" "cruise.json" (example_native _)
    (by simp [IfGiven, exampleSettings])).2 out h
  exact ⟨out, nout, h, h1, h2⟩

/-- The settings ask for no chordwise panels. -/
def noPanelSettings : PyDict := ("vlm_autopanels_c", .int 0) :: exampleSettings

/-- The wing with a flap, without chordwise panels. -/
noncomputable def noPanelProject : Project :=
  { exampleProject flapFile with settings := .dict noPanelSettings }

/-- Example for C121: the wing with a flap, `vlm_autopanels_c = 0`. -/
example (strict : Bool) : nRunProject strict exampleWorld noPanelProject = .error (.memory, []) := by
  have hn : NativeProject exampleWorld noPanelProject noPanelSettings "plane.json" "cruise.json" :=
    ⟨rfl, by decide, by simp [noPanelSettings, exampleSettings], rfl,
      by simp [noPanelSettings, exampleSettings], by
      show (if "cruise.json" = "__cpacs" then "__CPACS" else "cruise.json") ≠ "__CPACS"
      decide⟩
  refine C121_no_panels strict exampleWorld noPanelProject noPanelSettings "plane.json" "cruise.json" hn
    (by simp [noPanelSettings]) (by simp [IfGiven, noPanelSettings, exampleSettings]) flapFile rfl
    flapFile_layout (by simp [flapFile]) ?_ _ rfl (oneState_nodup _ _ _ _) _
    (oneState_flight.2 ⟨rfl, rfl⟩) ?_
  · intro w hw
    simp only [flapFile, List.mem_singleton] at hw
    subst hw
    simp
  · obtain ⟨s, hs⟩ := (C98_accepted_iff exampleWorld.suffix noPanelSettings hn.keys).2
      ⟨⟨"plane.json", by simp [noPanelSettings, exampleSettings], .inl rfl⟩,
        ⟨"cruise.json", by simp [noPanelSettings, exampleSettings]⟩,
        by simp [IfGiven, noPanelSettings, exampleSettings, PyVal.IsInt],
        by simp [IfGiven, noPanelSettings, exampleSettings],
        by simp [IfGiven, noPanelSettings, exampleSettings], by simp [IfGiven, noPanelSettings, exampleSettings],
        by simp [IfGiven, noPanelSettings, exampleSettings], by simp [IfGiven, noPanelSettings, exampleSettings],
        by simp [IfGiven, noPanelSettings, exampleSettings]⟩
    obtain ⟨ac, hac⟩ := (C92_accepted_iff "/home" (fun _ => true) flapFile).2 flapFile_ok
    obtain ⟨st, hst⟩ := (C41_accepted_iff exampleWorld.atm _ (oneState_nodup 10 1 5 0)).2
      (oneState_acceptable _ _ _ _ _)
    obtain ⟨-, -, hw, -⟩ := C92_content _ _ _ _ hac
    obtain ⟨defs, hdefs⟩ := loadDeformation_ok (P := noPanelProject) hn.keys hs flapFile_ok.names.2 hw
      (by simp [DeformationOk, IfGiven, noPanelSettings, exampleSettings])
    obtain ⟨-, -, -, -, e⟩ := loadProject_native hn hs
    refine ⟨⟨s, false, ac, st, defs⟩, ?_⟩
    rw [e]
    have h1 : noPanelProject.aircraft "plane.json" = some flapFile := rfl
    have h2 : noPanelProject.state "cruise.json" = some (oneState 10 1 5 0) := rfl
    have hac' : loadAircraft noPanelProject.root exampleWorld.airfoilOk flapFile = .ok ac := hac
    simp only [h1, h2, hac', hst, hdefs]

end Verif
