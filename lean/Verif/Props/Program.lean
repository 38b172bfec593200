import Verif.Lemmas.Program

/-!
# Properties C99–C101: whole runs of the program, from the files of a project to the results
-/

namespace Verif

/-! ## Specification -/

/-- The control surfaces a wing entry asks for. -/
def FileWing.requested (w : FileWing) : List (PControl ℝ) :=
  w.controls.map fun c =>
    { uid := c.uid, deviceType := c.data.deviceType.getD ""
      segInner := c.data.segInner, segOuter := c.data.segOuter
      etaInner := c.data.etaInner, etaOuter := c.data.etaOuter
      xsiInner := c.data.xsiInner, xsiOuter := c.data.xsiOuter
      hInner := some c.data.hingeInner, hOuter := some c.data.hingeOuter, numC := c.data.numC }

/-- The control surfaces of a wing entry do not contradict each other: see `GoodLayout`.  A wing with
control surfaces has flat, convex segments; nothing is asked of the shape of other wings. -/
structure WingLayoutOk (w : FileWing) : Prop where
  borders : BordersApart (⟨w.uid, w.symmetry, [], w.requested⟩ : PWing ℝ)
  controls : GoodControls (w.segments.map (·.uid)) w.requested
  shape : w.controls ≠ [] → ∀ s ∈ w.segments, ∀ p, AllGiven s.vertices p → ConvexOutline p ∧ Planar p

/-- A positive number of panels (Python counts `True` as one). -/
def PyVal.IsPositive (v : PyVal) : Prop := v = .bool true ∨ ∃ n : ℤ, v = .int n ∧ 1 ≤ n

/-- A project without CPACS: the settings file `d` names the aircraft file `a` and the state file
`b`. -/
structure NativeProject (W : World) (P : Project) (d : PyDict) (a b : String) : Prop where
  settings : P.settings = .dict d
  keys : (d.map Prod.fst).Nodup
  aircraft : ("aircraft", PyVal.str a) ∈ d
  json : W.suffix a = ".json"
  state : ("state", PyVal.str b) ∈ d
  notCpacs : W.upper b ≠ "__CPACS"

/-- The deformation named in the settings is usable: none at all, or a file in which every field that
is not ignored is named after a half of a wing. -/
def DeformationOk (P : Project) (d : PyDict) (f : FileAircraft) : Prop :=
  IfGiven d "deformation" fun v => v.IsEmpty ∨ ∃ fields, P.deformation v = some fields ∧
    (∀ w ∈ f.wings, PlainName w.uid) ∧ (fields.map Prod.fst).Nodup ∧
    ∀ e ∈ fields, ¬ ['_'] <+: e.1.toList →
      ∃ w ∈ f.wings, e.1 = w.uid ∨ e.1 = mirrorName w.uid

/-- The flight states are usable: a documented combination, rates given, at least one state. -/
structure StatesOk (atm : Atm ℝ) (sd : List (String × Arg ℝ)) : Prop where
  keys : (sd.map Prod.fst).Nodup
  acceptable : Acceptable atm sd
  rates : ∀ p ∈ ["rate_P", "rate_Q", "rate_R"], ∃ x, (p, x) ∈ sd
  some : ∃ x ∈ sd, x.2.toList ≠ []

/-- All files of a project are in order. -/
structure ProjectOk (W : World) (P : Project) (d : PyDict) (a b : String) (f : FileAircraft)
    (sd : List (String × Arg ℝ)) : Prop where
  native : NativeProject W P d a b
  settings : SettingsFileOk W.suffix d
  panelsC : IfGiven d "vlm_autopanels_c" PyVal.IsPositive
  panelsS : IfGiven d "vlm_autopanels_s" PyVal.IsPositive
  aircraft : P.aircraft a = some f
  file : FileOk P.root W.airfoilOk f
  layout : ∀ w ∈ f.wings, WingLayoutOk w
  segment : ∃ w ∈ f.wings, w.segments ≠ []
  state : P.state b = some sd
  states : StatesOk W.atm sd
  deformation : DeformationOk P d f

/-! ## Proofs -/

theorem FileControl.toP_completed (c : FileControl) (e : FileControl) (sym : ℕ)
    (h1 : c.uid = e.uid) (h2 : c.data = e.data.completed sym) : c.toP = e.toP := by
  unfold FileControl.toP
  rw [h1, h2]
  unfold ControlDef.completed
  split_ifs <;> rfl

theorem WingFrom.controls_toP {root : String} {e : FileWing} {w : LoadedWing}
    (h : WingFrom root e w) : w.toP.controls = e.requested := by
  have := h.controls
  show w.controls.map FileControl.toP = e.controls.map FileControl.toP
  generalize e.controls = l1 at this
  generalize w.controls = l2 at this
  induction this with
  | nil => rfl
  | cons hx _ ih => rw [List.map_cons, List.map_cons, ih, FileControl.toP_completed _ _ _ hx.1 hx.2]

theorem WingFrom.uids {root : String} {e : FileWing} {w : LoadedWing} (h : WingFrom root e w) :
    w.toP.segments.map PSegment.uid = e.segments.map (·.uid) := by
  have := h.segments
  show (w.segments.map LoadedSegment.toP).map PSegment.uid = _
  generalize e.segments = l1 at this
  generalize w.segments = l2 at this
  induction this with
  | nil => rfl
  | cons hx _ ih =>
    simp only [List.map_cons, ih]
    rw [← hx.uid]
    rfl

theorem WingFrom.good {root : String} {airfoilOk : String → Bool} {e : FileWing} {w : LoadedWing}
    (h : WingFrom root e w) (he : WingEntryOk root airfoilOk e) (hl : WingLayoutOk e) :
    GoodLayout w.toP := by
  have hshape : w.toP.controls ≠ [] → ∀ s ∈ w.toP.segments, ∃ v, ConvexOutline v ∧ Planar v ∧
      s.interp = xsiInterpol v ∧
      s.dist = fun e1 x1 e2 x2 => (segPoint v e1 x1 - segPoint v e2 x2).norm := by
    intro hc s hs
    obtain ⟨s0, hs0, rfl⟩ := List.mem_map.1 hs
    obtain ⟨e0, he0, hf⟩ := forall₂_mem_right h.segments hs0
    rw [h.controls_toP] at hc
    obtain ⟨h1, h2⟩ := hl.shape (fun hx => hc (by unfold FileWing.requested; rw [hx]; rfl)) e0 he0 _
      hf.vertices
    exact ⟨_, h1, h2, rfl, rfl⟩
  refine ⟨?_, ?_, ?_, ?_, ?_⟩
  · rw [h.uids]
    exact he.segmentNames.2
  · have := hl.borders
    unfold BordersApart at this ⊢
    rw [h.controls_toP]
    exact this
  · intro hc s hs
    obtain ⟨v, h1, h2, h3, h4⟩ := hshape hc s hs
    exact (C91_planar_segment s v h1 h2 h3 h4).1
  · intro hc s hs
    obtain ⟨v, h1, h2, h3, h4⟩ := hshape hc s hs
    exact (C91_planar_segment s v h1 h2 h3 h4).2
  · rw [h.uids, h.controls_toP]
    exact hl.controls

theorem loadedWing_spans {root : String} {airfoilOk : String → Bool} {e : FileWing} {w : LoadedWing}
    (hl : loadWing root airfoilOk e = .ok w) :
    ∀ s0 ∈ w.segments, 0 ≤ fltVal s0.gen.geometry.span ∧
      (fltVal s0.gen.geometry.span) ^ 2 = (s0.gen.vertices.b.y - s0.gen.vertices.a.y) ^ 2 +
        (s0.gen.vertices.b.z - s0.gen.vertices.a.z) ^ 2 := by
  unfold loadWing at hl
  split_ifs at hl with hsym
  cases k1 : checkNames [] (e.segments.map (·.uid)) with
  | error x => simp [k1] at hl
  | ok u1 =>
  cases k2 : checkNames [] (e.controls.map (·.uid)) with
  | error x => simp [k1, k2] at hl
  | ok u2 =>
  simp only [k1, k2] at hl
  cases k3 : mapE (loadControl e.symmetry) e.controls with
  | error x => simp [k3] at hl
  | ok cs =>
  cases k4 : mapE (loadSegment root airfoilOk) e.segments with
  | error x => simp [k3, k4] at hl
  | ok gs =>
  simp only [k3, k4] at hl
  cases k5 : positions (gs.map fun g => fltVal g.2.geometry.span) with
  | error x => simp [k5] at hl
  | ok ps =>
  simp only [k5, Except.ok.injEq] at hl
  subst hl
  intro s0 hs0
  obtain ⟨⟨g, p⟩, hg, rfl⟩ := List.mem_map.1 hs0
  obtain ⟨e0, -, he0⟩ := forall₂_mem_right (mapE_ok k4) (List.of_mem_zip hg).1
  obtain ⟨_, _, _, span, sweep, hs, h0, h1, _⟩ :=
    C68_derived _ _ _ (loadSegment_from he0 (0, 0)).1
  have e1 : fltVal (LoadedSegment.of (g, p)).gen.geometry.span = span := by
    show fltVal g.2.geometry.span = span
    rw [hs]
    rfl
  rw [e1]
  exact ⟨h0, h1⟩

theorem loaded_spans {root : String} {airfoilOk : String → Bool} {f : FileAircraft}
    {ac : LoadedAircraft} (h : loadAircraft root airfoilOk f = .ok ac) :
    ∀ w ∈ ac.toP.wings, ∀ s ∈ w.segments, 0 ≤ s.span ∧ ∃ t ∈ w.segments, 0 < t.span := by
  have hok := (C92_accepted_iff _ _ _).1 ⟨ac, h⟩
  unfold loadAircraft at h
  cases h1 : checkNames [] (f.wings.map (·.uid)) with
  | error e => simp [h1] at h
  | ok u =>
  simp only [h1] at h
  split_ifs at h with href
  cases h2 : mapE (loadWing root airfoilOk) f.wings with
  | error e => simp [h2] at h
  | ok ws =>
  simp only [h2, Except.ok.injEq] at h
  subst h
  intro w hw s hs
  obtain ⟨w0, hw0, rfl⟩ := List.mem_map.1 hw
  obtain ⟨e, he, hl⟩ := forall₂_mem_right (mapE_ok h2) hw0
  have hwe := hok.wings e he
  have hsegs : ∀ s0 ∈ w0.segments, 0 ≤ fltVal s0.gen.geometry.span ∧
      (fltVal s0.gen.geometry.span = 0 ↔ NoSpan s0.gen.vertices) := by
    intro s0 hs0
    obtain ⟨h0, h1⟩ := loadedWing_spans hl s0 hs0
    refine ⟨h0, ?_⟩
    unfold NoSpan
    constructor
    · intro h2
      rw [h2] at h1
      constructor <;> nlinarith
    · rintro ⟨h2, h3⟩
      rw [h2, h3, sub_self, sub_self] at h1
      exact pow_eq_zero_iff two_ne_zero |>.1 (by rw [h1]; norm_num)
  have hwf := (loadWing_from hl).1
  obtain ⟨s0, hs0, rfl⟩ := List.mem_map.1 hs
  refine ⟨(hsegs s0 hs0).1, ?_⟩
  have hne : e.segments ≠ [] := by
    intro hx
    have := hwf.segments.length_eq
    rw [hx] at this
    rw [List.length_eq_zero_iff.1 this.symm] at hs0
    cases hs0
  obtain ⟨e1, he1, p, hp, hn⟩ := hwe.span hne
  obtain ⟨t0, ht0, hft⟩ := forall₂_mem_left hwf.segments he1
  refine ⟨_, List.mem_map.2 ⟨t0, ht0, rfl⟩, ?_⟩
  obtain ⟨g1, g2⟩ := hsegs t0 ht0
  refine lt_of_le_of_ne g1 fun h0 => hn ?_
  rw [noSpan_given hp hft.vertices]
  exact g2.1 h0.symm

theorem int_positive {s : SettingsObj} {d : PyDict} {key : String}
    (hg : ∀ v, (key, v) ∈ d → s.settings.lookup key = some v)
    (h0 : (∀ v, (key, v) ∉ d) → s.settings.lookup key = some (.int 4))
    (h : IfGiven d key PyVal.IsPositive) : 1 ≤ s.int key := by
  unfold SettingsObj.int
  by_cases hx : ∃ v, (key, v) ∈ d
  · obtain ⟨v, hv⟩ := hx
    rw [hg v hv]
    rcases h v hv with rfl | ⟨n, rfl, hn⟩
    · simp
    · simpa using hn
  · push Not at hx
    rw [h0 hx]
    simp

theorem current_of_iter {s : FlightSt ℝ} {cs : List (CurSt ℝ)} (h : s.iterStates = .ok cs) :
    ∀ i < s.num, ∃ cur, s.current i = .ok cur := by
  intro i hi
  exact mapE_mem h i (List.mem_range.2 hi)

/-- Loading a native project, step by step. -/
theorem loadProject_native {W : World} {P : Project} {d : PyDict} {a b : String}
    (hn : NativeProject W P d a b) {s : SettingsObj}
    (hs : loadSettings W.suffix (.dict d) = .ok s) :
    s.aircraftIsCpacs = false ∧ s.stateIsCpacs W.upper = .ok false ∧
    s.name "aircraft" = a ∧ s.name "state" = b ∧
    loadProject W P =
      match P.aircraft a with
      | none => .error .ioError
      | some f =>
        match loadAircraft P.root W.airfoilOk f with
        | .error e => .error e
        | .ok ac =>
          match P.state b with
          | none => .error .ioError
          | some sd =>
            match updateFromDict W.atm Store.fresh sd with
            | .error e => .error e
            | .ok st =>
              match loadDeformationFrom P s ac with
              | .error e => .error e
              | .ok defs => .ok ⟨s, false, ac, st, defs⟩ := by
  obtain ⟨k1, -, -, k4⟩ := C98_content W.suffix d hn.keys s hs
  have h1 : s.aircraftIsCpacs = false := by
    cases hb : s.aircraftIsCpacs with
    | false => rfl
    | true =>
      have := (k4 a hn.aircraft).1 hb
      rw [hn.json] at this
      simp at this
  have h2 := (C98_state_source W.suffix W.upper d hn.keys s hs a b hn.aircraft hn.state).2.1.2
    hn.notCpacs
  have h3 : s.name "aircraft" = a := by
    unfold SettingsObj.name
    rw [k1 _ _ (by decide) hn.aircraft]
    rfl
  have h4 : s.name "state" = b := by
    unfold SettingsObj.name
    rw [k1 _ _ (by decide) hn.state]
    rfl
  refine ⟨h1, h2, h3, h4, ?_⟩
  unfold loadProject loadAircraftFrom loadStateFrom
  rw [hn.settings, hs]
  simp only [h1, h2, h3, h4, Bool.false_eq_true, if_false]
  cases P.aircraft a with
  | none => rfl
  | some f =>
    simp only
    cases loadAircraft P.root W.airfoilOk f with
    | error e => rfl
    | ok ac =>
      simp only
      cases P.state b with
      | none => rfl
      | some sd =>
        simp only
        cases updateFromDict W.atm Store.fresh sd <;> rfl

theorem undeformed_keys {root : String} {f : FileAircraft} {ac : LoadedAircraft}
    (hw : List.Forall₂ (WingFrom root) f.wings ac.wings) :
    ac.undeformed.keys = f.wings.map (·.uid) := by
  unfold LoadedAircraft.undeformed ODict.keys
  rw [List.map_map]
  generalize f.wings = l1 at hw
  generalize ac.wings = l2 at hw
  induction hw with
  | nil => rfl
  | cons hx _ ih => rw [List.map_cons, List.map_cons, ih, ← hx.uid]; rfl

theorem loadDeformation_ok {P : Project} {d : PyDict} {suffix : String → String} {root : String}
    (hd : (d.map Prod.fst).Nodup) {s : SettingsObj}
    (hs : loadSettings suffix (.dict d) = .ok s) {f : FileAircraft} {ac : LoadedAircraft}
    (hnames : (f.wings.map (·.uid)).Nodup)
    (hw : List.Forall₂ (WingFrom root) f.wings ac.wings) (hok : DeformationOk P d f) :
    ∃ defs, loadDeformationFrom P s ac = .ok defs := by
  obtain ⟨k1, k2, -, -⟩ := C98_content suffix d hd s hs
  unfold loadDeformationFrom
  by_cases hx : ∃ v, ("deformation", v) ∈ d
  · obtain ⟨v, hv⟩ := hx
    rw [k1 _ _ (by decide) hv]
    simp only
    rcases hok v hv with he | ⟨fields, hp, h1, h2, h3⟩
    · rw [(truthy_false_iff v).2 he]
      exact ⟨_, rfl⟩
    · have hkeys := undeformed_keys hw
      have hmem : ∀ w, w ∈ ac.undeformed.keys ↔ ∃ x ∈ f.wings, x.uid = w := by
        intro w; rw [hkeys, List.mem_map]
      rw [hp]
      simp only
      have := C56_fields_partial fields ac.undeformed (hkeys ▸ hnames) (by
          intro w hwk
          obtain ⟨x, hx, rfl⟩ := (hmem w).1 hwk
          exact h1 x hx) h2 (by
          intro e he hu
          obtain ⟨w, hw, h | h⟩ := h3 e he hu
          · exact .inl ((hmem _).2 ⟨w, hw, h.symm⟩)
          · exact .inr ⟨w.uid, (hmem _).2 ⟨w, hw, rfl⟩, h⟩)
      rw [this]
      split_ifs <;> exact ⟨_, rfl⟩
  · push Not at hx
    rw [k2 ("deformation", .none) (by simp [settingsLeftOut]) hx]
    exact ⟨_, rfl⟩

/-- What a project in order is loaded to. -/
theorem ProjectOk.load {W : World} {P : Project} {d : PyDict} {a b : String} {f : FileAircraft}
    {sd : List (String × Arg ℝ)} (h : ProjectOk W P d a b f sd) :
    ∃ x : Loaded, loadProject W P = .ok x ∧ loadSettings W.suffix (.dict d) = .ok x.settings ∧
      loadAircraft P.root W.airfoilOk f = .ok x.aircraft ∧
      updateFromDict W.atm Store.fresh sd = .ok x.state := by
  obtain ⟨s, hs⟩ := (C98_accepted_iff W.suffix d h.native.keys).2 h.settings
  obtain ⟨ac, hac⟩ := (C92_accepted_iff _ _ _).2 h.file
  obtain ⟨st, hst⟩ := (C41_accepted_iff W.atm sd h.states.keys).2 h.states.acceptable
  obtain ⟨-, -, hw, -⟩ := C92_content _ _ _ _ hac
  obtain ⟨defs, hdefs⟩ := loadDeformation_ok h.native.keys hs h.file.names.2 hw h.deformation
  obtain ⟨-, -, -, -, e⟩ := loadProject_native h.native hs
  refine ⟨⟨s, false, ac, st, defs⟩, ?_, hs, hac, hst⟩
  rw [e, h.aircraft, h.state]
  simp only [hac, hst, hdefs]

/-- The aircraft of a loaded project in order is panelled, and there is a lattice for each flow direction. -/
theorem panelled_of_loaded {W : World} (P : Project) {x : Loaded} {d : PyDict} (hk : (d.map Prod.fst).Nodup)
    (hs : loadSettings W.suffix (.dict d) = .ok x.settings)
    (hpc : IfGiven d "vlm_autopanels_c" PyVal.IsPositive)
    (hps : IfGiven d "vlm_autopanels_s" PyVal.IsPositive) {root : String} {airfoilOk : String → Bool}
    {f : FileAircraft} (hac : loadAircraft root airfoilOk f = .ok x.aircraft)
    (hlayout : ∀ w ∈ f.wings, WingLayoutOk w) (hsegment : ∃ w ∈ f.wings, w.segments ≠ []) :
    ∃ ac1 ac2, setAutopanels (x.settings.int "vlm_autopanels_c") (x.settings.int "vlm_autopanels_s")
      x.aircraft.toP = .ok ac1 ∧ prePanelling ac1 = .ok ac2 ∧ ac1.Unpanelled ∧ ac1.NumC 1 ∧
      ∀ al be, ∃ l, genLattice (x.env W P).lat (x.env W P).doRot al be ac2 = .ok l ∧ l.num ≠ 0 := by
  have hfile := (C92_accepted_iff _ _ _).1 ⟨_, hac⟩
  obtain ⟨k1, k2, -, -⟩ := C98_content W.suffix d hk _ hs
  obtain ⟨hu0, -, hw, -⟩ := C92_content _ _ _ _ hac
  have hunp : x.aircraft.toP.Unpanelled := by
    intro w hw s hs
    obtain ⟨w0, -, rfl⟩ := List.mem_map.1 hw
    obtain ⟨s0, -, rfl⟩ := List.mem_map.1 hs
    rfl
  have hC : 1 ≤ x.settings.int "vlm_autopanels_c" :=
    int_positive (fun v hv => k1 _ v (by decide) hv)
      (k2 ("vlm_autopanels_c", .int 4) (by simp [settingsLeftOut])) hpc
  have hS : 1 ≤ x.settings.int "vlm_autopanels_s" :=
    int_positive (fun v hv => k1 _ v (by decide) hv)
      (k2 ("vlm_autopanels_s", .int 4) (by simp [settingsLeftOut])) hps
  have hentry : ∀ w ∈ x.aircraft.toP.wings, ∃ e ∈ f.wings, ∃ w0, w = w0.toP ∧ WingFrom root e w0 := by
    intro w hw'
    obtain ⟨w0, hw0, rfl⟩ := List.mem_map.1 hw'
    obtain ⟨e, he, hf⟩ := forall₂_mem_right hw hw0
    exact ⟨e, he, w0, rfl, hf⟩
  have hgood : ∀ w ∈ x.aircraft.toP.wings, GoodLayout w := by
    intro w hw'
    obtain ⟨e, he, w0, rfl, hf⟩ := hentry w hw'
    exact hf.good (hfile.wings e he) (hlayout e he)
  have hsegnum : ∀ w ∈ x.aircraft.toP.wings, ∀ s ∈ w.segments,
      (∀ n, s.numS = some n → 0 < n) ∧ ∀ n, s.numC = some n → 0 < n := by
    intro w hw' s hs'
    obtain ⟨e, he, w0, rfl, hf⟩ := hentry w hw'
    obtain ⟨s0, hs0, rfl⟩ := List.mem_map.1 hs'
    obtain ⟨es, hes, hsf⟩ := forall₂_mem_right hf.segments hs0
    have := (hfile.wings e he).segments es hes
    refine ⟨fun n hn => this.numS n ?_, fun n hn => this.numC n ?_⟩
    · rw [← hsf.numS]; exact hn
    · rw [← hsf.numC]; exact hn
  have hctrlnum : ∀ w ∈ x.aircraft.toP.wings, ∀ c ∈ w.controls, ∀ n, c.numC = some n → 0 < n := by
    intro w hw' c hc n hn
    obtain ⟨e, he, w0, rfl, hf⟩ := hentry w hw'
    rw [hf.controls_toP] at hc
    obtain ⟨c0, hc0, rfl⟩ := List.mem_map.1 hc
    exact ((hfile.wings e he).controls c0 hc0).2.panels n hn
  obtain ⟨ac1, ac2, h1, h2⟩ := C91_autopanels_accepted_partial x.aircraft.toP hunp hgood
    (x.settings.int "vlm_autopanels_c") (x.settings.int "vlm_autopanels_s") hS (loaded_spans hac)
    (fun w hw' s hs' n hn => ((hsegnum w hw' s hs').1 n hn).le)
  have hrest := setAutopanels_rest h1
  have hnum := C10_user_numbers_kept _ _ _ _ h1
  have hunp1 : ac1.Unpanelled := by
    intro w1 hw1 s1 hs1
    obtain ⟨w, hw', -, -, -, hf⟩ := forall₂_mem_right hrest hw1
    obtain ⟨s, hs', e⟩ := forall₂_mem_right hf hs1
    rw [e]
    exact hunp w hw' s hs'
  have hnum1 : ac1.NumC 1 := by
    intro w1 hw1
    obtain ⟨w, hw', -, -, hf, hfc⟩ := forall₂_mem_right hnum hw1
    constructor
    · intro s1 hs1
      obtain ⟨s, hs', -, -, e, -⟩ := forall₂_mem_right hf hs1
      refine ⟨_, e, ?_⟩
      cases hc : s.numC with
      | none => exact hC
      | some n => exact (hsegnum w hw' s hs').2 n hc
    · intro c1 hc1
      obtain ⟨c, hc', -, e⟩ := forall₂_mem_right hfc hc1
      refine ⟨_, e, ?_⟩
      cases hc : c.numC with
      | none => exact hC
      | some n => exact hctrlnum w hw' c hc' n hc
  have hseg1 : ∃ w ∈ ac1.wings, w.segments ≠ [] := by
    obtain ⟨e, he, hne⟩ := hsegment
    obtain ⟨w0, hw0, hf⟩ := forall₂_mem_left hw he
    obtain ⟨w1, hw1, -, -, -, hf1⟩ := forall₂_mem_left hrest
      (List.mem_map.2 ⟨w0, hw0, rfl⟩ : w0.toP ∈ x.aircraft.toP.wings)
    refine ⟨w1, hw1, fun hx => hne ?_⟩
    have e1 := hf.segments.length_eq
    have e2 := hf1.length_eq
    rw [hx] at e2
    have e3 : w0.toP.segments.length = w0.segments.length := List.length_map _
    rw [← List.length_eq_zero_iff, e1, ← e3, e2]
    rfl
  have hlat : ∀ al be, ∃ l, genLattice (x.env W P).lat (x.env W P).doRot al be ac2 = .ok l ∧
      l.num ≠ 0 := by
    intro al be
    obtain ⟨l, hl⟩ := C76_lattice_generated ac1 ac2 hunp1 h2 (by
        intro w hw
        obtain ⟨q1, q2⟩ := hnum1 w hw
        constructor
        · intro s hs
          obtain ⟨n, r1, r2⟩ := q1 s hs
          exact ⟨n, r1, by omega⟩
        · intro c hc
          obtain ⟨n, r1, r2⟩ := q2 c hc
          exact ⟨n, r1, by omega⟩) (x.env W P).lat (x.env W P).doRot al be (by
        rintro ⟨⟨l, ar⟩, ⟨k, dd⟩, ⟨j, s⟩, m, w⟩ ht hsym
        obtain ⟨g1, -, -, -⟩ := ((C60_all_subareas ac2).1 m j k l w s dd ar).1 ht
        obtain ⟨w1, hw1, r2⟩ := forall₂_get (prePanelling_step h2) g1
        obtain ⟨wp, hwp, r1⟩ := forall₂_get hrest hw1
        have hwp' : (x.aircraft.wings.map LoadedWing.toP)[m]? = some wp := hwp
        rw [List.getElem?_map] at hwp'
        obtain ⟨w0, hm, rfl⟩ := Option.map_eq_some_iff.1 hwp'
        have es : w.symmetry = w0.symmetry := by
          rw [r2.rest]
          exact r1.1
        simp only at hsym ⊢
        have hgeo : ((x.env W P).lat.geo m j).symmetry = w0.symmetry := by
          show (match x.aircraft.wings[m]? with
            | some w => w.geo x.defs j
            | none => (⟨noCorners, 0, none, none⟩ : GeoEnv ℝ)).symmetry = _
          rw [hm]
          rfl
        rw [hgeo, ← es]
        obtain ⟨e, he, hf⟩ := forall₂_mem_right hw (List.mem_of_getElem? hm)
        have := (hfile.wings e he).symmetry
        rw [← hf.symmetry, ← es] at this
        unfold SymFlag
        omega)
    exact ⟨l, hl, lattice_nonempty hunp1 h2 hnum1 hl hseg1⟩
  exact ⟨ac1, ac2, h1, h2, hunp1, hnum1, hlat⟩

/-- A loaded project in order is analysed without an exception. -/
theorem no_exception_of_loaded {W : World} (hW : Lapack W.dgesv) {P : Project} {x : Loaded}
    (hx : loadProject W P = .ok x) {d : PyDict} (hk : (d.map Prod.fst).Nodup)
    (hs : loadSettings W.suffix (.dict d) = .ok x.settings)
    (hpc : IfGiven d "vlm_autopanels_c" PyVal.IsPositive)
    (hps : IfGiven d "vlm_autopanels_s" PyVal.IsPositive) {root : String} {airfoilOk : String → Bool}
    {f : FileAircraft} (hac : loadAircraft root airfoilOk f = .ok x.aircraft)
    (hlayout : ∀ w ∈ f.wings, WingLayoutOk w) (hsegment : ∃ w ∈ f.wings, w.segments ≠ [])
    {sd : List (String × Arg ℝ)} (hst : updateFromDict W.atm Store.fresh sd = .ok x.state)
    (hstates : StatesOk W.atm sd) :
    (∃ out, runProject W P = .ok out) ∨ ∃ files, runProject W P = .error (.notFinite, files) := by
  obtain ⟨ac1, ac2, h1, h2, -, -, hlat⟩ := panelled_of_loaded (W := W) P hk hs hpc hps hac hlayout hsegment
  obtain ⟨hlen, cs, hcs, -⟩ := C44_iteration W.atm sd hstates.keys _ hst hstates.rates
  have hnz : x.state.num ≠ 0 := by
    obtain ⟨y, hy, hne⟩ := hstates.some
    rw [← hlen y hy]
    exact fun h0 => hne (List.length_eq_zero_iff.1 h0)
  have hno := standardRun_no_raise (env := x.env W P) (ac := x.aircraft.toP) hW ⟨ac1, h1, h2⟩ hnz
    (current_of_iter hcs) hlat
  unfold runProject
  rw [hx]
  simp only
  cases hr : standardRun (x.env W P) x.aircraft.toP x.state with
  | ok out => exact .inl ⟨out, rfl⟩
  | error e =>
    obtain ⟨e, fs⟩ := e
    cases e with
    | notFinite => exact .inr ⟨fs, rfl⟩
    | raised e => exact absurd hr (hno e fs)

/-- **C99**: a project whose files are in order is never answered by an exception: the run finishes,
or it meets a value that is not finite. -/
theorem C99_no_exception (W : World) (hW : Lapack W.dgesv) (P : Project) (d : PyDict) (a b : String)
    (f : FileAircraft) (sd : List (String × Arg ℝ)) (h : ProjectOk W P d a b f sd) :
    (∃ out, runProject W P = .ok out) ∨ ∃ files, runProject W P = .error (.notFinite, files) := by
  obtain ⟨x, hx, hs, hac, hst⟩ := h.load
  exact no_exception_of_loaded hW hx h.native.keys hs h.panelsC h.panelsS hac h.layout h.segment hst h.states

/-! ## Unusable projects -/

/-- Something is wrong with the files of a project: the settings, the aircraft file, the state file or
the deformation file is missing or not well-formed. -/
inductive Broken (W : World) (P : Project) (d : PyDict) (a b : String) : Prop
  | settings (h : ¬ SettingsFileOk W.suffix d)
  | noAircraft (h : P.aircraft a = none)
  | aircraft (f : FileAircraft) (hf : P.aircraft a = some f) (h : ¬ FileOk P.root W.airfoilOk f)
  | noState (h : P.state b = none)
  | state (sd : List (String × Arg ℝ)) (hs : P.state b = some sd) (hk : (sd.map Prod.fst).Nodup)
      (h : ¬ Acceptable W.atm sd)
  | noDeformation (v : PyVal) (hv : ("deformation", v) ∈ d) (h0 : ¬ v.IsEmpty)
      (h : P.deformation v = none)
  | deformation (v : PyVal) (hv : ("deformation", v) ∈ d) (h0 : ¬ v.IsEmpty)
      (fields : List (String × DefField ℝ)) (h : P.deformation v = some fields) (base : String)
      (hb : PlainName base) (hm : base ∈ fields.map Prod.fst ∨ mirrorName base ∈ fields.map Prod.fst)
      (hw : ∀ f, P.aircraft a = some f → ∀ w ∈ f.wings, w.uid ≠ base)

/-- **C100**: if something is wrong with the files of a project, the program raises an exception and
writes no result file. -/
theorem C100_nothing_written (W : World) (P : Project) (d : PyDict) (a b : String)
    (hn : NativeProject W P d a b) (h : Broken W P d a b) :
    ∃ e, runProject W P = .error (.raised e, []) := by
  suffices hx : ∀ x, loadProject W P ≠ .ok x by
    unfold runProject
    cases hl : loadProject W P with
    | error e => exact ⟨e, rfl⟩
    | ok x => exact absurd hl (hx x)
  intro x hx
  cases hs : loadSettings W.suffix (.dict d) with
  | error e =>
    unfold loadProject at hx
    rw [hn.settings, hs] at hx
    cases hx
  | ok s =>
    obtain ⟨k1, k2, -, -⟩ := C98_content W.suffix d hn.keys s hs
    obtain ⟨-, -, -, -, e⟩ := loadProject_native hn hs
    rw [e] at hx
    cases h1 : P.aircraft a with
    | none => rw [h1] at hx; cases hx
    | some f =>
    rw [h1] at hx
    simp only at hx
    cases h2 : loadAircraft P.root W.airfoilOk f with
    | error e => rw [h2] at hx; cases hx
    | ok ac =>
    rw [h2] at hx
    simp only at hx
    cases h3 : P.state b with
    | none => rw [h3] at hx; cases hx
    | some sd =>
    rw [h3] at hx
    simp only at hx
    cases h4 : updateFromDict W.atm Store.fresh sd with
    | error e => rw [h4] at hx; cases hx
    | ok st =>
    rw [h4] at hx
    simp only at hx
    cases h5 : loadDeformationFrom P s ac with
    | error e => rw [h5] at hx; cases hx
    | ok defs =>
    have hf := (C92_accepted_iff _ _ _).1 ⟨ac, h2⟩
    obtain ⟨-, -, hw, -⟩ := C92_content _ _ _ _ h2
    cases h with
    | settings h => exact h ((C98_accepted_iff W.suffix d hn.keys).1 ⟨s, hs⟩)
    | noAircraft h => rw [h] at h1; cases h1
    | aircraft f' hf' h =>
      rw [hf'] at h1
      cases h1
      exact h hf
    | noState h => rw [h] at h3; cases h3
    | state sd' hs' hk h =>
      rw [hs'] at h3
      cases h3
      exact h ((C41_accepted_iff W.atm sd hk).1 ⟨st, h4⟩)
    | noDeformation v hv h0 h =>
      unfold loadDeformationFrom at h5
      rw [k1 _ _ (by decide) hv] at h5
      have ht : v.truthy = true := by
        rw [← truthy_false_iff] at h0
        simpa using h0
      simp only [ht, if_true, h] at h5
      cases h5
    | deformation v hv h0 fields h base hb hm hu =>
      unfold loadDeformationFrom at h5
      rw [k1 _ _ (by decide) hv] at h5
      have ht : v.truthy = true := by
        rw [← truthy_false_iff] at h0
        simpa using h0
      have hkeys := undeformed_keys hw
      simp only [ht, if_true, h] at h5
      rw [C56_unknown_wing fields ac.undeformed (hkeys ▸ hf.names.2) base hb.1 (by
        rw [hkeys]
        intro hx
        obtain ⟨w, hw, e⟩ := List.mem_map.1 hx
        exact hu f h1 w hw e) hm hb.2.1 hb.2.2] at h5
      cases h5

/-! ## Results belong to the files -/

/-- A setting has the value given in the file or, if it is left out, the documented one. -/
def SettingIs {α : Type} (d : PyDict) (key : String) (form : α → PyVal) (default value : α) : Prop :=
  (∀ v, (key, form v) ∈ d → value = v) ∧ ((∀ v, (key, v) ∉ d) → value = default)

/-- A group of results is saved exactly if the settings say so. -/
def SaveIs (d : PyDict) (key : String) (value : Bool) : Prop :=
  (∀ g b, ("save_results", PyVal.dict g) ∈ d → g.lookup key = some (.bool b) → value = b) ∧
  ((∀ v, ("save_results", v) ∉ d) → value = false)

/-- A segment to be panelled has the content of its entry: the distances on it are those between
points of the quadrilateral with the given corners, and its span is the length of the leading edge in
the y-z plane. -/
structure SegmentReads (e : FileSegment) (s : PSegment ℝ) : Prop where
  uid : s.uid = e.uid
  numC : s.numC = e.numC
  numS : s.numS = e.numS
  shape : ∃ v, AllGiven e.vertices v ∧ s.interp = xsiInterpol v ∧
    (s.dist = fun e1 x1 e2 x2 => (segPoint v e1 x1 - segPoint v e2 x2).norm) ∧ 0 ≤ s.span ∧
    s.span ^ 2 = (v.b.y - v.a.y) ^ 2 + (v.b.z - v.a.z) ^ 2

/-- A wing to be panelled has the content of its entry. -/
structure WingReads (e : FileWing) (w : PWing ℝ) : Prop where
  uid : w.uid = e.uid
  symmetry : w.symmetry = e.symmetry
  segments : List.Forall₂ SegmentReads e.segments w.segments
  controls : w.controls = e.requested

/-- What the analysis is given belongs to the files. -/
structure ReadsFiles (W : World) (P : Project) (d : PyDict) (f : FileAircraft) (env : RunEnv)
    (ac : PAircraft ℝ) : Prop where
  wings : List.Forall₂ WingReads f.wings ac.wings
  refs : env.refs = ⟨f.refs.gcenter, f.refs.rcenter, f.refs.area, f.refs.span, f.refs.chord⟩
  panelsC : SettingIs d "vlm_autopanels_c" PyVal.int 4 env.autoC
  panelsS : SettingIs d "vlm_autopanels_s" PyVal.int 4 env.autoS
  rotate : SettingIs d "_do_normal_rotations" PyVal.bool true env.doRot
  epsilon : ∃ x : ℚ, env.eps = x ∧
    SettingIs d "_epsilon" (fun x => PyVal.float (.fin x)) (1 / 1000000) x
  saveGlobal : SaveIs d "global" env.saveGlobal
  savePanelwise : SaveIs d "panelwise" env.savePanelwise
  saveMatrix : SaveIs d "matrix_system" env.saveMatrix
  saveAero : SaveIs d "aeroperformance" env.saveAero
  base : env.base = P.base
  native : env.cpacsAircraft = false ∧ env.cpacsState = false
  solver : env.dgesv = W.dgesv
  geometry : ∀ (m : ℕ) (w : FileWing), f.wings[m]? = some w → ∀ (k : ℕ) (s : FileSegment),
    w.segments[k]? = some s → AllGiven s.vertices (env.lat.geo m k).vertices ∧
      (env.lat.geo m k).symmetry = w.symmetry ∧
      ∃ inner outer, AirfoilAt P.root s.airfoilInner inner ∧ AirfoilAt P.root s.airfoilOuter outer ∧
        ∀ eta xsi, env.lat.camber m k eta xsi = W.camber inner outer eta xsi
  deflection : ∀ w ∈ f.wings, ∀ c ∈ w.controls, ∃ x,
    c.data.deflection = .num (.fin x) ∧ (env.lat.deflection w.uid c.uid).1 = some x ∧
    (w.symmetry ≠ 0 → c.data.deflectionMirror = .none →
      (env.lat.deflection w.uid c.uid).2 = some x) ∧
    ∀ y, c.data.deflectionMirror = .num (.fin y) → (env.lat.deflection w.uid c.uid).2 = some y
  undeformed : IfGiven d "deformation" PyVal.IsEmpty → ∀ m k,
    (env.lat.geo m k).defField = none ∧ (env.lat.geo m k).defFieldMirror = none
  deformed : ∀ v fields, ("deformation", v) ∈ d → ¬ v.IsEmpty → P.deformation v = some fields →
    DeformationOk P d f → ∀ (m : ℕ) (w : FileWing), f.wings[m]? = some w → ∀ k,
      (env.lat.geo m k).defField = fields.lookup w.uid ∧
      (env.lat.geo m k).defFieldMirror = fields.lookup (mirrorName w.uid)

theorem wingReads_of_load {root : String} {airfoilOk : String → Bool} {e : FileWing} {w : LoadedWing}
    (hl : loadWing root airfoilOk e = .ok w) : WingReads e w.toP := by
  have hwf := (loadWing_from hl).1
  refine ⟨hwf.uid, hwf.symmetry, ?_, hwf.controls_toP⟩
  have hsegs := loadedWing_spans hl
  show List.Forall₂ SegmentReads e.segments (w.segments.map LoadedSegment.toP)
  rw [List.forall₂_map_right_iff]
  refine (forall₂_mem_imp hwf.segments.flip ?_).flip
  intro c hm a hf
  exact ⟨hf.uid, hf.numC, hf.numS, c.gen.vertices, hf.vertices, rfl, rfl, hsegs c hm⟩

theorem forall₂_get' {α β : Type*} {R : α → β → Prop} {l : List α} {l' : List β}
    (h : List.Forall₂ R l l') {i : ℕ} {x : α} (hx : l[i]? = some x) :
    ∃ y, l'[i]? = some y ∧ R x y := by
  obtain ⟨y, h1, h2⟩ := forall₂_get h.flip hx
  exact ⟨y, h1, h2⟩

theorem find_uid {α : Type*} {uid : α → String} {l : List α} (hn : (l.map uid).Nodup) {x : α}
    (hx : x ∈ l) : (l.find? fun y => uid y == uid x) = some x := by
  induction l with
  | nil => cases hx
  | cons a l ih =>
    rw [List.map_cons, List.nodup_cons] at hn
    rw [List.find?_cons]
    rcases List.mem_cons.1 hx with rfl | hx
    · simp
    · have : uid a ≠ uid x := fun e => hn.1 (e ▸ List.mem_map_of_mem hx)
      rw [beq_eq_false_iff_ne.2 this]
      exact ih hn.2 hx

theorem lookup_map_uid {α β : Type*} {uid : α → String} (g : α → β) (hg : ∀ x y, uid x = uid y → g x = g y)
    {l : List α} {x : α} (hx : x ∈ l) : (l.map fun y => (uid y, g y)).lookup (uid x) = some (g x) := by
  induction l with
  | nil => cases hx
  | cons a l ih =>
    rw [List.map_cons, List.lookup_cons]
    by_cases e : uid x = uid a
    · rw [beq_iff_eq.2 e]
      simp only
      rw [hg a x e.symm]
    · rw [beq_eq_false_iff_ne.2 e]
      rcases List.mem_cons.1 hx with rfl | hx
      · exact absurd rfl e
      · exact ih hx

theorem undeformed_lookup {ac : LoadedAircraft} {w : LoadedWing} (hw : w ∈ ac.wings) :
    ac.undeformed.lookup w.uid = some ⟨none, none⟩ :=
  lookup_map_uid (uid := LoadedWing.uid) (fun _ => (⟨none, none⟩ : DefWing (DefField ℝ)))
    (fun _ _ _ => rfl) hw

theorem deformed_lookup (fields : List (String × DefField ℝ)) {ac : LoadedAircraft} {w : LoadedWing}
    (hw : w ∈ ac.wings) : (deformed fields ac.undeformed).lookup w.uid =
      some ⟨fields.lookup w.uid, fields.lookup (mirrorName w.uid)⟩ := by
  have e : deformed fields ac.undeformed = ac.wings.map fun w =>
      (w.uid, (⟨fields.lookup w.uid, fields.lookup (mirrorName w.uid)⟩ : DefWing (DefField ℝ))) := by
    unfold deformed LoadedAircraft.undeformed
    rw [List.map_map]
    apply List.map_congr_left
    intro w _
    simp
  rw [e]
  exact lookup_map_uid (uid := LoadedWing.uid)
    (fun w => (⟨fields.lookup w.uid, fields.lookup (mirrorName w.uid)⟩ : DefWing (DefField ℝ)))
    (fun x y h => by simp only [h]) hw

theorem setting_int {s : SettingsObj} {d : PyDict} {key : String} {n : ℤ}
    (hg : ∀ v, (key, v) ∈ d → s.settings.lookup key = some v)
    (h0 : (∀ v, (key, v) ∉ d) → s.settings.lookup key = some (.int n)) :
    SettingIs d key PyVal.int n (s.int key) := by
  unfold SettingsObj.int
  refine ⟨fun v hv => ?_, fun h => ?_⟩
  · rw [hg _ hv]
  · rw [h0 h]

theorem setting_save {s : SettingsObj} {d : PyDict} {key : String}
    (hg : ∀ v, ("save_results", v) ∈ d → s.settings.lookup "save_results" = some v)
    (h0 : (∀ v, ("save_results", v) ∉ d) → s.settings.lookup "save_results" =
      some (.dict [("global", .bool false), ("panelwise", .bool false),
      ("aeroperformance", .bool false), ("matrix_system", .bool false)])) :
    SaveIs d key (s.saveFlag key) := by
  unfold SettingsObj.saveFlag
  refine ⟨fun g b hv hb => ?_, fun h => ?_⟩
  · rw [hg _ hv]
    simp only [hb]
    rfl
  · rw [h0 h]
    simp only [List.lookup]
    cases key == "global" <;> cases key == "panelwise" <;> cases key == "aeroperformance" <;>
      cases key == "matrix_system" <;> rfl

/-- What is loaded belongs to the files (without the two flags for CPACS). -/
theorem reads_of_loaded {W : World} {P : Project} {d : PyDict} (hk : (d.map Prod.fst).Nodup)
    {s : SettingsObj} (hs : loadSettings W.suffix (.dict d) = .ok s) {f : FileAircraft}
    {ac : LoadedAircraft} (h2 : loadAircraft P.root W.airfoilOk f = .ok ac)
    {defs : ODict (DefWing (DefField ℝ))} (h5 : loadDeformationFrom P s ac = .ok defs) (cp : Bool)
    (st : FlightSt ℝ) :
    ReadsFiles W P d f { (⟨s, cp, ac, st, defs⟩ : Loaded).env W P with
      cpacsAircraft := false
      cpacsState := false } ac.toP := by
  obtain ⟨k1, k2, -, -⟩ := C98_content W.suffix d hk s hs
  have hok := (C92_accepted_iff _ _ _).1 ⟨ac, h2⟩
  have hset := (C98_accepted_iff W.suffix d hk).1 ⟨s, hs⟩
  obtain ⟨-, hrefs, hw, -⟩ := C92_content _ _ _ _ h2
  have hload : List.Forall₂ (fun e w => loadWing P.root W.airfoilOk e = .ok w) f.wings ac.wings := by
    unfold loadAircraft at h2
    cases h1 : checkNames [] (f.wings.map (·.uid)) with
    | error e => simp [h1] at h2
    | ok u =>
    simp only [h1] at h2
    split_ifs at h2 with href
    cases h3 : mapE (loadWing P.root W.airfoilOk) f.wings with
    | error e => simp [h3] at h2
    | ok ws =>
    simp only [h3, Except.ok.injEq] at h2
    subst h2
    exact mapE_ok h3
  have hnames : (ac.wings.map (·.uid)).Nodup := by
    have := undeformed_keys hw
    have e1 : ac.undeformed.keys = ac.wings.map (·.uid) := by
      unfold LoadedAircraft.undeformed ODict.keys
      rw [List.map_map]
      rfl
    rw [← e1, this]
    exact hok.names.2
  constructor
  case wings =>
    show List.Forall₂ WingReads f.wings (ac.wings.map LoadedWing.toP)
    rw [List.forall₂_map_right_iff]
    exact hload.imp fun _ _ h => wingReads_of_load h
  case refs =>
    show ac.refs.toRefs = _
    rw [hrefs]
    rfl
  case panelsC =>
    exact setting_int (fun v hv => k1 _ v (by decide) hv)
      (k2 ("vlm_autopanels_c", .int 4) (by simp [settingsLeftOut]))
  case panelsS =>
    exact setting_int (fun v hv => k1 _ v (by decide) hv)
      (k2 ("vlm_autopanels_s", .int 4) (by simp [settingsLeftOut]))
  case rotate =>
    show SettingIs d _ _ _ (s.flag _)
    unfold SettingsObj.flag
    refine ⟨fun v hv => ?_, fun h => ?_⟩
    · rw [k1 _ _ (by decide) hv]
      rfl
    · rw [k2 ("_do_normal_rotations", .bool true) (by simp [settingsLeftOut]) h]
      rfl
  case epsilon =>
    show ∃ x : ℚ, s.epsilon = x ∧ _
    unfold SettingsObj.epsilon
    by_cases hg : ∃ v, ("_epsilon", v) ∈ d
    · obtain ⟨v, hv⟩ := hg
      obtain ⟨x, rfl, -⟩ := hset.epsilon v hv
      have hl := k1 _ _ (by decide) hv
      refine ⟨x, by rw [hl], fun y hy => ?_, fun h => absurd hv (h _)⟩
      have hl' := k1 _ _ (by decide) hy
      rw [hl] at hl'
      cases hl'
      rfl
    · push Not at hg
      rw [k2 ("_epsilon", .float (.fin (1 / 1000000))) (by simp [settingsLeftOut]) hg]
      exact ⟨_, rfl, fun y hy => absurd hy (hg _), fun _ => rfl⟩
  case saveGlobal =>
    exact setting_save (fun v hv => k1 _ v (by decide) hv)
      (k2 ("save_results", _) (by simp [settingsLeftOut]))
  case savePanelwise =>
    exact setting_save (fun v hv => k1 _ v (by decide) hv)
      (k2 ("save_results", _) (by simp [settingsLeftOut]))
  case saveMatrix =>
    exact setting_save (fun v hv => k1 _ v (by decide) hv)
      (k2 ("save_results", _) (by simp [settingsLeftOut]))
  case saveAero =>
    exact setting_save (fun v hv => k1 _ v (by decide) hv)
      (k2 ("save_results", _) (by simp [settingsLeftOut]))
  case base => rfl
  case native => exact ⟨rfl, rfl⟩
  case solver => rfl
  case geometry =>
    intro m w hm k sg hk
    obtain ⟨w0, hm0, hf⟩ := forall₂_get' hw hm
    obtain ⟨s0, hk0, hsf⟩ := forall₂_get' hf.segments hk
    have hgeo : (ac.lattice W defs).geo m k = w0.geo defs k := by
      unfold LoadedAircraft.lattice
      simp only [hm0]
    have hcam : ∀ eta xsi, (ac.lattice W defs).camber m k eta xsi =
        W.camber s0.airfoilInner s0.airfoilOuter eta xsi := by
      intro eta xsi
      unfold LoadedAircraft.lattice
      simp only [hm0, Option.bind_some, hk0]
    refine ⟨?_, ?_, _, _, hsf.inner, hsf.outer, hcam⟩
    · show AllGiven _ ((ac.lattice W defs).geo m k).vertices
      rw [hgeo]
      unfold LoadedWing.geo
      simp only [hk0, Option.map_some, Option.getD_some]
      exact hsf.vertices
    · show ((ac.lattice W defs).geo m k).symmetry = _
      rw [hgeo]
      exact hf.symmetry
  case deflection =>
    intro w hwm c hc
    obtain ⟨w0, hw0, hf⟩ := forall₂_mem_left hw hwm
    obtain ⟨c0, hc0, e1, e2⟩ := forall₂_mem_left hf.controls hc
    have hcn : (w0.controls.map (·.uid)).Nodup := by
      have e : w0.controls.map (·.uid) = w.controls.map (·.uid) := by
        have := hf.controls
        generalize w.controls = l1 at this
        generalize w0.controls = l2 at this
        induction this with
        | nil => rfl
        | cons h _ ih => rw [List.map_cons, List.map_cons, ih, h.1]
      rw [e]
      exact (hok.wings w hwm).controlNames.2
    have hdef : (ac.lattice W defs).deflection w.uid c.uid =
        (c0.data.deflection.angle, c0.data.deflectionMirror.angle) := by
      show ac.deflection w.uid c.uid = _
      unfold LoadedAircraft.deflection
      rw [← hf.uid, ← e1, find_uid hnames hw0]
      simp only
      rw [find_uid hcn hc0]
    obtain ⟨x, hx, -⟩ := ((hok.wings w hwm).controls c hc).2.deflection
    refine ⟨x, hx, ?_, ?_, ?_⟩
    · show ((ac.lattice W defs).deflection w.uid c.uid).1 = _
      rw [hdef, e2]
      show c.data.deflection.angle = _
      rw [hx]
      rfl
    · intro hsym hmir
      show ((ac.lattice W defs).deflection w.uid c.uid).2 = _
      rw [hdef, e2]
      simp only [ControlDef.completed]
      rw [if_pos ⟨hmir, hsym⟩, hx]
      rfl
    · intro y hy
      show ((ac.lattice W defs).deflection w.uid c.uid).2 = _
      rw [hdef, e2]
      simp only [ControlDef.completed]
      rw [if_neg (by rw [hy]; simp), hy]
      rfl
  case undeformed =>
    intro hgiven m k
    have hdefs : defs = ac.undeformed := by
      unfold loadDeformationFrom at h5
      by_cases hg : ∃ v, ("deformation", v) ∈ d
      · obtain ⟨v, hv⟩ := hg
        rw [k1 _ _ (by decide) hv] at h5
        simp only [(truthy_false_iff v).2 (hgiven v hv), Bool.false_eq_true, if_false] at h5
        cases h5
        rfl
      · push Not at hg
        rw [k2 ("deformation", .none) (by simp [settingsLeftOut]) hg] at h5
        cases h5
        rfl
    show ((ac.lattice W defs).geo m k).defField = _ ∧ ((ac.lattice W defs).geo m k).defFieldMirror = _
    unfold LoadedAircraft.lattice
    simp only
    cases hm : ac.wings[m]? with
    | none => exact ⟨rfl, rfl⟩
    | some w =>
      simp only [LoadedWing.geo, hdefs]
      have hl : ac.undeformed.lookup w.uid = some ⟨none, none⟩ :=
        undeformed_lookup (List.mem_of_getElem? hm)
      rw [hl]
      exact ⟨rfl, rfl⟩
  case deformed =>
    intro v fields hv h0 hp hdo m w hm k
    obtain ⟨w0, hm0, hf⟩ := forall₂_get' hw hm
    have hkeys := undeformed_keys hw
    have hmem : ∀ w, w ∈ ac.undeformed.keys ↔ ∃ x ∈ f.wings, x.uid = w := by
      intro w; rw [hkeys, List.mem_map]
    have hdefs : defs = deformed fields ac.undeformed := by
      rcases hdo v hv with he | ⟨fields', hp', q1, q2, q3⟩
      · exact absurd he h0
      · rw [hp] at hp'
        cases hp'
        unfold loadDeformationFrom at h5
        rw [k1 _ _ (by decide) hv] at h5
        have ht : v.truthy = true := by
          rw [← truthy_false_iff] at h0
          simpa using h0
        simp only [ht, if_true, hp] at h5
        rw [C56_fields_partial fields ac.undeformed (hkeys ▸ hok.names.2) (by
          intro w hwk
          obtain ⟨x, hx, rfl⟩ := (hmem w).1 hwk
          exact q1 x hx) q2 (by
          intro e he hu
          obtain ⟨w, hw, h | h⟩ := q3 e he hu
          · exact .inl ((hmem _).2 ⟨w, hw, h.symm⟩)
          · exact .inr ⟨w.uid, (hmem _).2 ⟨w, hw, rfl⟩, h⟩)] at h5
        cases h5
        rfl
    have hgeo : (ac.lattice W defs).geo m k = w0.geo defs k := by
      unfold LoadedAircraft.lattice
      simp only [hm0]
    have hl : (deformed fields ac.undeformed).lookup w0.uid =
        some ⟨fields.lookup w0.uid, fields.lookup (mirrorName w0.uid)⟩ :=
      deformed_lookup fields (List.mem_of_getElem? hm0)
    show ((ac.lattice W defs).geo m k).defField = _ ∧ ((ac.lattice W defs).geo m k).defFieldMirror = _
    rw [hgeo]
    simp only [LoadedWing.geo, hdefs, hl, ← hf.uid, Option.bind_some]
    exact ⟨trivial, trivial⟩

/-- Loading a project gives what its files contain. -/
theorem loaded_reads {W : World} {P : Project} {d : PyDict} {a b : String}
    (hn : NativeProject W P d a b) {x : Loaded} (hx : loadProject W P = .ok x) :
    ∃ (f : FileAircraft) (sd : List (String × Arg ℝ)),
      P.aircraft a = some f ∧ P.state b = some sd ∧ SettingsFileOk W.suffix d ∧
      FileOk P.root W.airfoilOk f ∧ updateFromDict W.atm Store.fresh sd = .ok x.state ∧
      ReadsFiles W P d f (x.env W P) x.aircraft.toP := by
  cases hs : loadSettings W.suffix (.dict d) with
  | error e =>
    unfold loadProject at hx
    rw [hn.settings, hs] at hx
    cases hx
  | ok s =>
  obtain ⟨hcp, -, -, -, e⟩ := loadProject_native hn hs
  rw [e] at hx
  cases h1 : P.aircraft a with
  | none => rw [h1] at hx; cases hx
  | some f =>
  rw [h1] at hx
  simp only at hx
  cases h2 : loadAircraft P.root W.airfoilOk f with
  | error e => rw [h2] at hx; cases hx
  | ok ac =>
  rw [h2] at hx
  simp only at hx
  cases h3 : P.state b with
  | none => rw [h3] at hx; cases hx
  | some sd =>
  rw [h3] at hx
  simp only at hx
  cases h4 : updateFromDict W.atm Store.fresh sd with
  | error e => rw [h4] at hx; cases hx
  | ok st =>
  rw [h4] at hx
  simp only at hx
  cases h5 : loadDeformationFrom P s ac with
  | error e => rw [h5] at hx; cases hx
  | ok defs =>
  rw [h5] at hx
  cases hx
  refine ⟨f, sd, rfl, rfl, (C98_accepted_iff W.suffix d hn.keys).1 ⟨s, hs⟩,
    (C92_accepted_iff _ _ _).1 ⟨ac, h2⟩, h4, ?_⟩
  have e : (⟨s, false, ac, st, defs⟩ : Loaded).env W P =
      { (⟨s, false, ac, st, defs⟩ : Loaded).env W P with
        cpacsAircraft := false
        cpacsState := false } := by
    unfold Loaded.env
    simp only [hcp]
  rw [e]
  exact reads_of_loaded hn.keys hs h2 h5 false st

/-- **C101**: the results of a finished run belong to the files of the project.  The aircraft file,
the state file and the settings are well-formed; every flight state of the state file has been
analysed, in order, on the aircraft of the aircraft file, with the numbers of panels and the
tolerance of the settings, and the values returned are those of its analysis. -/
theorem C101_results_of_files (W : World) (hW : Lapack W.dgesv) (P : Project) (d : PyDict)
    (a b : String) (hn : NativeProject W P d a b) (out : RunOut) (h : runProject W P = .ok out) :
    ∃ (f : FileAircraft) (sd : List (String × Arg ℝ)) (st : FlightSt ℝ) (env : RunEnv)
      (ac ac' : PAircraft ℝ),
      P.aircraft a = some f ∧ P.state b = some sd ∧ SettingsFileOk W.suffix d ∧
      FileOk P.root W.airfoilOk f ∧ updateFromDict W.atm Store.fresh sd = .ok st ∧
      ReadsFiles W P d f env ac ∧ st.num ≠ 0 ∧ Panelled env ac ac' ∧
      ∀ i < st.num, ∃ an : Analysis, an.Of env ac' st i ∧
        ∀ c ∈ runColumns, out.value c.1 i = some (c.2 an) := by
  unfold runProject at h
  cases hx : loadProject W P with
  | error e => rw [hx] at h; cases h
  | ok x =>
  rw [hx] at h
  simp only at h
  obtain ⟨f, sd, h1, h2, h3, h4, h5, h6⟩ := loaded_reads hn hx
  obtain ⟨hnum, ac', hp, han⟩ := (C93_finishes_iff _ hW _ _).1 ⟨out, h⟩
  refine ⟨f, sd, x.state, x.env W P, x.aircraft.toP, ac', h1, h2, h3, h4, h5, h6, hnum, hp, ?_⟩
  intro i hi
  obtain ⟨an, ha⟩ := han i hi
  exact ⟨an, ha, C93_values _ hW _ _ _ out h hp i hi an ha⟩

end Verif
