import Verif.Props.CpacsProject
import Verif.Props.Rerun
import Verif.Props.ProgramExamples

/-!
# Properties C115 and C116: analyses of CPACS files
-/

namespace Verif

/-! ## Specification -/

/-- A project with CPACS: the settings file `d` names the aircraft file `a`, an XML file, and the state
`b`. -/
structure CpacsProject (W : World) (P : Project) (d : PyDict) (a b : String) : Prop where
  settings : P.settings = .dict d
  keys : (d.map Prod.fst).Nodup
  aircraft : ("aircraft", PyVal.str a) ∈ d
  xml : W.suffix a = ".xml"
  state : ("state", PyVal.str b) ∈ d

/-- Two settings files differ in the aircraft only. -/
def SameButAircraft (d d' : PyDict) : Prop := ∀ k v, k ≠ "aircraft" → ((k, v) ∈ d ↔ (k, v) ∈ d')

/-- The project after its CPACS file has been converted to `f`, stored under the name `a'`, and the
settings have been changed to use that file. -/
def Project.converted (P : Project) (d' : PyDict) (a' : String) (f : FileAircraft) : Project :=
  { P with
    settings := .dict d'
    aircraft := fun n => if n = a' then some f else P.aircraft n }

/-- The flight states are usable: those of the state file, or those of the aeroperformance map. -/
def CpacsStatesOk {α : Type*} (W : World) (P : Project) (b : String) (doc : CpacsDoc α) : Prop :=
  (W.upper b ≠ "__CPACS" ∧ ∃ sd, P.state b = some sd ∧ StatesOk W.atm sd) ∨
  (W.upper b = "__CPACS" ∧ ∃ n h m al be, ApmVectors doc.apm n h m al be ∧ n ≠ 0 ∧
    ∀ z ∈ h, W.atm z ≠ none)

/-- All files of a CPACS project are in order; `ws` are the wings imported from the CPACS file. -/
structure CpacsProjectOk {α : Type*} (W : World) (alnum : Char → Bool) (A : Airfoils α) (disk : Disk α)
    (P : Project) (d : PyDict) (a b : String) (doc : CpacsDoc α) (ws : List (ImpWing ℝ)) : Prop where
  project : CpacsProject W P d a b
  settings : SettingsFileOk W.suffix d
  panelsC : IfGiven d "vlm_autopanels_c" PyVal.IsPositive
  panelsS : IfGiven d "vlm_autopanels_s" PyVal.IsPositive
  wings : importWings alnum doc.file = .ok ws
  document : CpacsDocOk alnum A P.root true (cpacsLoad alnum A P.root true disk doc).1 doc ws
  layout : ∀ w ∈ ws, WingLayoutOk w.fileEntry
  segment : ∃ w ∈ ws, w.segments ≠ []
  states : CpacsStatesOk W P b doc
  deformation : ∀ uid refs, DeformationOk P d (importedFile uid refs ws)

/-- Something is wrong with the files of a CPACS project: the settings are not well-formed, the CPACS file
is missing or cannot be used, or the flight states are missing or cannot be used. -/
inductive CpacsBroken {α : Type*} (W : World) (alnum : Char → Bool) (A : Airfoils α) (disk : Disk α)
    (docs : String → Option (CpacsDoc α)) (P : Project) (d : PyDict) (a b : String) : Prop
  | settings (h : ¬ SettingsFileOk W.suffix d)
  | noFile (h : docs a = none)
  | file (doc : CpacsDoc α) (hdoc : docs a = some doc) (h : ∀ ws, importWings alnum doc.file = .ok ws →
      ¬ CpacsDocOk alnum A P.root true (cpacsLoad alnum A P.root true disk doc).1 doc ws)
  | noState (hb : W.upper b ≠ "__CPACS") (h : P.state b = none)
  | state (hb : W.upper b ≠ "__CPACS") (sd : List (String × Arg ℝ)) (hs : P.state b = some sd)
      (hk : (sd.map Prod.fst).Nodup) (h : ¬ Acceptable W.atm sd)
  | map (hb : W.upper b = "__CPACS") (doc : CpacsDoc α) (hdoc : docs a = some doc)
      (h : ∀ n z m al be, ApmVectors doc.apm n z m al be → ∃ x ∈ z, W.atm x = none)

/-- The definition of an airfoil: the content of the file, if there is one, otherwise its name. -/
def AirfoilIs {α : Type*} (disk : Disk α) (path : String) (x : α ⊕ String) : Prop :=
  (∃ c, disk path = some c ∧ x = .inl c) ∨ (disk path = none ∧ x = .inr path)

/-- What the analysis is given belongs to the CPACS file; `disk'` are the airfoil files after the import. -/
structure ReadsCpacs {α : Type*} (alnum : Char → Bool) (A : Airfoils α) (root : String) (disk' : Disk α)
    (doc : CpacsDoc α) (env : RunEnv) : Prop where
  refs : ∃ p area length, doc.point = some p ∧ doc.area = some area ∧ doc.length = some length ∧
    env.refs = ⟨p, p, area, length, length⟩
  geometry : ∀ (m : ℕ) (w : CpacsWing ℝ), doc.file.wings[m]? = some w → ∃ segs, w.segments = some segs ∧
    ∀ (k : ℕ) (s : CpacsSegment ℝ), segs[k]? = some s →
      (env.lat.geo m k).vertices.toList.Perm (midPoints s).toList ∧
      (OrderedCorners (midPoints s) → (env.lat.geo m k).vertices = midPoints s) ∧
      (env.lat.geo m k).symmetry = w.symmetry ∧
      ∃ inner outer, AirfoilIs disk' (bladeFile alnum root s.airfoilInner) inner ∧
        AirfoilIs disk' (bladeFile alnum root s.airfoilOuter) outer ∧
        ∀ eta xsi, env.lat.camber m k eta xsi = A.camber inner outer eta xsi

/-- The flight states are those of the state file or, if the settings say so, of the CPACS file. -/
def StatesOfCpacs {α : Type*} (W : World) (P : Project) (b : String) (doc : CpacsDoc α) (st : FlightSt ℝ) :
    Prop :=
  (W.upper b ≠ "__CPACS" ∧ ∃ sd, P.state b = some sd ∧ updateFromDict W.atm Store.fresh sd = .ok st) ∨
  (W.upper b = "__CPACS" ∧ cpacsLoadState W.atm doc.apm = .ok st)

/-! ## Proof -/

theorem standardRun_cpacs (env env' : RunEnv) (h : env.cpacsState = false)
    (he : env' = { env with cpacsAircraft := env'.cpacsAircraft }) (ac : PAircraft ℝ) (st : FlightSt ℝ) :
    standardRun env' ac st = standardRun env ac st := by
  rw [he]
  generalize env'.cpacsAircraft = c
  have hstep : ∀ i x, runStep { env with cpacsAircraft := c } st i x = runStep env st i x :=
    fun _ _ => rfl
  have hloop : ∀ k i x, runLoop { env with cpacsAircraft := c } st k i x = runLoop env st k i x := by
    intro k
    induction k with
    | zero => intros; rfl
    | succ k ih =>
      intro i x
      unfold runLoop
      rw [hstep]
      cases runStep env st i x with
      | error e => rfl
      | ok y => exact ih _ _
  have hmap : ∀ t, saveCpacsMap { env with cpacsAircraft := c } t = saveCpacsMap env t := by
    intro t
    unfold saveCpacsMap
    simp [h]
  unfold standardRun
  simp only [hloop, hmap]
  rfl

section
variable {α : Type*}

/-- Loading a CPACS project, step by step. -/
theorem loadProject_cpacs {W : World} {alnum : Char → Bool} {A : Airfoils α} {disk : Disk α}
    {docs : String → Option (CpacsDoc α)} {P : Project} {d : PyDict} {a b : String}
    (hn : CpacsProject W P d a b) {s : SettingsObj} (hs : loadSettings W.suffix (.dict d) = .ok s)
    {doc : CpacsDoc α} (hdoc : docs a = some doc) {disk' : Disk α} {ac : LoadedAircraft}
    (hac : cpacsLoad alnum A P.root true disk doc = (disk', .ok ac)) :
    s.aircraftIsCpacs = true ∧
    runCpacs W alnum A disk docs P = runProject (W.withCpacs alnum A P.root disk docs a) P ∧
    loadProject (W.withCpacs alnum A P.root disk docs a) P =
      match (if W.upper b = "__CPACS" then cpacsLoadState W.atm doc.apm
        else match P.state b with
          | none => .error .ioError
          | some sd => updateFromDict W.atm Store.fresh sd) with
      | .error e => .error e
      | .ok st =>
        match loadDeformationFrom P s ac with
        | .error e => .error e
        | .ok defs => .ok ⟨s, decide (W.upper b = "__CPACS"), ac, st, defs⟩ := by
  obtain ⟨k1, -, -, k4⟩ := C98_content W.suffix d hn.keys s hs
  have h1 : s.aircraftIsCpacs = true := (k4 a hn.aircraft).2 hn.xml
  have h3 : s.name "aircraft" = a := by
    unfold SettingsObj.name
    rw [k1 _ _ (by decide) hn.aircraft]
    rfl
  have h4 : s.name "state" = b := by
    unfold SettingsObj.name
    rw [k1 _ _ (by decide) hn.state]
    rfl
  have h2 : s.stateIsCpacs W.upper = .ok (decide (W.upper b = "__CPACS")) := by
    have : (PyVal.dict s.settings).item "state" = .ok (.str b) := by
      simp only [PyVal.item, k1 _ _ (by decide : ("state" : String) ≠ "plot") hn.state]
    unfold SettingsObj.stateIsCpacs
    simp only [this, h1]
    by_cases hb : W.upper b = "__CPACS" <;> simp [hb]
  refine ⟨h1, ?_, ?_⟩
  · unfold runCpacs
    rw [hn.settings, hs]
    simp only [h1, h3, if_true]
  · have hc : (W.withCpacs alnum A P.root disk docs a).cpacsAircraft a = .ok ac := by
      unfold World.withCpacs
      simp only [hdoc, hac]
    have hst : (W.withCpacs alnum A P.root disk docs a).cpacsState a = cpacsLoadState W.atm doc.apm := by
      unfold World.withCpacs
      simp only [hdoc]
    have e1 : (W.withCpacs alnum A P.root disk docs a).suffix = W.suffix := rfl
    have e2 : (W.withCpacs alnum A P.root disk docs a).upper = W.upper := rfl
    have e3 : (W.withCpacs alnum A P.root disk docs a).atm = W.atm := rfl
    unfold loadProject loadAircraftFrom loadStateFrom
    rw [e1, e2, e3, hn.settings, hs]
    simp only [h1, h2, h3, h4, hc, hst, if_true]
    by_cases hb : W.upper b = "__CPACS"
    · simp only [hb, decide_true, if_true]
      cases cpacsLoadState W.atm doc.apm <;> rfl
    · simp only [hb, decide_false, if_false, Bool.false_eq_true]
      cases P.state b with
      | none => rfl
      | some sd =>
        simp only
        cases updateFromDict W.atm Store.fresh sd <;> rfl

theorem settings_same_aircraft {suffix : String → String} {d d' : PyDict} (hd : (d.map Prod.fst).Nodup)
    (hd' : (d'.map Prod.fst).Nodup) (hdd : SameButAircraft d d') {s s' : SettingsObj}
    (hs : loadSettings suffix (.dict d) = .ok s) (hs' : loadSettings suffix (.dict d') = .ok s') :
    ∀ kv ∈ settingsLeftOut, s'.settings.lookup kv.1 = s.settings.lookup kv.1 := by
  obtain ⟨k1, k2, -, -⟩ := C98_content suffix d hd s hs
  obtain ⟨l1, l2, -, -⟩ := C98_content suffix d' hd' s' hs'
  intro kv hkv
  have h2 : kv.1 ≠ "plot" ∧ kv.1 ≠ "aircraft" := by
    simp only [settingsLeftOut, List.mem_cons, List.not_mem_nil, or_false] at hkv
    rcases hkv with rfl | rfl | rfl | rfl | rfl | rfl | rfl <;> decide
  by_cases hx : ∃ v, (kv.1, v) ∈ d
  · obtain ⟨v, hv⟩ := hx
    rw [k1 _ v h2.1 hv, l1 _ v h2.1 ((hdd _ v h2.2).1 hv)]
  · push Not at hx
    rw [k2 kv hkv hx, l2 kv hkv fun v hv => hx v ((hdd _ v h2.2).2 hv)]

/-- **C115** (in part): an analysis of the converted aircraft is the analysis of the CPACS file: the same
results, files and exceptions, if no chord is without extent in the x-y plane and the flight states are
in a state file.  Missing: wings with a pointed tip (`C114_pointed_false`); with flight states in the
CPACS file the converted project cannot be analysed (`C115_cpacs_states_false`). -/
theorem C115_converted_partial (W : World) (alnum : Char → Bool) (hslash : alnum '/' = false)
    (A : Airfoils α) (dir : Bool) (disk disk' : Disk α) (docs : String → Option (CpacsDoc α)) (P : Project)
    (hroot : ['/'] <+: P.root.toList) (d d' : PyDict) (a a' b : String) (hn : CpacsProject W P d a b)
    (hb : W.upper b ≠ "__CPACS") (hs : SettingsFileOk W.suffix d) (hd' : (d'.map Prod.fst).Nodup)
    (hdd : SameButAircraft d d') (ha' : ("aircraft", PyVal.str a') ∈ d') (hjson : W.suffix a' = ".json")
    (hs' : SettingsFileOk W.suffix d') (doc : CpacsDoc α) (hdoc : docs a = some doc) (f : FileAircraft)
    (hf : cpacs2json alnum A P.root dir disk (some doc) = (disk', .ok f))
    (hchord : ∀ w ∈ f.wings, ∀ s ∈ w.segments, ∀ p, AllGiven s.vertices p →
      HasChord (p.d - p.a) ∧ HasChord (p.c - p.b)) :
    runCpacs W alnum A disk docs P = runCpacs W alnum A disk' docs (P.converted d' a' f) := by
  obtain ⟨s, hs⟩ := (C98_accepted_iff W.suffix d hn.keys).2 hs
  obtain ⟨s', hs'⟩ := (C98_accepted_iff W.suffix d' hd').2 hs'
  obtain ⟨ac, hac, hiff⟩ := C114_same_aircraft_iff alnum hslash A P.root hroot dir disk disk' doc f hf
  have hfa : loadAircraft P.root (A.ok disk') f = .ok ac := by
    rw [hiff]
    intro w hw x hx
    obtain ⟨ac1, hac1, rfl⟩ := cpacs2json_inv hf
    obtain ⟨l, refs, ws, hst⟩ := cpacsLoad_steps hac1
    have := cpacsLoad_of_steps (dir := true) ⟨hst.name, hst.hasWings, hst.wings, hst.airfoils, .inl rfl,
      hst.reference, hst.disk, hst.load⟩
    rw [hac] at this
    cases this
    exact hchord _ (List.mem_map.2 ⟨w, hw, rfl⟩) _ (List.mem_map.2 ⟨x, hx, rfl⟩) _ ⟨rfl, rfl, rfl, rfl⟩
  obtain ⟨c1, r1, e1⟩ := loadProject_cpacs (alnum := alnum) (A := A) (disk := disk) hn hs hdoc hac
  have hn' : NativeProject (W.withAirfoils A disk') (P.converted d' a' f) d' a' b :=
    ⟨rfl, hd', ha', hjson, (hdd _ _ (by decide)).1 hn.state, hb⟩
  obtain ⟨c2, -, -, -, e2⟩ := loadProject_native hn' hs'
  have r2 : runCpacs W alnum A disk' docs (P.converted d' a' f) =
      runProject (W.withAirfoils A disk') (P.converted d' a' f) := by
    unfold runCpacs
    show (match loadSettings W.suffix (.dict d') with
      | .error e => _
      | .ok s => _) = _
    rw [hs']
    simp only [c2, Bool.false_eq_true, if_false]
  rw [r1, r2]
  have key := settings_same_aircraft hn.keys hd' hdd hs hs'
  have hdef : loadDeformationFrom (P.converted d' a' f) s' ac = loadDeformationFrom P s ac := by
    unfold loadDeformationFrom
    rw [key ("deformation", .none) (by simp [settingsLeftOut])]
    rfl
  have e2' : loadProject (W.withAirfoils A disk') (P.converted d' a' f) =
      match P.state b with
      | none => .error .ioError
      | some sd =>
        match updateFromDict W.atm Store.fresh sd with
        | .error e => .error e
        | .ok st =>
          match loadDeformationFrom P s ac with
          | .error e => .error e
          | .ok defs => .ok ⟨s', false, ac, st, defs⟩ := by
    rw [e2]
    have e3 : (P.converted d' a' f).aircraft a' = some f := if_pos rfl
    have e4 : (P.converted d' a' f).root = P.root := rfl
    have e5 : (W.withAirfoils A disk').airfoilOk = A.ok disk' := rfl
    have e6 : (P.converted d' a' f).state = P.state := rfl
    have e7 : (W.withAirfoils A disk').atm = W.atm := rfl
    simp only [e3, e4, e5, e6, e7, hfa, hdef]
    cases P.state b <;> rfl
  simp only [hb, if_false, decide_false] at e1
  unfold runProject
  rw [e1, e2']
  cases P.state b with
  | none => rfl
  | some sd =>
  simp only
  cases updateFromDict W.atm Store.fresh sd with
  | error e => rfl
  | ok st =>
  simp only
  cases loadDeformationFrom P s ac with
  | error e => rfl
  | ok defs =>
  simp only
  refine (standardRun_cpacs _ _ rfl ?_ _ _).symm
  have hlat : ac.lattice (W.withAirfoils A disk') defs =
      ac.lattice (W.withCpacs alnum A P.root disk docs a) defs := by
    have : (W.withCpacs alnum A P.root disk docs a).camber = (W.withAirfoils A disk').camber := by
      unfold World.withCpacs World.withAirfoils
      simp only [hdoc, hac]
    unfold LoadedAircraft.lattice
    rw [this]
  have hc : s'.int "vlm_autopanels_c" = s.int "vlm_autopanels_c" := by
    unfold SettingsObj.int
    rw [key ("vlm_autopanels_c", .int 4) (by simp [settingsLeftOut])]
  have hp : s'.int "vlm_autopanels_s" = s.int "vlm_autopanels_s" := by
    unfold SettingsObj.int
    rw [key ("vlm_autopanels_s", .int 4) (by simp [settingsLeftOut])]
  have hsave : ∀ k, s'.saveFlag k = s.saveFlag k := by
    intro k
    unfold SettingsObj.saveFlag
    rw [key ("save_results", .dict [("global", .bool false), ("panelwise", .bool false),
      ("aeroperformance", .bool false), ("matrix_system", .bool false)]) (by simp [settingsLeftOut])]
  have heps : s'.epsilon = s.epsilon := by
    unfold SettingsObj.epsilon
    rw [key ("_epsilon", .float (.fin (1 / 1000000))) (by simp [settingsLeftOut])]
  have hrot : s'.flag "_do_normal_rotations" = s.flag "_do_normal_rotations" := by
    unfold SettingsObj.flag
    rw [key ("_do_normal_rotations", .bool true) (by simp [settingsLeftOut])]
  unfold Loaded.env
  simp only [hlat, heps, hrot, hsave, hc, hp]
  rfl

/-- With flight states in the CPACS file the converted project is answered by an exception (C115 fails):
the settings name no state file. -/
theorem C115_cpacs_states (W : World) (alnum : Char → Bool) (A : Airfoils α) (disk : Disk α)
    (docs : String → Option (CpacsDoc α)) (P : Project) (d' : PyDict) (a' b : String) (f : FileAircraft)
    (hd' : (d'.map Prod.fst).Nodup) (ha' : ("aircraft", PyVal.str a') ∈ d') (hjson : W.suffix a' = ".json")
    (hb' : ("state", PyVal.str b) ∈ d') (hb : W.upper b = "__CPACS") :
    ∃ e, runCpacs W alnum A disk docs (P.converted d' a' f) = .error (.raised e, []) := by
  unfold runCpacs
  have e0 : (P.converted d' a' f).settings = .dict d' := rfl
  rw [e0]
  cases hs : loadSettings W.suffix (.dict d') with
  | error e => exact ⟨e, rfl⟩
  | ok s =>
  have hc : s.aircraftIsCpacs = false := by
    obtain ⟨-, -, -, k4⟩ := C98_content W.suffix d' hd' s hs
    rw [← Bool.not_eq_true, k4 a' ha', hjson]
    decide
  simp only [hc, Bool.false_eq_true, if_false]
  unfold runProject loadProject
  have e1 : (W.withAirfoils A disk).suffix = W.suffix := rfl
  rw [e0, e1]
  have h2 : s.stateIsCpacs W.upper = .error .runtimeError :=
    (C98_state_source W.suffix W.upper d' hd' s hs a' b ha' hb').2.2.2 ⟨hb, hjson⟩
  have e2 : (W.withAirfoils A disk).upper = W.upper := rfl
  simp only [hs]
  cases loadAircraftFrom (W.withAirfoils A disk) (P.converted d' a' f) s with
  | error e => exact ⟨e, rfl⟩
  | ok ac =>
    simp only [e2, h2]
    exact ⟨_, rfl⟩

/-- **C116**: a CPACS project whose files are in order is never answered by an exception: the run
finishes, or it meets a value that is not finite. -/
theorem C116_no_exception (W : World) (hW : Lapack W.dgesv) (alnum : Char → Bool) (A : Airfoils α)
    (disk : Disk α) (docs : String → Option (CpacsDoc α)) (P : Project) (d : PyDict) (a b : String)
    (doc : CpacsDoc α) (hdoc : docs a = some doc) (ws : List (ImpWing ℝ))
    (h : CpacsProjectOk W alnum A disk P d a b doc ws) :
    (∃ out, runCpacs W alnum A disk docs P = .ok out) ∨
    ∃ files, runCpacs W alnum A disk docs P = .error (.notFinite, files) := by
  obtain ⟨s, hs⟩ := (C98_accepted_iff W.suffix d h.project.keys).2 h.settings
  obtain ⟨ac, hac⟩ := (C113_accepted_iff alnum A P.root true disk doc).2 ⟨ws, h.wings, h.document⟩
  generalize hd' : (cpacsLoad alnum A P.root true disk doc).1 = disk'
  replace hac : cpacsLoad alnum A P.root true disk doc = (disk', .ok ac) := Prod.ext hd' hac
  obtain ⟨l, refs, ws', st⟩ := cpacsLoad_steps hac
  obtain rfl : ws' = ws := by
    have := st.wings
    rw [h.wings] at this
    cases this
    rfl
  obtain ⟨-, hrun, hload⟩ := loadProject_cpacs (alnum := alnum) (A := A) (disk := disk) h.project hs hdoc hac
  obtain ⟨-, -, hw, -⟩ := C92_content _ _ _ _ st.load
  have hnames := ((C92_accepted_iff _ _ _).1 ⟨_, st.load⟩).names.2
  obtain ⟨defs, hdefs⟩ := loadDeformation_ok h.project.keys hs hnames hw (h.deformation ac.uid refs)
  have hstate : ∃ sd state, StatesOk W.atm sd ∧ updateFromDict W.atm Store.fresh sd = .ok state ∧
      (if W.upper b = "__CPACS" then cpacsLoadState W.atm doc.apm
        else match P.state b with
          | none => .error .ioError
          | some sd => updateFromDict W.atm Store.fresh sd) = .ok state := by
    rcases h.states with ⟨hb, sd, hsd, hok⟩ | ⟨hb, n, z, m, al, be, hv, hn, hz⟩
    · obtain ⟨state, he⟩ := (C41_accepted_iff W.atm sd hok.keys).2 hok.acceptable
      refine ⟨sd, state, hok, he, ?_⟩
      rw [if_neg hb, hsd]
      exact he
    · have hok : StatesOk W.atm (apmDict n z m al be) := by
        refine ⟨apmDict_nodup _ _ _ _ _, (apmDict_acceptable W.atm hv).2 hz, ?_, ?_⟩
        · intro p hp
          simp only [List.mem_cons, List.not_mem_nil, or_false] at hp
          rcases hp with rfl | rfl | rfl <;>
            exact ⟨.list (List.replicate n (.num (.fin 0))), by simp [apmDict]⟩
        · refine ⟨("rate_P", .list (List.replicate n (.num (.fin 0)))), by simp [apmDict], ?_⟩
          simp [Arg.toList, hn]
      obtain ⟨state, he⟩ := (C41_accepted_iff W.atm _ hok.keys).2 hok.acceptable
      refine ⟨_, state, hok, he, ?_⟩
      rw [if_pos hb]
      unfold cpacsLoadState
      rw [cpacsAeroDict_ok hv]
      exact he
  obtain ⟨sd, state, hok, he, hif⟩ := hstate
  rw [hif] at hload
  simp only [hdefs] at hload
  rw [hrun]
  refine no_exception_of_loaded (W := W.withCpacs alnum A P.root disk docs a) hW hload h.project.keys hs
    h.panelsC h.panelsS st.load ?_ ?_ he hok
  · intro w hw
    obtain ⟨iw, hiw, rfl⟩ := List.mem_map.1 hw
    exact h.layout _ hiw
  · obtain ⟨iw, hiw, hne⟩ := h.segment
    refine ⟨_, List.mem_map.2 ⟨iw, hiw, rfl⟩, ?_⟩
    simpa [ImpWing.fileEntry] using hne

/-- **C116**: if something is wrong with the files of a CPACS project, the program raises an exception and
writes no result file. -/
theorem C116_nothing_written (W : World) (alnum : Char → Bool) (A : Airfoils α) (disk : Disk α)
    (docs : String → Option (CpacsDoc α)) (P : Project) (d : PyDict) (a b : String)
    (hn : CpacsProject W P d a b) (h : CpacsBroken W alnum A disk docs P d a b) :
    ∃ e, runCpacs W alnum A disk docs P = .error (.raised e, []) := by
  cases hs : loadSettings W.suffix (.dict d) with
  | error e =>
    unfold runCpacs
    rw [hn.settings, hs]
    exact ⟨e, rfl⟩
  | ok s =>
  have hset := (C98_accepted_iff W.suffix d hn.keys).1 ⟨s, hs⟩
  cases hdoc : docs a with
  | none =>
    obtain ⟨k1, -, -, k4⟩ := C98_content W.suffix d hn.keys s hs
    have h1 : s.aircraftIsCpacs = true := (k4 a hn.aircraft).2 hn.xml
    have h3 : s.name "aircraft" = a := by
      unfold SettingsObj.name
      rw [k1 _ _ (by decide) hn.aircraft]
      rfl
    unfold runCpacs
    rw [hn.settings, hs]
    simp only [h1, h3, if_true]
    unfold runProject loadProject loadAircraftFrom
    have e1 : (W.withCpacs alnum A P.root disk docs a).suffix = W.suffix := rfl
    have hc : (W.withCpacs alnum A P.root disk docs a).cpacsAircraft a = .error .ioError := by
      unfold World.withCpacs
      simp only [hdoc]
    rw [e1, hn.settings, hs]
    simp only [h1, h3, if_true, hc]
    exact ⟨_, rfl⟩
  | some doc =>
  cases hl : cpacsLoad alnum A P.root true disk doc with
  | mk disk' r =>
  cases r with
  | error e =>
    obtain ⟨k1, -, -, k4⟩ := C98_content W.suffix d hn.keys s hs
    have h1 : s.aircraftIsCpacs = true := (k4 a hn.aircraft).2 hn.xml
    have h3 : s.name "aircraft" = a := by
      unfold SettingsObj.name
      rw [k1 _ _ (by decide) hn.aircraft]
      rfl
    unfold runCpacs
    rw [hn.settings, hs]
    simp only [h1, h3, if_true]
    unfold runProject loadProject loadAircraftFrom
    have e1 : (W.withCpacs alnum A P.root disk docs a).suffix = W.suffix := rfl
    have hc : (W.withCpacs alnum A P.root disk docs a).cpacsAircraft a = .error e := by
      unfold World.withCpacs
      simp only [hdoc, hl]
    rw [e1, hn.settings, hs]
    simp only [h1, h3, if_true, hc]
    exact ⟨_, rfl⟩
  | ok ac =>
  obtain ⟨-, hrun, hload⟩ := loadProject_cpacs (alnum := alnum) (A := A) (disk := disk) hn hs hdoc hl
  have key : ∀ e, (if W.upper b = "__CPACS" then cpacsLoadState W.atm doc.apm
        else match P.state b with
          | none => .error .ioError
          | some sd => updateFromDict W.atm Store.fresh sd) = .error e →
      ∃ e, runCpacs W alnum A disk docs P = .error (.raised e, []) := by
    intro e he
    rw [he] at hload
    rw [hrun]
    unfold runProject
    rw [hload]
    exact ⟨e, rfl⟩
  cases h with
  | settings h => exact absurd hset h
  | noFile h => rw [hdoc] at h; cases h
  | file doc' hdoc' h =>
    rw [hdoc] at hdoc'
    cases hdoc'
    obtain ⟨ws, h1, h2⟩ := (C113_accepted_iff alnum A P.root true disk doc).1 ⟨ac, by rw [hl]⟩
    exact absurd h2 (h ws h1)
  | noState hb h =>
    refine key .ioError ?_
    rw [if_neg hb, h]
  | state hb sd hsd hk h =>
    cases hu : updateFromDict W.atm Store.fresh sd with
    | ok st => exact absurd ((C41_accepted_iff W.atm sd hk).1 ⟨st, hu⟩) h
    | error e =>
      refine key e ?_
      rw [if_neg hb, hsd]
      exact hu
  | map hb doc' hdoc' h =>
    rw [hdoc] at hdoc'
    cases hdoc'
    cases hu : cpacsLoadState W.atm doc.apm with
    | ok st =>
      obtain ⟨n, z, m, al, be, hv, hz⟩ := (C85_cpacs_states W.atm doc.apm).1.1 ⟨st, hu⟩
      obtain ⟨x, hx, hx'⟩ := h n z m al be hv
      exact absurd hx' (hz x hx)
    | error e =>
      refine key e ?_
      rw [if_pos hb]
      exact hu

theorem profile_is (disk : Disk α) (path : String) : AirfoilIs disk path (Airfoils.profile disk path) := by
  unfold Airfoils.profile
  cases h : disk path with
  | none => exact .inr ⟨h, rfl⟩
  | some c => exact .inl ⟨c, h, rfl⟩

/-- **C117**: the results of a finished run of a CPACS project belong to its files.  The CPACS file and the
settings are well-formed; every flight state, of the state file or of the CPACS file, has been analysed, in
order, on the aircraft of the CPACS file, and the values returned are those of its analysis. -/
theorem C117_results_of_cpacs (W : World) (hW : Lapack W.dgesv) (alnum : Char → Bool) (A : Airfoils α)
    (disk : Disk α) (docs : String → Option (CpacsDoc α)) (P : Project) (d : PyDict) (a b : String)
    (hn : CpacsProject W P d a b) (out : RunOut) (h : runCpacs W alnum A disk docs P = .ok out) :
    ∃ (doc : CpacsDoc α) (disk' : Disk α) (lac : LoadedAircraft) (ws : List (ImpWing ℝ)) (refs : AcRefs)
      (st : FlightSt ℝ) (env : RunEnv) (ac ac' : PAircraft ℝ),
      docs a = some doc ∧ SettingsFileOk W.suffix d ∧
      cpacsLoad alnum A P.root true disk doc = (disk', .ok lac) ∧ importWings alnum doc.file = .ok ws ∧
      StatesOfCpacs W P b doc st ∧ ReadsCpacs alnum A P.root disk' doc env ∧
      ReadsFiles (W.withAirfoils A disk') P d (importedFile lac.uid refs ws)
        { env with
          cpacsAircraft := false
          cpacsState := false } ac ∧
      env.cpacsAircraft = true ∧ (env.cpacsState = true ↔ W.upper b = "__CPACS") ∧
      st.num ≠ 0 ∧ Panelled env ac ac' ∧
      ∀ i < st.num, ∃ an : Analysis, an.Of env ac' st i ∧
        ∀ c ∈ runColumns, out.value c.1 i = some (c.2 an) := by
  have hno : ∀ e files, runCpacs W alnum A disk docs P ≠ .error (.raised e, files) := by
    intro e files he
    rw [h] at he
    cases he
  have hb : ∀ hx : CpacsBroken W alnum A disk docs P d a b, False := by
    intro hx
    obtain ⟨e, he⟩ := C116_nothing_written W alnum A disk docs P d a b hn hx
    exact hno _ _ he
  have hset : SettingsFileOk W.suffix d := by
    by_contra hx
    exact hb (.settings hx)
  obtain ⟨s, hs⟩ := (C98_accepted_iff W.suffix d hn.keys).2 hset
  cases hdoc : docs a with
  | none => exact (hb (.noFile hdoc)).elim
  | some doc =>
  have hac : ∃ ac, (cpacsLoad alnum A P.root true disk doc).2 = .ok ac := by
    rw [C113_accepted_iff]
    by_contra hx
    push Not at hx
    exact hb (.file doc hdoc hx)
  obtain ⟨lac, hac⟩ := hac
  generalize hd' : (cpacsLoad alnum A P.root true disk doc).1 = disk'
  replace hac : cpacsLoad alnum A P.root true disk doc = (disk', .ok lac) := Prod.ext hd' hac
  obtain ⟨l, refs, ws, hst⟩ := cpacsLoad_steps hac
  obtain ⟨hcp, hrun, hload⟩ := loadProject_cpacs (alnum := alnum) (A := A) (disk := disk) hn hs hdoc hac
  rw [hrun] at h
  unfold runProject at h
  rw [hload] at h
  cases hstate : (if W.upper b = "__CPACS" then cpacsLoadState W.atm doc.apm
        else match P.state b with
          | none => .error .ioError
          | some sd => updateFromDict W.atm Store.fresh sd) with
  | error e => rw [hstate] at h; cases h
  | ok st =>
  rw [hstate] at h
  simp only at h
  cases hdef : loadDeformationFrom P s lac with
  | error e => rw [hdef] at h; cases h
  | ok defs =>
  rw [hdef] at h
  simp only at h
  generalize hx : (⟨s, decide (W.upper b = "__CPACS"), lac, st, defs⟩ : Loaded) = x at h
  have hW' : W.withCpacs alnum A P.root disk docs a =
      { W.withAirfoils A disk' with
        cpacsAircraft := (W.withCpacs alnum A P.root disk docs a).cpacsAircraft
        cpacsState := (W.withCpacs alnum A P.root disk docs a).cpacsState } := by
    unfold World.withCpacs
    simp only [hdoc, hac]
  have henv : x.env (W.withCpacs alnum A P.root disk docs a) P = x.env (W.withAirfoils A disk') P := by
    rw [hW']
    rfl
  rw [henv] at h
  obtain ⟨hnum, ac', hp, han⟩ := (C93_finishes_iff (x.env (W.withAirfoils A disk') P) hW _ _).1 ⟨out, h⟩
  have hreads := reads_of_loaded (W := W.withAirfoils A disk') (P := P) hn.keys hs hst.load hdef
    (decide (W.upper b = "__CPACS")) st
  rw [hx] at hreads
  have hlw : List.Forall₂ (WingOfCpacs alnum P.root) doc.file.wings lac.wings :=
    (C113_content _ _ _ _ _ _ _ _ hac).1.wings
  subst hx
  refine ⟨doc, disk', lac, ws, refs, st, _, _, ac', rfl, hset, hac, hst.wings, ?_, ⟨?_, ?_⟩, hreads, hcp,
    decide_eq_true_iff, hnum, hp, ?_⟩
  · by_cases hb : W.upper b = "__CPACS"
    · rw [if_pos hb] at hstate
      exact .inr ⟨hb, hstate⟩
    · rw [if_neg hb] at hstate
      cases hsd : P.state b with
      | none => rw [hsd] at hstate; cases hstate
      | some sd =>
        rw [hsd] at hstate
        exact .inl ⟨hb, sd, hsd, hstate⟩
  · obtain ⟨r1, r2, r3, r4, r5⟩ := cpacsRefs_ok hst.reference
    refine ⟨refs.gcenter, refs.area, refs.span, r4, r1, r2, ?_⟩
    have e1 : refs.rcenter = refs.gcenter := by rw [r5] at r4; exact Option.some.inj r4
    have e2 : refs.chord = refs.span := by rw [r3] at r2; exact Option.some.inj r2
    have := hreads.refs
    dsimp only [importedFile] at this
    rw [e1, e2] at this
    exact this
  · intro m w hm
    obtain ⟨l, hl, hwl⟩ := forall₂_get' hlw hm
    obtain ⟨segs, hsegs, hss⟩ := hwl.segments
    refine ⟨segs, hsegs, ?_⟩
    intro k sg hk
    obtain ⟨ls, hls, hs'⟩ := forall₂_get' hss hk
    have hgeo : (lac.lattice (W.withAirfoils A disk') defs).geo m k = l.geo defs k := by
      unfold LoadedAircraft.lattice
      simp only [hl]
    have hv : ((lac.lattice (W.withAirfoils A disk') defs).geo m k).vertices = ls.gen.vertices := by
      rw [hgeo]
      unfold LoadedWing.geo
      simp only [hls, Option.map_some, Option.getD_some]
    refine ⟨?_, ?_, ?_, _, _, profile_is _ _, profile_is _ _, ?_⟩
    · show ((lac.lattice (W.withAirfoils A disk') defs).geo m k).vertices.toList.Perm _
      rw [hv]
      exact hs'.corners
    · intro ho
      show ((lac.lattice (W.withAirfoils A disk') defs).geo m k).vertices = _
      rw [hv]
      exact hs'.ordered ho
    · show ((lac.lattice (W.withAirfoils A disk') defs).geo m k).symmetry = _
      rw [hgeo]
      exact hwl.symmetry
    · intro eta xsi
      rw [← hs'.inner, ← hs'.outer]
      show (lac.lattice (W.withAirfoils A disk') defs).camber m k eta xsi = _
      unfold LoadedAircraft.lattice
      simp only [hl, Option.bind_some, hls]
      rfl
  · intro i hi
    obtain ⟨an, ha⟩ := han i hi
    exact ⟨an, ha, C93_values _ hW _ _ _ out h hp i hi an ha⟩

end

/-! ## Examples -/

/-- Surroundings with CPACS files. -/
noncomputable def cpacsWorld : World where
  suffix := fun a => if a = "plane.xml" then ".xml" else if a = "plane.json" then ".json" else ""
  upper := fun a => if a = "__cpacs" then "__CPACS" else a
  airfoilOk := fun _ => true
  atm := fun _ => some (.fin 1, .fin 300)
  dgesv := exactDgesv
  camber := fun _ _ _ _ => 0
  cpacsAircraft := fun _ => .error .ioError
  cpacsState := fun _ => .error .ioError

/-- Settings for the given aircraft and state. -/
def cpacsSettings (a b : String) : PyDict := [("aircraft", .str a), ("state", .str b)]

/-- A project with a CPACS file. -/
noncomputable def cpacsExample (b : String) : Project where
  base := "example"
  root := "/home"
  settings := .dict (cpacsSettings "plane.xml" b)
  aircraft := fun _ => none
  state := fun b => if b = "cruise.json" then some (oneState 10 1 5 0) else none
  deformation := fun _ => none

theorem cpacsExample_project (b : String) :
    CpacsProject cpacsWorld (cpacsExample b) (cpacsSettings "plane.xml" b) "plane.xml" b :=
  ⟨rfl, by simp [cpacsSettings], by simp [cpacsSettings], by simp [cpacsWorld], by simp [cpacsSettings]⟩

theorem cpacsSettings_ok {a : String} (b : String) (ha : cpacsWorld.suffix a = ".json" ∨
    cpacsWorld.suffix a = ".xml") : SettingsFileOk cpacsWorld.suffix (cpacsSettings a b) :=
  ⟨⟨a, by simp [cpacsSettings], ha⟩, ⟨b, by simp [cpacsSettings]⟩,
    by simp [IfGiven, cpacsSettings], by simp [IfGiven, cpacsSettings],
    by simp [IfGiven, cpacsSettings], by simp [IfGiven, cpacsSettings],
    by simp [IfGiven, cpacsSettings], by simp [IfGiven, cpacsSettings],
    by simp [IfGiven, cpacsSettings]⟩

/-- Example for C115: the tapered wing, converted to JSON. -/
example : ∃ disk' f, cpacs2json asciiAlnum anyAirfoils "/home" true (fun _ => none)
      (some (taperDoc (1 / 2))) = (disk', .ok f) ∧
    runCpacs cpacsWorld asciiAlnum anyAirfoils (fun _ => none) (fun _ => some (taperDoc (1 / 2)))
        (cpacsExample "cruise.json") =
      runCpacs cpacsWorld asciiAlnum anyAirfoils disk' (fun _ => some (taperDoc (1 / 2)))
        ((cpacsExample "cruise.json").converted (cpacsSettings "plane.json" "cruise.json") "plane.json" f) := by
  obtain ⟨disk', ac, h⟩ := taper_loads (tip := 1 / 2) (by norm_num) "/home"
  have hf : cpacs2json asciiAlnum anyAirfoils "/home" true (fun _ => none) (some (taperDoc (1 / 2))) =
      (disk', .ok (saveAircraft ac)) := by
    unfold cpacs2json
    simp only [h]
  refine ⟨disk', _, hf, C115_converted_partial cpacsWorld _ (by decide) _ true _ _ _ _ (by decide)
    (cpacsSettings "plane.xml" "cruise.json") _ "plane.xml" _ "cruise.json" (cpacsExample_project _)
    (by simp [cpacsWorld]) (cpacsSettings_ok _ (.inr (by simp [cpacsWorld]))) (by simp [cpacsSettings]) ?_
    (by simp [cpacsSettings]) (by simp [cpacsWorld]) (cpacsSettings_ok _ (.inl (by simp [cpacsWorld])))
    _ rfl _ hf ?_⟩
  · intro k v hk
    simp [cpacsSettings, hk]
  · intro w hw s hs p hp
    obtain ⟨w', hw', rfl⟩ := List.mem_map.1 hw
    obtain ⟨s', hs', rfl⟩ := List.mem_map.1 hs
    have hv := (taper_vertices (by norm_num) h).1 w' hw' s' hs'
    have e : p = s'.gen.vertices := noSpan_given hp ⟨rfl, rfl, rfl, rfl⟩
    rw [e, hv]
    exact ⟨.inl (by simp), .inl (by simp)⟩

/-- Four vectors with one entry. -/
def oneApm : String → Option (List (Flt ℝ)) := fun p =>
  if p ∈ ["altitude", "machNumber", "angleOfAttack", "angleOfSideslip"] then some [.fin 0] else none

/-- Example for C116: the tapered wing, with the flight states of the CPACS file. -/
theorem cpacsExample_ok : CpacsProjectOk cpacsWorld asciiAlnum anyAirfoils (fun _ => none)
    (cpacsExample "__cpacs") (cpacsSettings "plane.xml" "__cpacs") "plane.xml" "__cpacs"
    { taperDoc (1 / 2) with apm := oneApm }
    [⟨"main", 2, [("inner", ⟨⟨⟨0, 0, 0⟩, ⟨0, 2, 0⟩, ⟨1 / 2, 2, 0⟩, ⟨1, 0, 0⟩⟩,
      "airfoils/blade.NACA0010", "airfoils/blade.NACA0010"⟩)], []⟩] where
  project := cpacsExample_project _
  settings := cpacsSettings_ok _ (.inr (by simp [cpacsWorld]))
  panelsC := by simp [IfGiven, cpacsSettings]
  panelsS := by simp [IfGiven, cpacsSettings]
  wings := taper_import (by norm_num)
  document := by
    refine ⟨by simp [taperDoc], rfl, ⟨_, rfl, .inl rfl⟩, by simp [taperDoc], ⟨2, rfl, by norm_num⟩,
      ⟨1, rfl, by norm_num⟩, ?_, ?_⟩
    · intro _ _ _ _ _ _
      exact ⟨anyAirfoils_ok _ _, anyAirfoils_ok _ _⟩
    · intro w hw _
      rw [List.mem_singleton] at hw
      subst hw
      exact ⟨_, List.mem_singleton.2 rfl, by simp [NoSpan]⟩
  layout := by
    intro w hw
    rw [List.mem_singleton] at hw
    subst hw
    refine ⟨?_, ?_, ?_⟩
    · intro u x hx y hy hxy
      simp only [FileWing.requested, ImpWing.fileEntry, List.map_nil, List.not_mem_nil, false_and, exists_false,
        Set.mem_union, Set.mem_insert_iff, Set.mem_singleton_iff, Set.mem_ofPred_eq, or_false] at hx hy
      rcases hx with rfl | rfl <;> rcases hy with rfl | rfl <;>
      first | (norm_num at hxy; done) | norm_num
    · simp only [FileWing.requested, ImpWing.fileEntry, List.map_nil]
      exact ⟨by simp, by simp, by simp, by simp, by simp, by simp, by simp⟩
    · intro h
      exact absurd rfl h
  segment := ⟨_, List.mem_singleton.2 rfl, by simp⟩
  states := .inr ⟨by simp [cpacsWorld], 1, _, _, _, _,
    ⟨rfl, rfl, rfl, rfl, rfl, rfl, rfl, rfl⟩, by norm_num, by simp [cpacsWorld]⟩
  deformation := by simp [DeformationOk, IfGiven, cpacsSettings]

example : (∃ out, runCpacs cpacsWorld asciiAlnum anyAirfoils (fun _ => none)
      (fun _ => some { taperDoc (1 / 2) with apm := oneApm }) (cpacsExample "__cpacs") = .ok out) ∨
    ∃ files, runCpacs cpacsWorld asciiAlnum anyAirfoils (fun _ => none)
      (fun _ => some { taperDoc (1 / 2) with apm := oneApm }) (cpacsExample "__cpacs") =
        .error (.notFinite, files) :=
  C116_no_exception _ exactDgesv_lapack _ _ _ _ _ _ _ _ _ rfl _ cpacsExample_ok

/-- **C115** fails if the flight states are in the CPACS file: the CPACS project is not answered by an
exception, the converted one is. -/
theorem C115_cpacs_states_false : ∃ disk' f, cpacs2json asciiAlnum anyAirfoils "/home" true (fun _ => none)
      (some { taperDoc (1 / 2) with apm := oneApm }) = (disk', .ok f) ∧
    (∀ e files, runCpacs cpacsWorld asciiAlnum anyAirfoils (fun _ => none)
      (fun _ => some { taperDoc (1 / 2) with apm := oneApm }) (cpacsExample "__cpacs") ≠
        .error (.raised e, files)) ∧
    ∃ e, runCpacs cpacsWorld asciiAlnum anyAirfoils disk'
      (fun _ => some { taperDoc (1 / 2) with apm := oneApm })
      ((cpacsExample "__cpacs").converted (cpacsSettings "plane.json" "__cpacs") "plane.json" f) =
        .error (.raised e, []) := by
  obtain ⟨ac, h⟩ := (C113_accepted_iff asciiAlnum anyAirfoils "/home" true (fun _ => none)
    { taperDoc (1 / 2) with apm := oneApm }).2 ⟨_, cpacsExample_ok.wings, cpacsExample_ok.document⟩
  generalize hd' : (cpacsLoad asciiAlnum anyAirfoils "/home" true (fun _ => none)
    { taperDoc (1 / 2) with apm := oneApm }).1 = disk'
  replace h := Prod.ext (x := cpacsLoad asciiAlnum anyAirfoils "/home" true (fun _ => none)
    { taperDoc (1 / 2) with apm := oneApm }) (y := (disk', .ok ac)) hd' h
  refine ⟨disk', saveAircraft ac, ?_, ?_, C115_cpacs_states _ _ _ _ _ _ _ _ "__cpacs" _
    (by simp [cpacsSettings]) (by simp [cpacsSettings]) (by simp [cpacsWorld]) (by simp [cpacsSettings])
    (by simp [cpacsWorld])⟩
  · unfold cpacs2json
    simp only [h]
  · intro e files he
    rcases C116_no_exception cpacsWorld exactDgesv_lapack asciiAlnum anyAirfoils (fun _ => none)
      (fun _ => some { taperDoc (1 / 2) with apm := oneApm }) _ _ _ _ _ rfl _ cpacsExample_ok with
      ⟨out, h'⟩ | ⟨fs, h'⟩ <;> rw [h'] at he <;> cases he

/-- Example for C116: without a map of flight states nothing is written. -/
example : ∃ e, runCpacs cpacsWorld asciiAlnum anyAirfoils (fun _ => none)
    (fun _ => some (taperDoc (1 / 2))) (cpacsExample "__cpacs") = .error (.raised e, []) :=
  C116_nothing_written _ _ _ _ _ _ _ _ _ (cpacsExample_project _) (.map (by simp [cpacsWorld]) _ rfl
    fun _ _ _ _ _ h => by have := h.altitude; simp [taperDoc] at this)

/-! ## A CPACS project whose run finishes -/

/-- A flat rectangular wing. -/
noncomputable def rectSegment : CpacsSegment ℝ :=
  ⟨some "S", fun eta xsi => ⟨xsi * (3 / 50), eta * (2 / 25), 0⟩,
    fun eta xsi => ⟨xsi * (3 / 50), eta * (2 / 25), 0⟩, "x", "x"⟩

/-- A file with that wing. -/
noncomputable def rectDoc : CpacsDoc ℕ where
  model := some (some "my plane")
  hasWings := true
  file := ⟨[⟨some "W", 2, some [rectSegment], []⟩], [], fun _ _ _ => none⟩
  airfoils := some [⟨some "x", 1⟩]
  point := some 0
  area := some 2
  length := some 1
  apm := fun _ => none

theorem rect_import : importWings asciiAlnum rectDoc.file =
    .ok [⟨"W", 2, [("S", ⟨flatGeo.vertices, "airfoils/blade.x", "airfoils/blade.x"⟩)], []⟩] := by
  have n1 : parseStr asciiAlnum (.str "W") "-_" = .ok "W" := by decide
  have n2 : parseStr asciiAlnum (.str "S") "-_" = .ok "S" := by decide
  have n3 : importAirfoil asciiAlnum "x" = .ok "airfoils/blade.x" := by decide
  have e : midPoints rectSegment = flatGeo.vertices := by
    simp [midPoints, rectSegment, flatGeo]
  have ho : OrderedCorners (midPoints rectSegment) := by
    rw [e]
    refine ⟨.inl ?_, .inl ?_, ?_, ?_⟩ <;> norm_num [flatGeo]
  have hv : reorderCorners (⟨midPoint (rectSegment.lower 0 0) (rectSegment.upper 0 0),
      midPoint (rectSegment.lower 1 0) (rectSegment.upper 1 0),
      midPoint (rectSegment.lower 1 1) (rectSegment.upper 1 1),
      midPoint (rectSegment.lower 0 1) (rectSegment.upper 0 1)⟩ : Corners (V3 ℝ)) = flatGeo.vertices := by
    rw [← e]
    exact C62_ordered_kept _ ho
  unfold importWings importWingsFrom importWing importSegments importSegment
  simp only [rectDoc, n1, hv]
  simp only [rectSegment, n2, n3]
  norm_num [importSegments, importSections, assignDeflections, mapE, checkControls, ODict.addNew, ODict.has,
    importWingsFrom, flatGeo]
  rw [if_neg (by decide), if_neg (by decide)]

/-- Settings: one panel. -/
def rectSettings : PyDict := [("aircraft", .str "plane.xml"), ("state", .str "cruise.json"),
  ("vlm_autopanels_c", .int 1), ("vlm_autopanels_s", .int 1)]

/-- The project. -/
noncomputable def rectProject : Project := { cpacsExample "cruise.json" with settings := .dict rectSettings }

theorem rectProject_ok : CpacsProjectOk cpacsWorld asciiAlnum anyAirfoils (fun _ => none)
    rectProject rectSettings "plane.xml" "cruise.json" rectDoc
    [⟨"W", 2, [("S", ⟨flatGeo.vertices, "airfoils/blade.x", "airfoils/blade.x"⟩)], []⟩] where
  project := ⟨rfl, by simp [rectSettings], by simp [rectSettings], by simp [cpacsWorld],
    by simp [rectSettings]⟩
  settings := ⟨⟨"plane.xml", by simp [rectSettings], .inr (by simp [cpacsWorld])⟩,
    ⟨"cruise.json", by simp [rectSettings]⟩,
    by simp [IfGiven, rectSettings, PyVal.IsInt], by simp [IfGiven, rectSettings, PyVal.IsInt],
    by simp [IfGiven, rectSettings], by simp [IfGiven, rectSettings],
    by simp [IfGiven, rectSettings], by simp [IfGiven, rectSettings],
    by simp [IfGiven, rectSettings]⟩
  panelsC := by simp [IfGiven, rectSettings, PyVal.IsPositive]
  panelsS := by simp [IfGiven, rectSettings, PyVal.IsPositive]
  wings := rect_import
  document := by
    refine ⟨by simp [rectDoc], rfl, ⟨_, rfl, .inl rfl⟩, by simp [rectDoc], ⟨2, rfl, by norm_num⟩,
      ⟨1, rfl, by norm_num⟩, ?_, ?_⟩
    · intro _ _ _ _ _ _
      exact ⟨anyAirfoils_ok _ _, anyAirfoils_ok _ _⟩
    · intro w hw _
      rw [List.mem_singleton] at hw
      subst hw
      refine ⟨_, List.mem_singleton.2 rfl, ?_⟩
      intro h
      have := h.1
      norm_num [flatGeo] at this
  layout := by
    intro w hw
    rw [List.mem_singleton] at hw
    subst hw
    refine ⟨?_, ?_, ?_⟩
    · intro u x hx y hy hxy
      simp only [FileWing.requested, ImpWing.fileEntry, List.map_nil, List.not_mem_nil, false_and, exists_false,
        Set.mem_union, Set.mem_insert_iff, Set.mem_singleton_iff, Set.mem_ofPred_eq, or_false] at hx hy
      rcases hx with rfl | rfl <;> rcases hy with rfl | rfl <;>
      first | (norm_num at hxy; done) | norm_num
    · simp only [FileWing.requested, ImpWing.fileEntry, List.map_nil]
      exact ⟨by simp, by simp, by simp, by simp, by simp, by simp, by simp⟩
    · intro h
      exact absurd rfl h
  segment := ⟨_, List.mem_singleton.2 rfl, by simp⟩
  states := .inl ⟨by simp [cpacsWorld], oneState 10 1 5 0, rfl,
    oneState_nodup _ _ _ _, oneState_acceptable _ _ _ _ _, by simp [oneState],
    _, List.mem_cons_self .., by simp [Arg.toList]⟩
  deformation := by simp [DeformationOk, IfGiven, rectSettings]

/-- The run of the project with the flat wing finishes. -/
theorem rectCpacs_finishes : ∃ out, runCpacs cpacsWorld asciiAlnum anyAirfoils (fun _ => none)
    (fun _ => some rectDoc) rectProject = .ok out := by
  have h := rectProject_ok
  obtain ⟨s, hs⟩ := (C98_accepted_iff _ _ h.project.keys).2 h.settings
  obtain ⟨ac, hac⟩ := (C113_accepted_iff asciiAlnum anyAirfoils "/home" true _ rectDoc).2
    ⟨_, h.wings, h.document⟩
  generalize hd' : (cpacsLoad asciiAlnum anyAirfoils "/home" true (fun _ => none) rectDoc).1 = disk'
  replace hac : cpacsLoad asciiAlnum anyAirfoils "/home" true (fun _ => none) rectDoc = (disk', .ok ac) :=
    Prod.ext hd' hac
  obtain ⟨l, refs, ws', st⟩ := cpacsLoad_steps hac
  have hws := st.wings
  rw [h.wings] at hws
  cases hws
  obtain ⟨-, hrun, hload⟩ := loadProject_cpacs (alnum := asciiAlnum) (A := anyAirfoils)
    (disk := fun _ => none) (docs := fun _ => some rectDoc) h.project hs rfl hac
  obtain ⟨-, -, hw, -⟩ := C92_content _ _ _ _ st.load
  have hnames := ((C92_accepted_iff _ _ _).1 ⟨_, st.load⟩).names.2
  obtain ⟨defs, hdefs⟩ := loadDeformation_ok h.project.keys hs hnames hw (h.deformation ac.uid refs)
  obtain ⟨state, hst⟩ := (C41_accepted_iff cpacsWorld.atm _ (oneState_nodup 10 1 5 0)).2
    (oneState_acceptable _ _ _ _ _)
  have hstate : rectProject.state "cruise.json" = some (oneState 10 1 5 0) := rfl
  have hup : cpacsWorld.upper "cruise.json" ≠ "__CPACS" := by simp [cpacsWorld]
  rw [if_neg hup, hstate] at hload
  simp only [hst, hdefs] at hload
  have hr := reads_of_loaded (W := cpacsWorld.withCpacs asciiAlnum anyAirfoils "/home" (fun _ => none)
    (fun _ => some rectDoc) "plane.xml") (P := rectProject) h.project.keys hs (f := importedFile ac.uid refs _)
    (by
      have e : (cpacsWorld.withCpacs asciiAlnum anyAirfoils "/home" (fun _ => none)
          (fun _ => some rectDoc) "plane.xml").airfoilOk = anyAirfoils.ok disk' := by
        unfold World.withCpacs World.withAirfoils
        simp only [hac]
      rw [e]
      exact st.load) hdefs (decide (cpacsWorld.upper "cruise.json" = "__CPACS")) state
  generalize hx : (⟨s, decide (cpacsWorld.upper "cruise.json" = "__CPACS"), ac, state, defs⟩ : Loaded) = x
    at hr hload
  have hxa : x.aircraft = ac := by rw [← hx]
  have hxs : x.state = state := by rw [← hx]
  generalize hWd : cpacsWorld.withCpacs asciiAlnum anyAirfoils "/home" (fun _ => none)
    (fun _ => some rectDoc) "plane.xml" = W at hr
  obtain ⟨w, hw1, hwr⟩ := forall₂_singleton_left hr.wings
  obtain ⟨sg, hs1, hsr⟩ := forall₂_singleton_left hwr.segments
  have hstrips : sg.strips = initStrips := by
    have hw' : ac.wings.map LoadedWing.toP = [w] := hw1
    have : w ∈ ac.wings.map LoadedWing.toP := by rw [hw']; simp
    obtain ⟨w0, -, rfl⟩ := List.mem_map.1 this
    have : sg ∈ w0.segments.map LoadedSegment.toP := by
      have hs' : w0.segments.map LoadedSegment.toP = [sg] := hs1
      rw [hs']; simp
    obtain ⟨s0, -, rfl⟩ := List.mem_map.1 this
    rfl
  have hspan : sg.span = 2 / 25 := by
    obtain ⟨v, hv, -, -, h0, h1⟩ := hsr.shape
    have e := noSpan_given hv (show AllGiven _ flatGeo.vertices from ⟨rfl, rfl, rfl, rfl⟩)
    rw [e] at h1
    norm_num [flatGeo] at h1
    nlinarith
  have hpac : ac.toP = ⟨[⟨"W", 2, [⟨"S", sg.span, none, none, sg.interp, sg.dist, initStrips⟩], []⟩]⟩ := by
    have e1 : ac.toP = ⟨[w]⟩ := by rw [← hw1]
    have e2 : w = ⟨"W", 2, [sg], []⟩ := by
      have a1 := hwr.uid
      have a2 := hwr.symmetry
      have a3 := hwr.controls
      cases w
      simp only at a1 a2 a3 hs1
      subst a1 a2 a3 hs1
      rfl
    have e3 : sg = ⟨"S", sg.span, none, none, sg.interp, sg.dist, initStrips⟩ := by
      have a1 := hsr.uid
      have a2 := hsr.numC
      have a3 := hsr.numS
      cases sg
      simp only at a1 a2 a3 hstrips
      subst a1 a2 a3 hstrips
      rfl
    rw [e1, e2, ← e3]
  obtain ⟨n1, q1, q2, q3, q4, q5, q6, q7⟩ := oneState_entries hst
  obtain ⟨g1, g2, -⟩ := hr.geometry 0 _ rfl 0 _ rfl
  obtain ⟨u1, u2⟩ := hr.undeformed (by simp [IfGiven, rectSettings]) 0 0
  have hgeo : (x.env W rectProject).lat.geo 0 0 = flatGeo := by
    dsimp only at g1 g2 u1 u2
    have hv := noSpan_given g1 (show AllGiven _ flatGeo.vertices from ⟨rfl, rfl, rfl, rfl⟩)
    generalize (x.env W rectProject).lat.geo 0 0 = g at *
    cases g
    simp only at hv g2 u1 u2
    subst hv g2 u1 u2
    rfl
  have heps : 0 < (x.env W rectProject).eps := by
    obtain ⟨y, hy, -, h0⟩ := hr.epsilon
    dsimp only at hy
    rw [hy, h0 (by simp [rectSettings])]
    norm_num
  have hc1 : (x.env W rectProject).autoC = 1 := hr.panelsC.1 1 (by simp [rectSettings])
  have hs1 : (x.env W rectProject).autoS = 1 := hr.panelsS.1 1 (by simp [rectSettings])
  have hsolve : (x.env W rectProject).dgesv = exactDgesv := by
    rw [← hWd]
    rfl
  obtain ⟨out, hout⟩ := onePanel_finishes_auto (env := x.env W rectProject)
    (hsolve ▸ exactDgesv_lapack) heps (hr.rotate.2 (by simp [rectSettings])) hgeo (by
      intro m k eta xsi
      show (match x.aircraft.wings[m]?.bind fun w => w.segments[k]? with
        | some s => W.camber s.airfoilInner s.airfoilOuter eta xsi
        | none => 0) = (0 : ℝ)
      rw [← hWd]
      split <;> rfl) sg.span sg.interp sg.dist (ac := ac.toP) (st := state) (by
      rw [hc1, hs1, hpac]
      unfold setAutopanels onePanelOf
      simp only [mapE, PWing.setAutopanels, PSegment.setAutopanels, PWing.span, spanRatio, List.map_nil, hspan]
      norm_num) (by rw [n1]; norm_num)
    (fun _ => ⟨10, 1, 5, 0, 0, 0, 0⟩) (by
      intro i hi
      obtain rfl : i = 0 := by omega
      exact ⟨rfl, q1, q2, q3, q4, q5, q6, q7⟩)
  refine ⟨out, ?_⟩
  rw [hrun]
  show runProject (cpacsWorld.withCpacs asciiAlnum anyAirfoils "/home" (fun _ => none)
    (fun _ => some rectDoc) "plane.xml") rectProject = _
  unfold runProject
  change loadProject (cpacsWorld.withCpacs asciiAlnum anyAirfoils "/home" (fun _ => none)
    (fun _ => some rectDoc) "plane.xml") rectProject = _ at hload
  rw [hload, hWd]
  simp only
  rw [hxa, hxs]
  exact hout

/-- Example for C117: the run with the flat wing returns the values of the analysis of the flight state on
the wing of the CPACS file, whose airfoil is that of the CPACS file. -/
example : ∃ (out : RunOut) (env : RunEnv) (an : Analysis),
    runCpacs cpacsWorld asciiAlnum anyAirfoils (fun _ => none) (fun _ => some rectDoc) rectProject = .ok out ∧
    env.refs.area = 2 ∧ env.lat.camber 0 0 = anyAirfoils.camber (.inl 1) (.inl 1) ∧ an.s.alpha = 5 ∧
    out.value "Fz" 0 = some (.fin an.R.ftot.z) := by
  obtain ⟨out, h⟩ := rectCpacs_finishes
  obtain ⟨doc, disk', lac, ws, refs, st, env, ac, ac', hdoc, -, hl, -, hst, hr, -, -, -, -, -, hv⟩ :=
    C117_results_of_cpacs _ exactDgesv_lapack _ _ _ _ _ _ _ _ rectProject_ok.project out h
  cases hdoc
  have hst' : updateFromDict cpacsWorld.atm Store.fresh (oneState 10 1 5 0) = .ok st := by
    rcases hst with ⟨-, sd, hsd, h⟩ | ⟨hb, -⟩
    · have hsd' : some (oneState 10 1 5 0) = some sd := hsd
      cases hsd'
      exact h
    · simp [cpacsWorld] at hb
  obtain ⟨n1, -, -, q3, -⟩ := oneState_entries hst'
  obtain ⟨an, ha, hv⟩ := hv 0 (by omega)
  refine ⟨out, env, an, h, ?_, ?_, ?_, hv ("Fz", fun a => .fin a.R.ftot.z) (by simp [runColumns])⟩
  · obtain ⟨p, area, len, -, h2, -, h4⟩ := hr.refs
    cases h2
    rw [h4]
  · obtain ⟨segs, hsegs, hg⟩ := hr.geometry 0 _ rfl
    cases hsegs
    obtain ⟨-, -, -, i, o, hi, ho, hc⟩ := hg 0 _ rfl
    obtain ⟨l, hl', h1, -⟩ := C113_airfoils_partial _ _ _ _ _ _ _ _ hl
    cases hl'
    have hd := h1 (by decide) _ (List.mem_singleton.2 rfl) "x" rfl
    have key : ∀ y, AirfoilIs disk' (bladeFile asciiAlnum rectProject.root "x") y → y = .inl 1 := by
      rintro y (⟨c, hc, rfl⟩ | ⟨hc, -⟩)
      · rw [hd] at hc
        cases hc
        rfl
      · rw [hd] at hc
        cases hc
    rw [key i hi, key o ho] at hc
    funext eta xsi
    exact hc eta xsi
  · have := ha.alpha
    rw [q3] at this
    simp only [Except.ok.injEq, Flt.fin.injEq] at this
    exact this.symm

end Verif
