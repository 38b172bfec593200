import Verif.Model.Setup
import Verif.Props.Program
import Verif.Props.ProgramExamples
import Verif.Props.Cli
import Verif.Props.AircraftFile

/-!
# Property C102: new projects
-/

namespace Verif

/-! ## Specification -/

/-- A JSON file below any directories: the path ends with the name `n` and the extension. -/
structure JsonFile (path n : Name) : Prop where
  name : pathName path = n ++ ".json".toList
  nonempty : ∃ c ∈ n, c ≠ '.'

/-- The flight states are one state: 100 m/s, density 1.225, angle of attack 2 degrees, no sideslip,
no rotation. -/
structure IsDefaultState (st : FlightSt ℝ) : Prop where
  num : st.num = 1
  airspeed : st.aero.entry "airspeed" 0 = .ok (.fin 100)
  density : st.aero.entry "density" 0 = .ok (.fin (49/40))
  alpha : st.aero.entry "alpha" 0 = .ok (.fin 2)
  beta : st.aero.entry "beta" 0 = .ok (.fin 0)
  rateP : st.aero.entry "rate_P" 0 = .ok (.fin 0)
  rateQ : st.aero.entry "rate_Q" 0 = .ok (.fin 0)
  rateR : st.aero.entry "rate_R" 0 = .ok (.fin 0)

/-! ## Proof -/

/-- The settings file of a new project. -/
def newSettings (a b : String) : PyDict :=
  [("aircraft", .str a), ("state", .str b), ("deformation", .none),
   ("vlm_autopanels_c", .int 5), ("vlm_autopanels_s", .int 20),
   ("save_results", .dict [("global", .bool false), ("panelwise", .bool false),
     ("aeroperformance", .bool false), ("matrix_system", .bool false)]),
   ("plot", .dict [
     ("geometry", .dict [("opt", .list []), ("show", .bool false), ("save", .bool false)]),
     ("lattice", .dict [("opt", .list []), ("show", .bool false), ("save", .bool false)]),
     ("matrix_downwash", .dict [("opt", .list []), ("show", .bool false), ("save", .bool false)]),
     ("results", .dict [("opt", .list [.str "cp"]), ("show", .bool true), ("save", .bool false)])])]

theorem newSettings_eq (a b : String) :
    (saveSettings ⟨setupSettings a b, false⟩).2 = .dict (newSettings a b) := rfl

theorem newSettings_keys (a b : String) : ((newSettings a b).map Prod.fst).Nodup := by
  show ["aircraft", "state", "deformation", "vlm_autopanels_c", "vlm_autopanels_s", "save_results",
    "plot"].Nodup
  decide

theorem newSettings_ok (suffix : String → String) (a b : String) (ha : suffix a = ".json") :
    SettingsFileOk suffix (newSettings a b) := by
  refine ⟨⟨a, by simp [newSettings], .inl ha⟩, ⟨b, by simp [newSettings]⟩, ?_, ?_, ?_, ?_, ?_, ?_, ?_⟩
  · intro v hv
    simp [newSettings] at hv
    exact .inl ⟨5, hv⟩
  · intro v hv
    simp [newSettings] at hv
    exact .inl ⟨20, hv⟩
  · intro v hv
    simp [newSettings] at hv
    refine ⟨_, hv, ?_⟩
    intro k hk
    simp only [List.mem_cons, List.not_mem_nil, or_false] at hk
    rcases hk with rfl | rfl | rfl | rfl <;> exact ⟨_, rfl, _, rfl⟩
  · intro v hv
    simp [newSettings] at hv
    refine ⟨_, hv, ?_, ?_⟩
    · intro k hk
      simp only [List.mem_cons, List.not_mem_nil, or_false] at hk
      rcases hk with rfl | rfl | rfl <;>
        exact ⟨_, rfl, _, rfl, ⟨_, rfl, _, rfl⟩, ⟨_, rfl, _, rfl⟩, ⟨_, rfl, _, rfl⟩⟩
    · exact ⟨_, rfl, _, rfl, ⟨_, rfl, .inl ⟨_, rfl⟩⟩, ⟨_, rfl, _, rfl⟩, ⟨_, rfl, _, rfl⟩⟩
  all_goals
    intro v hv
    simp [newSettings] at hv

theorem setupState_keys : (setupState.map Prod.fst).Nodup := by
  show stateAllParams.Nodup
  decide

theorem setupState_acceptable (atm : Atm ℝ) : Acceptable atm setupState := by
  have no : ∀ p ∈ ["altitude", "mach"], ¬ Given setupState p := by
    rintro p hp ⟨a, ha, hv⟩
    simp only [List.mem_cons, List.not_mem_nil, or_false] at hp
    rcases hp with rfl | rfl <;> simp [setupState] at ha <;> subst ha <;>
      simp [Arg.toList, Val.isNum] at hv
  refine ⟨⟨1, ?_⟩, Or.inl ⟨⟨_, by simp [setupState]; rfl, by simp [Arg.toList, Val.isNum]⟩,
    ⟨_, by simp [setupState]; rfl, by simp [Arg.toList, Val.isNum]⟩, no _ (by simp), no _ (by simp)⟩,
    ?_, fun g => absurd g (no _ (by simp)), ⟨_, by simp [setupState]; rfl⟩,
    ⟨_, by simp [setupState]; rfl⟩⟩
  · intro x hx
    simp only [setupState, List.mem_cons, List.not_mem_nil, or_false] at hx
    rcases hx with rfl | rfl | rfl | rfl | rfl | rfl | rfl | rfl | rfl <;> rfl
  · intro p hp a ha v hv
    simp only [setupState, List.mem_cons, List.not_mem_nil, or_false, Prod.mk.injEq] at ha
    rcases ha with h | h | h | h | h | h | h | h | h <;> obtain ⟨-, rfl⟩ := h <;>
      simp only [Arg.toList, List.mem_singleton] at hv <;> subst hv <;> simp [Val.Convertible]

theorem setupState_ok (atm : Atm ℝ) : StatesOk atm setupState where
  keys := setupState_keys
  acceptable := setupState_acceptable atm
  rates := by
    intro p hp
    simp only [List.mem_cons, List.not_mem_nil, or_false] at hp
    rcases hp with rfl | rfl | rfl <;> exact ⟨.scalar (.num (.fin 0)), by simp [setupState]⟩
  some := ⟨_, List.mem_cons_self .., by simp [Arg.toList]⟩

theorem setupState_default {atm : Atm ℝ} {st : FlightSt ℝ}
    (h : updateFromDict atm Store.fresh setupState = .ok st) : IsDefaultState st := by
  obtain ⟨hl, F⟩ := (accepted angle_limits atm _ setupState_keys).2 st h
  have ho : ∀ p ∈ stateAllParams, p ≠ "airspeed" → p ≠ "density" → ∀ x : ℝ,
      (p, Arg.scalar (.num (.fin x))) ∈ setupState → st.aero.entry p 0 = .ok (.fin x) := by
    intro p hp h1 h2 x hx
    unfold Store.entry
    rw [(F.other p hp h1 h2).1 _ ⟨_, hx, rfl⟩]
    rfl
  refine ⟨(hl _ (List.mem_cons_self ..)).symm, ?_, ?_,
    ho _ (by decide) (by decide) (by decide) _ (by simp [setupState]),
    ho _ (by decide) (by decide) (by decide) _ (by simp [setupState]),
    ho _ (by decide) (by decide) (by decide) _ (by simp [setupState]),
    ho _ (by decide) (by decide) (by decide) _ (by simp [setupState]),
    ho _ (by decide) (by decide) (by decide) _ (by simp [setupState])⟩
  · unfold Store.entry
    rw [F.airspeed _ ⟨.scalar (.num (.fin 100)), by simp [setupState], rfl⟩
      ⟨.scalar (.num (.fin 100)), by simp [setupState], by simp [Arg.toList, Val.isNum]⟩]
    rfl
  · unfold Store.entry
    rw [F.density _ ⟨.scalar (.num (.fin (49/40))), by simp [setupState]; norm_num, rfl⟩
      ⟨.scalar (.num (.fin (49/40))), by simp [setupState]; norm_num, by simp [Arg.toList, Val.isNum]⟩]
    rfl

/-- The project in a folder that has just been saved. -/
theorem setup_project (root sf a b : String) (ac : FileAircraft) (folder : Folder) :
    ∃ P, (setupSave sf a b ac folder).project root sf = some P ∧
      P.root = root ∧ P.settings = .dict (newSettings a b) ∧ P.aircraft a = some ac ∧
      P.state b = some setupState := by
  refine ⟨⟨String.ofList (splitExt sf.toList), root, (saveSettings ⟨setupSettings a b, false⟩).2,
    fun x => (writeFile a ac folder.aircraft).lookup x,
    fun x => (writeFile b setupState folder.state).lookup x, fun _ => none⟩, ?_, rfl,
    newSettings_eq a b, by simp [writeFile], by simp [writeFile]⟩
  unfold Folder.project setupSave writeFile
  simp only [List.lookup_cons, beq_self_eq_true]

theorem setup_native {W : World} {P : Project} {a b : String}
    (hset : P.settings = .dict (newSettings a b)) (hsuf : W.suffix a = ".json")
    (hup : W.upper b ≠ "__CPACS") : NativeProject W P (newSettings a b) a b :=
  ⟨hset, newSettings_keys a b, by simp [newSettings], hsuf, by simp [newSettings], hup⟩

theorem setup_ok {W : World} {P : Project} {a b : String} {f : FileAircraft}
    (hset : P.settings = .dict (newSettings a b)) (hac : P.aircraft a = some f)
    (hst : P.state b = some setupState) (hsuf : W.suffix a = ".json")
    (hup : W.upper b ≠ "__CPACS") (hf : FileOk P.root W.airfoilOk f)
    (hl : ∀ w ∈ f.wings, WingLayoutOk w) (hs : ∃ w ∈ f.wings, w.segments ≠ []) :
    ProjectOk W P (newSettings a b) a b f setupState where
  native := setup_native hset hsuf hup
  settings := newSettings_ok _ _ _ hsuf
  panelsC := by
    intro v hv
    simp [newSettings] at hv
    exact .inr ⟨5, hv, by norm_num⟩
  panelsS := by
    intro v hv
    simp [newSettings] at hv
    exact .inr ⟨20, hv, by norm_num⟩
  aircraft := hac
  file := hf
  layout := hl
  segment := hs
  state := hst
  states := setupState_ok W.atm
  deformation := by
    intro v hv
    simp [newSettings] at hv
    exact .inl (.inl hv)

theorem splitExt_json {n : Name} (h : ∃ c ∈ n, c ≠ '.') : splitExt (n ++ dotJson) = n := by
  unfold splitExt
  rw [rfindDot_json]
  simp only [List.take_left]
  rw [if_neg]
  intro hx
  obtain ⟨c, hc, hne⟩ := h
  have := List.all_eq_true.1 hx c hc
  simp at this
  exact hne this

theorem JsonFile.names {path n : Name} (h : JsonFile path n) :
    String.ofList (pathStem path) ++ ".json" = String.ofList (n ++ ".json".toList) ∧
    String.ofList (pathName path) = String.ofList (n ++ ".json".toList) ∧
    String.ofList (splitExt (pathName path)) ++ ".json" = String.ofList (n ++ ".json".toList) := by
  have hne : n ≠ [] := by
    rintro rfl
    obtain ⟨c, hc, -⟩ := h.nonempty
    cases hc
  have e1 : pathStem path = n := by
    unfold pathStem
    rw [h.name, dotJson_eq, nameStem_json hne]
  have e2 : splitExt (pathName path) = n := by
    rw [h.name, dotJson_eq, splitExt_json h.nonempty]
  rw [e1, e2, h.name]
  have : String.ofList n ++ ".json" = String.ofList (n ++ ".json".toList) := by
    apply String.toList_injective
    simp
  exact ⟨this, rfl, this⟩

/-- What loading a saved file gives has the content of the first file. -/
theorem saved_wings {root : String} {airfoilOk : String → Bool} {f : FileAircraft}
    {ac : LoadedAircraft} (h : loadAircraft root airfoilOk f = .ok ac) :
    List.Forall₂ (fun e w => WingFrom root e w ∧ saveWing w ∈ (saveAircraft ac).wings) f.wings
      ac.wings ∧ (saveAircraft ac).wings = ac.wings.map saveWing := by
  obtain ⟨-, -, hw, -⟩ := C92_content _ _ _ _ h
  refine ⟨?_, rfl⟩
  rw [List.forall₂_iff_get] at hw ⊢
  refine ⟨hw.1, fun i h1 h2 => ⟨hw.2 i h1 h2, ?_⟩⟩
  exact List.mem_map.2 ⟨_, List.get_mem _ _, rfl⟩

theorem saved_layout {root : String} {e : FileWing} {w : LoadedWing} (hf : WingFrom root e w)
    (hl : WingLayoutOk e) : WingLayoutOk (saveWing w) := by
  have hreq : (saveWing w).requested = e.requested := hf.controls_toP
  have huid : (saveWing w).segments.map (·.uid) = e.segments.map (·.uid) := by
    have : (saveWing w).segments.map (·.uid) = w.toP.segments.map PSegment.uid := by
      show (w.segments.map saveSegment).map (·.uid) = (w.segments.map LoadedSegment.toP).map PSegment.uid
      rw [List.map_map, List.map_map]
      rfl
    rw [this, hf.uids]
  refine ⟨?_, ?_, ?_⟩
  · have := hl.borders
    unfold BordersApart at this ⊢
    rw [hreq]
    exact this
  · rw [huid, hreq]
    exact hl.controls
  · intro hc s hs p hp
    obtain ⟨s0, hs0, rfl⟩ := List.mem_map.1 hs
    obtain ⟨e0, he0, hfs⟩ := forall₂_mem_right hf.segments hs0
    have hec : e.controls ≠ [] := by
      intro hx
      have := hf.controls
      rw [hx] at this
      apply hc
      show w.controls = []
      exact List.length_eq_zero_iff.1 this.length_eq.symm
    have : p = s0.gen.vertices := noSpan_given hp ⟨rfl, rfl, rfl, rfl⟩
    subst this
    exact hl.shape hec e0 he0 _ hfs.vertices

/-- **C102**: a project is made from an aircraft file that can be loaded.  It holds one flight state
with default values, and it analyses the aircraft of the file exactly if no wing segment of it is
changed by saving; then, if the layout of its controls is in order, the analysis never ends in an
exception. -/
theorem C102_from_file (W : World) (hW : Lapack W.dgesv) (root : String) (hr : ['/'] <+: root.toList)
    (path n : Name) (hn : JsonFile path n)
    (hsuf : W.suffix (String.ofList (n ++ ".json".toList)) = ".json")
    (hup : W.upper (String.ofList (n ++ ".json".toList)) ≠ "__CPACS")
    (f : FileAircraft) (ac : LoadedAircraft) (h : loadAircraft root W.airfoilOk f = .ok ac) :
    ∃ folder P, setupWkdir W root (some (path, some f)) none = (some folder, .made) ∧
      folder.project root (String.ofList (n ++ ".json".toList)) = some P ∧
      ((∃ x, loadProject W P = .ok x ∧ x.aircraft = ac) ↔
        ∀ w ∈ ac.wings, ∀ s ∈ w.segments, Survives root s) ∧
      (∀ x, loadProject W P = .ok x → IsDefaultState x.state ∧
        x.settings.int "vlm_autopanels_c" = 5 ∧ x.settings.int "vlm_autopanels_s" = 20) ∧
      ((∀ w ∈ ac.wings, ∀ s ∈ w.segments, Survives root s) → (∀ w ∈ f.wings, WingLayoutOk w) →
        (∃ w ∈ f.wings, w.segments ≠ []) →
        (∃ out, runProject W P = .ok out) ∨ ∃ files, runProject W P = .error (.notFinite, files)) := by
  obtain ⟨e1, e2, e3⟩ := hn.names
  set file := String.ofList (n ++ ".json".toList) with hfile
  obtain ⟨P, hP, p1, p2, p3, p4⟩ := setup_project root file file file (saveAircraft ac)
    ⟨[], writeFile file f [], []⟩
  refine ⟨_, P, ?_, hP, ?_⟩
  · unfold setupWkdir
    simp only [e1, e2, e3]
    have : (writeFile file f []).lookup file = some f := by simp [writeFile]
    simp only [this, h]
  have hnat := setup_native (W := W) p2 hsuf hup
  obtain ⟨s, hs⟩ := (C98_accepted_iff W.suffix _ (newSettings_keys file file)).2
    (newSettings_ok _ _ _ hsuf)
  obtain ⟨k1, -, -, -⟩ := C98_content _ _ (newSettings_keys file file) s hs
  obtain ⟨-, -, -, -, hload⟩ := loadProject_native hnat hs
  obtain ⟨st, hst⟩ := (C41_accepted_iff W.atm _ setupState_keys).2 (setupState_acceptable W.atm)
  have hdef : ∀ ac', loadDeformationFrom P s ac' = .ok ac'.undeformed := by
    intro ac'
    unfold loadDeformationFrom
    rw [k1 "deformation" .none (by decide) (by simp [newSettings])]
    rfl
  rw [p3, p4, p1] at hload
  simp only [hst, hdef] at hload
  have hiff := C57_reload_iff root W.airfoilOk f ac hr h
  refine ⟨?_, ?_, ?_⟩
  · rw [← hiff, hload]
    cases loadAircraft root W.airfoilOk (saveAircraft ac) with
    | error e => simp
    | ok ac' => simp
  · intro x hx
    rw [hload] at hx
    cases hl : loadAircraft root W.airfoilOk (saveAircraft ac) with
    | error e => simp [hl] at hx
    | ok ac' =>
      simp only [hl, Except.ok.injEq] at hx
      subst hx
      refine ⟨setupState_default hst, ?_, ?_⟩
      · simp only [SettingsObj.int]
        rw [k1 "vlm_autopanels_c" (.int 5) (by decide) (by simp [newSettings])]
      · simp only [SettingsObj.int]
        rw [k1 "vlm_autopanels_s" (.int 20) (by decide) (by simp [newSettings])]
  · intro hsv hlay hseg
    obtain ⟨hw, -⟩ := saved_wings h
    refine C99_no_exception W hW P _ file file (saveAircraft ac) setupState
      (setup_ok p2 p3 p4 hsuf hup ?_ ?_ ?_)
    · rw [p1]
      exact (C92_accepted_iff _ _ _).1 ⟨ac, hiff.2 hsv⟩
    · intro w hw'
      obtain ⟨w0, hw0, rfl⟩ := List.mem_map.1 hw'
      obtain ⟨e, he, hf, -⟩ := forall₂_mem_right hw hw0
      exact saved_layout hf (hlay e he)
    · obtain ⟨e, he, hes⟩ := hseg
      obtain ⟨w0, hw0, hf, hm⟩ := forall₂_mem_left hw he
      refine ⟨_, hm, ?_⟩
      intro hx
      have := hf.segments.length_eq
      have h0 : w0.segments = [] := List.map_eq_nil_iff.1 hx
      rw [h0] at this
      exact hes (List.length_eq_zero_iff.1 this)

theorem template_ok (root : String) (airfoilOk : String → Bool) (ha : airfoilOk "NACA0000" = true) :
    FileOk root airfoilOk templateAircraft := by
  refine ⟨?_, by norm_num [templateAircraft], by norm_num [templateAircraft],
    by norm_num [templateAircraft], ?_⟩
  · exact ⟨by simp [templateAircraft], by simp [templateAircraft]⟩
  · intro w hw
    simp only [templateAircraft, List.mem_singleton] at hw
    subst hw
    refine ⟨by norm_num, ⟨by simp, by simp⟩, ⟨by simp, by simp⟩, ?_, ?_, ?_⟩
    · intro s hs
      simp only [List.mem_singleton] at hs
      subst hs
      exact ⟨⟨⟨_, _, _, _⟩, rfl, rfl, rfl, rfl⟩, fresh_geoOk, by simp, by simp,
        ⟨_, .inr ⟨by decide, rfl⟩, ha⟩, ⟨_, .inr ⟨by decide, rfl⟩, ha⟩⟩
    · intro c hc
      simp only [List.mem_singleton] at hc
      subst hc
      refine ⟨.inr rfl, by simp, ?_, ?_, ?_, ?_, ?_, ?_, by simp, ?_, ⟨5, rfl, ?_⟩, ?_⟩ <;>
        norm_num
    · intro _
      exact ⟨_, List.mem_singleton.2 rfl, ⟨_, _, _, _⟩, ⟨rfl, rfl, rfl, rfl⟩, by simp [NoSpan]⟩

theorem template_layout : ∀ w ∈ templateAircraft.wings, WingLayoutOk w := by
  intro w hw
  simp only [templateAircraft, List.mem_singleton] at hw
  subst hw
  refine ⟨?_, ?_, ?_⟩
  · intro u x hx y hy hxy
    simp only [FileWing.requested, List.map_cons, List.map_nil, List.mem_cons, List.not_mem_nil,
      or_false, exists_eq_left, Set.mem_union, Set.mem_insert_iff, Set.mem_singleton_iff,
      Set.mem_ofPred_eq] at hx hy
    rcases hx with ((rfl | rfl) | ⟨-, rfl⟩) | ⟨-, rfl⟩ <;>
    rcases hy with ((rfl | rfl) | ⟨-, rfl⟩) | ⟨-, rfl⟩ <;>
    first | (norm_num at hxy; done) | norm_num
  · simp only [FileWing.requested, List.map_cons, List.map_nil]
    refine ⟨by simp, ?_, by simp, ?_, ?_, by simp, ?_⟩
    · simp only [List.mem_singleton, forall_eq]
      exact ⟨0, 0, rfl, rfl, by norm_num, by norm_num, by norm_num⟩
    · simp only [List.mem_singleton, forall_eq]
      norm_num
    · simp only [List.mem_singleton, forall_eq]
      rintro h (h' | h') <;> simp only [Option.some.injEq] at h' <;> subst h' <;> norm_num
    · simp only [List.mem_singleton, forall_eq]
      exact fun h => absurd rfl h
  · intro _ s hs p hp
    simp only [List.mem_singleton] at hs
    subst hs
    have : p = ⟨⟨0, 0, 0⟩, ⟨0, 5, 0⟩, ⟨2, 5, 0⟩, ⟨2, 0, 0⟩⟩ := noSpan_given hp ⟨rfl, rfl, rfl, rfl⟩
    subst this
    refine ⟨⟨?_, ?_, ?_, ?_⟩, ?_⟩ <;> simp only [Planar] <;> vsimp <;> norm_num

/-- **C102**: without an aircraft file a template is made: a rectangular wing of span 5 and chord 2
with its mirror image and a flap deflected by 5 degrees, on the other side by -5.  Its analysis never
ends in an exception. -/
theorem C102_template (W : World) (hW : Lapack W.dgesv) (root : String)
    (ha : W.airfoilOk "NACA0000" = true) (hsuf : W.suffix "template_aircraft.json" = ".json")
    (hup : W.upper "template.json" ≠ "__CPACS") :
    ∃ folder P x, setupWkdir W root none none = (some folder, .made) ∧
      folder.project root "template.json" = some P ∧ loadProject W P = .ok x ∧
      IsDefaultState x.state ∧
      (∃ w s c, x.aircraft.wings = [w] ∧ w.segments = [s] ∧ w.controls = [c] ∧ w.symmetry = 2 ∧
        s.gen.vertices = ⟨⟨0, 0, 0⟩, ⟨0, 5, 0⟩, ⟨2, 5, 0⟩, ⟨2, 0, 0⟩⟩ ∧
        c.data.deviceType = some "flap" ∧ c.data.deflection = .num (.fin 5) ∧
        c.data.deflectionMirror = .num (.fin (-5))) ∧
      ((∃ out, runProject W P = .ok out) ∨ ∃ files, runProject W P = .error (.notFinite, files)) := by
  obtain ⟨P, hP, p1, p2, p3, p4⟩ := setup_project root "template.json" "template_aircraft.json"
    "template.json" templateAircraft ⟨[], [], []⟩
  have hok := setup_ok (W := W) p2 p3 p4 hsuf hup (template_ok P.root _ ha) template_layout
    ⟨_, List.mem_singleton.2 rfl, by simp⟩
  obtain ⟨x, hx, -, hac, hst⟩ := hok.load
  refine ⟨_, P, x, rfl, hP, hx, setupState_default hst, ?_,
    C99_no_exception W hW P _ _ _ _ _ hok⟩
  obtain ⟨-, -, hw, -⟩ := C92_content _ _ _ _ hac
  obtain ⟨w, hw1, hwf⟩ := forall₂_singleton_left hw
  obtain ⟨s, hs1, hsf⟩ := forall₂_singleton_left hwf.segments
  obtain ⟨c, hc1, -, hcd⟩ := forall₂_singleton_left hwf.controls
  refine ⟨w, s, c, hw1, hs1, hc1, hwf.symmetry,
    noSpan_given hsf.vertices ⟨rfl, rfl, rfl, rfl⟩, ?_⟩
  rw [hcd]
  simp [ControlDef.completed]

/-- **C102**: a folder that exists is not touched, and after any attempt, successful or not, there is
a folder: the next attempt is refused. -/
theorem C102_existing (W : World) (root : String) (source source' : Option (Name × Option FileAircraft))
    (disk : Option Folder) :
    (∀ folder, disk = some folder → setupWkdir W root source disk = (some folder, .refused)) ∧
    ∃ folder, setupWkdir W root source' (setupWkdir W root source disk).1 = (some folder, .refused) ∧
      (setupWkdir W root source disk).1 = some folder := by
  refine ⟨?_, ?_⟩
  · rintro folder rfl
    rfl
  · have key : ∃ folder, (setupWkdir W root source disk).1 = some folder := by
      cases disk with
      | some folder => exact ⟨_, rfl⟩
      | none =>
        rcases source with _ | ⟨path, _ | f⟩
        · exact ⟨_, rfl⟩
        · exact ⟨_, rfl⟩
        · unfold setupWkdir
          simp only
          split
          · exact ⟨_, rfl⟩
          · split <;> exact ⟨_, rfl⟩
    obtain ⟨folder, hf⟩ := key
    exact ⟨folder, by rw [hf]; rfl, hf⟩

/-- **C102**: a project can be made from an aircraft file exactly if the file can be loaded; with any
other file there is an exception. -/
theorem C102_made_iff (W : World) (root : String) (path n : Name) (hn : JsonFile path n)
    (content : Option FileAircraft) :
    (setupWkdir W root (some (path, content)) none).2 = .made ↔
      ∃ f, content = some f ∧ FileOk root W.airfoilOk f := by
  obtain ⟨e1, e2, e3⟩ := hn.names
  cases content with
  | none => simp [setupWkdir]
  | some f =>
    have : (writeFile (String.ofList (n ++ ".json".toList)) f []).lookup
        (String.ofList (n ++ ".json".toList)) = some f := by simp [writeFile]
    unfold setupWkdir
    simp only [e1, e2, e3, this]
    simp only [Option.some.injEq, exists_eq_left', ← C92_accepted_iff]
    cases loadAircraft root W.airfoilOk f with
    | error e => simp
    | ok ac => simp

/-! ## Examples -/

/-- Surroundings in which the names of new projects are known. -/
noncomputable def setupWorld : World :=
  { exampleWorld with
    suffix := fun a => if a = "plane.json" ∨ a = "template_aircraft.json" then ".json" else "" }

/-- The segments of the aircraft with a flap are not changed by saving. -/
theorem flap_survives {ac : LoadedAircraft} (h : loadAircraft "/home" (fun _ => true) flapFile = .ok ac) :
    ∀ w ∈ ac.wings, ∀ s ∈ w.segments, Survives "/home" s := by
  obtain ⟨-, -, hw, -⟩ := C92_content _ _ _ _ h
  obtain ⟨w, hw1, hwf⟩ := forall₂_singleton_left hw
  obtain ⟨s, hs1, hsf⟩ := forall₂_singleton_left hwf.segments
  intro w' hw' s' hs'
  rw [hw1, List.mem_singleton] at hw'
  subst hw'
  rw [hs1, List.mem_singleton] at hs'
  subst hs'
  have e1 : s'.gen.vertices = taperedSeg := noSpan_given hsf.vertices ⟨rfl, rfl, rfl, rfl⟩
  have e2 := (airfoilAt_iff _ _ _).1 hsf.inner
  have e3 := (airfoilAt_iff _ _ _).1 hsf.outer
  refine ⟨?_, ?_, ?_, ?_⟩
  · rw [e1]; simp [Backward, taperedSeg]
  · rw [e1]; simp [Backward, taperedSeg]; norm_num
  · rw [e2]; intro _; decide
  · rw [e3]; intro hb; exact absurd hb (by decide)

/-- Example for C102: a project made from the file of an aircraft with a flap analyses that aircraft,
without an exception. -/
example : ∃ ac folder P, loadAircraft "/home" (fun _ => true) flapFile = .ok ac ∧
    setupWkdir setupWorld "/home" (some ("db/plane.json".toList, some flapFile)) none =
      (some folder, .made) ∧ folder.project "/home" "plane.json" = some P ∧
    (∃ x, loadProject setupWorld P = .ok x ∧ x.aircraft = ac) ∧
    ((∃ out, runProject setupWorld P = .ok out) ∨
      ∃ files, runProject setupWorld P = .error (.notFinite, files)) := by
  obtain ⟨ac, hac⟩ := (C92_accepted_iff "/home" (fun _ => true) flapFile).2 flapFile_ok
  obtain ⟨folder, P, h1, h2, h3, -, h5⟩ := C102_from_file setupWorld exactDgesv_lapack "/home" (by decide)
    "db/plane.json".toList "plane".toList ⟨by decide, ⟨'p', by decide, by decide⟩⟩ rfl
    (by
      show (if "plane.json" = "__cpacs" then "__CPACS" else "plane.json") ≠ "__CPACS"
      decide) flapFile ac hac
  exact ⟨ac, folder, P, hac, h1, h2, h3.2 (flap_survives hac), h5 (flap_survives hac) flapFile_layout
    ⟨_, List.mem_singleton.2 rfl, by simp⟩⟩

/-- Example for C102: the template. -/
example : ∃ folder P, setupWkdir setupWorld "/home" none none = (some folder, .made) ∧
    folder.project "/home" "template.json" = some P ∧
    ((∃ out, runProject setupWorld P = .ok out) ∨
      ∃ files, runProject setupWorld P = .error (.notFinite, files)) := by
  obtain ⟨folder, P, x, h1, h2, -, -, -, h6⟩ := C102_template setupWorld exactDgesv_lapack "/home" rfl rfl
    (by
      show (if "template.json" = "__cpacs" then "__CPACS" else "template.json") ≠ "__CPACS"
      decide)
  exact ⟨folder, P, h1, h2, h6⟩

/-- Example for C102: an aircraft without reference area is not accepted, and the folder it leaves
stops the next attempt. -/
example : ∃ folder, setupWkdir setupWorld "/home" none (setupWkdir setupWorld "/home"
      (some ("db/plane.json".toList, some { flapFile with refs := ⟨0, 4, 2, 0, 0, none⟩ })) none).1 =
      (some folder, .refused) ∧
    (setupWkdir setupWorld "/home"
      (some ("db/plane.json".toList, some { flapFile with refs := ⟨0, 4, 2, 0, 0, none⟩ })) none).2 ≠
      .made := by
  obtain ⟨-, folder, h, -⟩ := C102_existing setupWorld "/home"
    (some ("db/plane.json".toList, some { flapFile with refs := ⟨0, 4, 2, 0, 0, none⟩ })) none none
  refine ⟨folder, h, fun hm => ?_⟩
  obtain ⟨f, hf, hok⟩ := (C102_made_iff setupWorld "/home" "db/plane.json".toList "plane".toList
    ⟨by decide, ⟨'p', by decide, by decide⟩⟩ _).1 hm
  cases hf
  have := hok.area
  norm_num at this

end Verif
