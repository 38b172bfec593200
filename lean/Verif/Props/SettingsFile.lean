import Verif.Props.Settings

/-!
# Property C98: which settings files are accepted, and what they mean
-/

namespace Verif

/-! ## Specification -/

/-- True or False. -/
def PyVal.IsBool (v : PyVal) : Prop := ∃ b, v = .bool b

/-- An integer; Python counts True and False among them. -/
def PyVal.IsInt (v : PyVal) : Prop := (∃ z, v = .int z) ∨ v.IsBool

/-- A list. -/
def PyVal.IsList (v : PyVal) : Prop := ∃ l, v = .list l

/-- An empty value. -/
def PyVal.IsEmpty (v : PyVal) : Prop :=
  v = .none ∨ v = .bool false ∨ v = .int 0 ∨ v = .float (.fin 0) ∨ v = .str "" ∨ v = .list [] ∨
    v = .dict []

/-- If the file has an entry `k`, its value is as `P` says. -/
def IfGiven (d : PyDict) (k : String) (P : PyVal → Prop) : Prop := ∀ v, (k, v) ∈ d → P v

/-- A group of plot options. -/
def PlotGroup (opt : PyVal → Prop) (v : PyVal) : Prop :=
  ∃ g, v = .dict g ∧ (∃ o, g.lookup "opt" = some o ∧ opt o) ∧
    (∃ b, g.lookup "show" = some b ∧ b.IsBool) ∧ ∃ b, g.lookup "save" = some b ∧ b.IsBool

/-- What a settings file must satisfy: aircraft (a JSON or an XML file) and state are given, all
other entries may be left out; a group that is given must be complete. -/
structure SettingsFileOk (suffix : String → String) (d : PyDict) : Prop where
  aircraft : ∃ a, ("aircraft", PyVal.str a) ∈ d ∧ (suffix a = ".json" ∨ suffix a = ".xml")
  state : ∃ a, ("state", PyVal.str a) ∈ d
  panelsC : IfGiven d "vlm_autopanels_c" PyVal.IsInt
  panelsS : IfGiven d "vlm_autopanels_s" PyVal.IsInt
  saved : IfGiven d "save_results" fun v => ∃ g, v = .dict g ∧
    ∀ k ∈ ["global", "panelwise", "aeroperformance", "matrix_system"],
      ∃ b, g.lookup k = some b ∧ b.IsBool
  plots : IfGiven d "plot" fun v => ∃ g, v = .dict g ∧
    (∀ k ∈ ["geometry", "lattice", "matrix_downwash"],
      ∃ o, g.lookup k = some o ∧ PlotGroup PyVal.IsList o) ∧
    ∃ o, g.lookup "results" = some o ∧ PlotGroup (fun x => x.IsList ∨ x.IsEmpty) o
  rotations : IfGiven d "_do_normal_rotations" PyVal.IsBool
  deformationCheck : IfGiven d "_deformation_check" PyVal.IsBool
  epsilon : IfGiven d "_epsilon" fun v => ∃ x, v = .float (.fin x) ∧ 0 < x ∧ x < 1

/-- The values of settings that are left out. -/
def settingsLeftOut : List (String × PyVal) :=
  [("deformation", .none), ("vlm_autopanels_c", .int 4), ("vlm_autopanels_s", .int 4),
    ("save_results", .dict [("global", .bool false), ("panelwise", .bool false),
      ("aeroperformance", .bool false), ("matrix_system", .bool false)]),
    ("_do_normal_rotations", .bool true), ("_deformation_check", .bool true),
    ("_epsilon", .float (.fin (1 / 1000000)))]

/-! ## Proofs -/

theorem truthy_false_iff (v : PyVal) : v.truthy = false ↔ v.IsEmpty := by
  unfold PyVal.IsEmpty
  cases v with
  | none => simp [PyVal.truthy]
  | bool b => simp [PyVal.truthy]
  | int z => simp [PyVal.truthy]
  | float x => cases x <;> simp [PyVal.truthy]
  | str s => simp [PyVal.truthy]
  | list l => simp [PyVal.truthy]
  | dict l => simp [PyVal.truthy]

theorem isBool_iff (v : PyVal) : v.isInst .bool = true ↔ v.IsBool := by
  unfold PyVal.IsBool
  cases v <;> simp [PyVal.isInst]

theorem isInt_iff (v : PyVal) : v.isInst .int = true ↔ v.IsInt := by
  unfold PyVal.IsInt PyVal.IsBool
  cases v <;> simp [PyVal.isInst]

theorem isList_iff (v : PyVal) : v.isInst .list = true ↔ v.IsList := by
  unfold PyVal.IsList
  cases v <;> simp [PyVal.isInst]

theorem isStr_iff (v : PyVal) : v.isInst .str = true ↔ ∃ s, v = .str s := by
  cases v <;> simp [PyVal.isInst]

theorem isFloat_iff (v : PyVal) : v.isInst .float = true ↔ ∃ s, v = .float s := by
  cases v <;> simp [PyVal.isInst]

/-- Check of an entry with one type. -/
theorem check_one (dv : PyVal) (t : PyType) (v : Option PyVal) :
    checkEntry (.leaf dv [some t]) v = .ok () ↔ ∃ x, v = some x ∧ x.isInst t = true := by
  cases v with
  | none => simp [checkEntry]
  | some x => simp [checkEntry, PyVal.hasType]

theorem plotOptions_iff (v : Option PyVal) :
    checkEntry (.group plotOptions) v = .ok () ↔ ∃ x, v = some x ∧ PlotGroup PyVal.IsList x := by
  rw [checkEntry_group_ok]
  unfold PlotGroup plotOptions
  constructor
  · rintro ⟨d, rfl, h⟩
    rw [checkDict_iff] at h
    simp only [List.forall_mem_cons, List.not_mem_nil, false_imp_iff, implies_true, and_true,
      check_one, isBool_iff, isList_iff] at h
    exact ⟨_, rfl, d, rfl, h⟩
  · rintro ⟨_, rfl, d, rfl, h⟩
    refine ⟨d, rfl, ?_⟩
    rw [checkDict_iff]
    simp only [List.forall_mem_cons, List.not_mem_nil, false_imp_iff, implies_true, and_true,
      check_one, isBool_iff, isList_iff]
    exact h

/-- Complete settings. -/
structure SettingsOk (s : PyDict) : Prop where
  aircraft : ∃ a, s.lookup "aircraft" = some (.str a)
  state : ∃ a, s.lookup "state" = some (.str a)
  panelsC : ∃ v, s.lookup "vlm_autopanels_c" = some v ∧ v.IsInt
  panelsS : ∃ v, s.lookup "vlm_autopanels_s" = some v ∧ v.IsInt
  saved : ∃ g, s.lookup "save_results" = some (.dict g) ∧
    ∀ k ∈ ["global", "panelwise", "aeroperformance", "matrix_system"],
      ∃ b, g.lookup k = some b ∧ b.IsBool
  plots : ∃ g, s.lookup "plot" = some (.dict g) ∧
    ∀ k ∈ ["geometry", "lattice", "matrix_downwash", "results"],
      ∃ o, g.lookup k = some o ∧ PlotGroup PyVal.IsList o
  rotations : ∃ v, s.lookup "_do_normal_rotations" = some v ∧ v.IsBool
  deformationCheck : ∃ v, s.lookup "_deformation_check" = some v ∧ v.IsBool
  epsilon : ∃ x, s.lookup "_epsilon" = some (.float x)

theorem check_settings_iff (s : PyDict) :
    checkDict defaultSettings s = .ok () ↔ SettingsOk s := by
  rw [checkDict_iff]
  unfold defaultSettings
  simp only [List.forall_mem_cons, List.not_mem_nil, false_imp_iff, implies_true, and_true,
    check_one, isBool_iff, isInt_iff, isStr_iff, isFloat_iff, checkEntry_group_ok]
  constructor
  · rintro ⟨h1, h2, -, h3, h4, h5, h6, h7, h8, h9⟩
    refine ⟨?_, ?_, h3, h4, ?_, ?_, h7, h8, ?_⟩
    · obtain ⟨_, h, a, rfl⟩ := h1
      exact ⟨a, h⟩
    · obtain ⟨_, h, a, rfl⟩ := h2
      exact ⟨a, h⟩
    · obtain ⟨g, h, hg⟩ := h5
      refine ⟨g, h, ?_⟩
      rw [checkDict_iff] at hg
      unfold defaultSaveDict at hg
      simp only [List.forall_mem_cons, List.not_mem_nil, false_imp_iff, implies_true, and_true,
        check_one, isBool_iff] at hg ⊢
      exact hg
    · obtain ⟨g, h, hg⟩ := h6
      refine ⟨g, h, ?_⟩
      rw [checkDict_iff] at hg
      unfold defaultPlotDict at hg
      simp only [List.forall_mem_cons, List.not_mem_nil, false_imp_iff, implies_true, and_true,
        plotOptions_iff] at hg ⊢
      exact hg
    · obtain ⟨_, h, a, rfl⟩ := h9
      exact ⟨a, h⟩
  · rintro ⟨⟨a, h1⟩, ⟨b, h2⟩, h3, h4, ⟨g, h5, g5⟩, ⟨p, h6, g6⟩, h7, h8, ⟨x, h9⟩⟩
    refine ⟨⟨_, h1, a, rfl⟩, ⟨_, h2, b, rfl⟩, ?_, h3, h4, ⟨g, h5, ?_⟩, ⟨p, h6, ?_⟩, h7, h8,
      ⟨_, h9, x, rfl⟩⟩
    · simp [checkEntry]
    · rw [checkDict_iff]
      unfold defaultSaveDict
      simp only [List.forall_mem_cons, List.not_mem_nil, false_imp_iff, implies_true, and_true,
        check_one, isBool_iff] at g5 ⊢
      exact g5
    · rw [checkDict_iff]
      unfold defaultPlotDict
      simp only [List.forall_mem_cons, List.not_mem_nil, false_imp_iff, implies_true, and_true,
        plotOptions_iff] at g6 ⊢
      exact g6

/-- The value of a setting: as given, else the default. -/
theorem or_given {d : PyDict} (hd : (d.map Prod.fst).Nodup) {k : String} {dv : PyVal}
    {P : PyVal → Prop} (h0 : P dv) :
    (∃ v, (d.lookup k).or (some dv) = some v ∧ P v) ↔ IfGiven d k P := by
  unfold IfGiven
  cases h : d.lookup k with
  | none =>
    rw [lookup_none] at h
    exact ⟨fun _ v hv => absurd hv (h v), fun _ => ⟨dv, rfl, h0⟩⟩
  | some x =>
    constructor
    · rintro ⟨v, hv, hp⟩ w hw
      rw [lookup_of_mem hd hw] at h
      cases h
      cases hv
      exact hp
    · intro hp
      exact ⟨x, rfl, hp x (lookup_mem h)⟩

theorem aircraftFileType_iff (suffix : String → String) {s : PyDict} {a : String}
    (h : s.lookup "aircraft" = some (.str a)) (b : Bool) :
    aircraftFileType suffix s = .ok b ↔ (suffix a = ".json" ∧ b = false) ∨
      (suffix a = ".xml" ∧ b = true) := by
  unfold aircraftFileType
  simp only [h, PyVal.format]
  split_ifs with h1 h2
  · rw [h1]
    simp [eq_comm]
  · simp [h2, eq_comm]
  · simp [h1, h2]

/-- The settings in full. -/
theorem load_iff (suffix : String → String) (d : PyDict) (s : SettingsObj) :
    loadSettings suffix (.dict d) = .ok s ↔
      plotDefault (updateAll (defaultDict defaultSettings) d) = .ok s.settings ∧
      SettingsOk s.settings ∧
      (∃ x, s.settings.lookup "_epsilon" = some (.float (.fin x)) ∧ 0 < x ∧ x < 1) ∧
      aircraftFileType suffix s.settings = .ok s.aircraftIsCpacs := by
  constructor
  · intro h
    obtain ⟨⟨h1, -⟩ | ⟨d', h1, h2⟩, h3⟩ := load_cases h
    · cases h1
    · cases h1
      obtain ⟨g1, g2, g3⟩ := updateSettings_ok h2
      exact ⟨g1, (check_settings_iff _).1 g2, g3, h3⟩
  · rintro ⟨h1, h2, ⟨x, hx, h0, h3⟩, h4⟩
    simp only [loadSettings, initSettings, updateSettings, h1, checkSettings,
      (check_settings_iff _).2 h2, hx, if_pos (And.intro h0 h3), h4]

theorem lookup_merged {d : PyDict} (hd : (d.map Prod.fst).Nodup) (k : String) :
    (updateAll (defaultDict defaultSettings) d).lookup k =
      (d.lookup k).or ((defaultSettings.lookup k).map Tmpl.default) := by
  rw [lookup_updateAll _ _ hd, lookup_default]

theorem lookup_loaded {d s : PyDict} (hd : (d.map Prod.fst).Nodup)
    (h : plotDefault (updateAll (defaultDict defaultSettings) d) = .ok s)
    {k : String} (hk : k ≠ "plot") : s.lookup k =
      (d.lookup k).or ((defaultSettings.lookup k).map Tmpl.default) := by
  rw [← lookup_merged hd]
  obtain ⟨p, r, o, -, -, -, ⟨-, rfl⟩ | ⟨-, rfl⟩⟩ := plotDefault_ok h
  · rfl
  · rw [lookup_set, if_neg hk]

/-- The group 'plot' before results are chosen. -/
def PlotsGiven (v : PyVal) : Prop := ∃ g, v = .dict g ∧
    (∀ k ∈ ["geometry", "lattice", "matrix_downwash"],
      ∃ o, g.lookup k = some o ∧ PlotGroup PyVal.IsList o) ∧
    ∃ o, g.lookup "results" = some o ∧ PlotGroup (fun x => x.IsList ∨ x.IsEmpty) o

theorem plots_iff (s : PyDict) :
    (∃ s', plotDefault s = .ok s' ∧ ∃ g, s'.lookup "plot" = some (.dict g) ∧
      ∀ k ∈ ["geometry", "lattice", "matrix_downwash", "results"],
        ∃ o, g.lookup k = some o ∧ PlotGroup PyVal.IsList o) ↔
    ∃ v, s.lookup "plot" = some v ∧ PlotsGiven v := by
  constructor
  · rintro ⟨s', hs, g, hg, hk⟩
    obtain ⟨p, r, o, h1, h2, h3, h4⟩ := plotDefault_ok hs
    refine ⟨_, h1, p, rfl, ?_⟩
    rcases h4 with ⟨-, rfl⟩ | ⟨ht, rfl⟩
    · rw [h1] at hg
      cases hg
      refine ⟨fun k hm => hk k (by simp at hm ⊢; tauto), _, h2, ?_⟩
      obtain ⟨x, hx, hp⟩ := hk "results" (by simp)
      rw [h2] at hx
      cases hx
      obtain ⟨g, e, ⟨o', o1, o2⟩, hp⟩ := hp
      exact ⟨g, e, ⟨o', o1, .inl o2⟩, hp⟩
    · rw [lookup_set, if_pos rfl] at hg
      cases hg
      constructor
      · intro k hm
        obtain ⟨x, hx, hp⟩ := hk k (by simp at hm ⊢; tauto)
        rw [lookup_set, if_neg (by rintro rfl; simp at hm)] at hx
        exact ⟨x, hx, hp⟩
      · obtain ⟨x, hx, hp⟩ := hk "results" (by simp)
        rw [lookup_set, if_pos rfl] at hx
        cases hx
        obtain ⟨g, e, -, hp⟩ := hp
        cases e
        simp only [lookup_set] at hp
        exact ⟨_, h2, r, rfl, ⟨o, h3, .inr ((truthy_false_iff o).1 ht)⟩, hp⟩
  · rintro ⟨_, h1, p, rfl, hk, x, h2, r, rfl, ⟨o, h3, ho⟩, hr⟩
    by_cases ht : o.truthy = true
    · refine ⟨s, ?_, p, h1, ?_⟩
      · simp only [plotDefault, PyVal.item, h1, h2, h3, ht, if_true]
      · intro k hm
        by_cases e : k = "results"
        · subst e
          refine ⟨_, h2, r, rfl, ⟨o, h3, ?_⟩, hr⟩
          rcases ho with ho | ho
          · exact ho
          · rw [(truthy_false_iff o).2 ho] at ht
            cases ht
        · exact hk k (by simp at hm ⊢; tauto)
    · refine ⟨PyDict.set s "plot" (.dict (PyDict.set p "results"
          (.dict (PyDict.set r "opt" (.list [.str "cp"]))))), ?_,
        PyDict.set p "results" (.dict (PyDict.set r "opt" (.list [.str "cp"]))), ?_, ?_⟩
      · simp only [plotDefault, PyVal.item, h1, h2, h3, ht, if_false, Bool.false_eq_true]
      · rw [lookup_set, if_pos rfl]
      · intro k hm
        rw [lookup_set]
        by_cases e : k = "results"
        · subst e
          refine ⟨_, if_pos rfl, _, rfl, ⟨.list [.str "cp"], by rw [lookup_set, if_pos rfl], _, rfl⟩,
            ?_⟩
          simp only [lookup_set]
          exact hr
        · rw [if_neg e]
          exact hk k (by simp at hm ⊢; tauto)

theorem plots_default : PlotsGiven (Tmpl.group defaultPlotDict).default := by
  have h : PlotGroup PyVal.IsList (.dict (defaultDict plotOptions)) :=
    ⟨_, rfl, ⟨_, rfl, _, rfl⟩, ⟨_, rfl, _, rfl⟩, _, rfl, _, rfl⟩
  refine ⟨_, rfl, ?_, _, rfl, ?_⟩
  · intro k hk
    simp only [List.mem_cons, List.not_mem_nil, or_false] at hk
    rcases hk with rfl | rfl | rfl <;> exact ⟨_, rfl, h⟩
  · exact ⟨_, rfl, ⟨_, rfl, .inl ⟨_, rfl⟩⟩, ⟨_, rfl, _, rfl⟩, _, rfl, _, rfl⟩

/-- **C98**: a settings file is accepted exactly if it is well-formed. -/
theorem C98_accepted_iff (suffix : String → String) (d : PyDict) (hd : (d.map Prod.fst).Nodup) :
    (∃ s, loadSettings suffix (.dict d) = .ok s) ↔ SettingsFileOk suffix d := by
  have bools : ∀ k dv, (defaultSettings.lookup k).map Tmpl.default = some (.bool dv) →
      ((∃ v, (d.lookup k).or ((defaultSettings.lookup k).map Tmpl.default) = some v ∧ v.IsBool) ↔
        IfGiven d k PyVal.IsBool) := by
    intro k dv h
    rw [h]
    exact or_given hd ⟨_, rfl⟩
  have ints : ∀ k z, (defaultSettings.lookup k).map Tmpl.default = some (.int z) →
      ((∃ v, (d.lookup k).or ((defaultSettings.lookup k).map Tmpl.default) = some v ∧ v.IsInt) ↔
        IfGiven d k PyVal.IsInt) := by
    intro k dv h
    rw [h]
    exact or_given hd (.inl ⟨_, rfl⟩)
  have strs : ∀ k a, (defaultSettings.lookup k).map Tmpl.default = some .none →
      ((d.lookup k).or ((defaultSettings.lookup k).map Tmpl.default) = some (.str a) ↔
        (k, PyVal.str a) ∈ d) := by
    intro k a h
    rw [h]
    constructor
    · intro e
      cases hl : d.lookup k with
      | none => rw [hl] at e; simp at e
      | some x =>
        rw [hl] at e
        cases e
        exact lookup_mem hl
    · intro e
      rw [lookup_of_mem hd e]
      rfl
  have esave : (∃ v, (d.lookup "save_results").or
      ((defaultSettings.lookup "save_results").map Tmpl.default) = some v ∧ ∃ g, v = .dict g ∧
        ∀ k ∈ ["global", "panelwise", "aeroperformance", "matrix_system"],
          ∃ b, g.lookup k = some b ∧ b.IsBool) ↔ IfGiven d "save_results" _ :=
    or_given hd (dv := (Tmpl.group defaultSaveDict).default) ⟨_, rfl, by
      intro k hk
      simp only [List.mem_cons, List.not_mem_nil, or_false] at hk
      rcases hk with rfl | rfl | rfl | rfl <;> exact ⟨_, rfl, _, rfl⟩⟩
  have eeps : (∃ v, (d.lookup "_epsilon").or
      ((defaultSettings.lookup "_epsilon").map Tmpl.default) = some v ∧
        ∃ x, v = .float (.fin x) ∧ 0 < x ∧ x < 1) ↔ IfGiven d "_epsilon" _ :=
    or_given hd (dv := .float (.fin (1 / 1000000))) ⟨_, rfl, by norm_num, by norm_num⟩
  have eplot : (∃ v, (d.lookup "plot").or
      ((defaultSettings.lookup "plot").map Tmpl.default) = some v ∧ PlotsGiven v) ↔
      IfGiven d "plot" PlotsGiven := or_given hd plots_default
  constructor
  · rintro ⟨s, h⟩
    obtain ⟨h1, h2, ⟨x, hx, hx0⟩, h3⟩ := (load_iff suffix d s).1 h
    have hl := fun (k : String) (hk : k ≠ "plot") => lookup_loaded hd h1 hk
    have hp := (plots_iff _).1 ⟨_, h1, h2.plots⟩
    rw [lookup_merged hd] at hp
    obtain ⟨a, ha⟩ := h2.aircraft
    obtain ⟨b, hb⟩ := h2.state
    have h4 := h2.panelsC
    have h5 := h2.panelsS
    have h6 := h2.saved
    have h7 := h2.rotations
    have h8 := h2.deformationCheck
    have hf := (aircraftFileType_iff suffix ha _).1 h3
    rw [hl _ (by decide)] at ha hb h4 h5 h7 h8 hx
    refine ⟨⟨a, (strs _ _ rfl).1 ha, by tauto⟩, ⟨b, (strs _ _ rfl).1 hb⟩, (ints _ 4 rfl).1 h4,
      (ints _ 4 rfl).1 h5, esave.1 ?_, eplot.1 hp, (bools _ true rfl).1 h7, (bools _ true rfl).1 h8,
      eeps.1 ⟨_, hx, x, rfl, hx0⟩⟩
    obtain ⟨g, hg, hk⟩ := h6
    rw [hl _ (by decide)] at hg
    exact ⟨_, hg, g, rfl, hk⟩
  · rintro ⟨⟨a, ha, hf⟩, ⟨b, hb⟩, h4, h5, h6, h7, h8, h9, h10⟩
    have hp := (plots_iff (updateAll (defaultDict defaultSettings) d)).2 (by
      rw [lookup_merged hd]
      exact eplot.2 h7)
    obtain ⟨s, h1, hp⟩ := hp
    have hl := fun (k : String) (hk : k ≠ "plot") => lookup_loaded hd h1 hk
    obtain ⟨_, he, x, rfl, hx⟩ := eeps.2 h10
    obtain ⟨_, hs, g, rfl, hg⟩ := esave.2 h6
    have h4 := (ints _ 4 rfl).2 h4
    have h5 := (ints _ 4 rfl).2 h5
    have h8 := (bools _ true rfl).2 h8
    have h9 := (bools _ true rfl).2 h9
    have ha := (strs _ _ rfl).2 ha
    have hb := (strs _ _ rfl).2 hb
    rw [← hl _ (by decide)] at h4 h5 h8 h9 ha hb he hs
    refine ⟨⟨s, decide (suffix a = ".xml")⟩, (load_iff _ _ _).2 ⟨h1, ⟨⟨a, ha⟩, ⟨b, hb⟩, h4, h5,
      ⟨g, hs, hg⟩, hp, h8, h9, ⟨_, he⟩⟩, ⟨x, he, hx⟩, (aircraftFileType_iff suffix ha _).2 ?_⟩⟩
    rcases hf with hf | hf <;> simp [hf]

/-- **C98**: what accepted settings mean.  Entries that are left out have fixed values, entries that
are given keep theirs, and the aircraft is read from CPACS exactly if its file is an XML file. -/
theorem C98_content (suffix : String → String) (d : PyDict) (hd : (d.map Prod.fst).Nodup)
    (s : SettingsObj) (h : loadSettings suffix (.dict d) = .ok s) :
    (∀ k v, k ≠ "plot" → (k, v) ∈ d → s.settings.lookup k = some v) ∧
    (∀ kv ∈ settingsLeftOut, (∀ v, (kv.1, v) ∉ d) → s.settings.lookup kv.1 = some kv.2) ∧
    ((∀ v, ("plot", v) ∉ d) → s.settings.lookup "plot" = some loadedPlot) ∧
    ∀ a, ("aircraft", PyVal.str a) ∈ d → (s.aircraftIsCpacs = true ↔ suffix a = ".xml") := by
  obtain ⟨k1, k2, k3, -⟩ := C48_defaults_partial suffix d hd s h
  obtain ⟨h1, h2, -, h3⟩ := (load_iff suffix d s).1 h
  refine ⟨fun k v hk hm => k2 k v hm hk, ?_, k3, ?_⟩
  · intro kv hkv
    simp only [settingsLeftOut, List.mem_cons, List.not_mem_nil, or_false] at hkv
    rcases hkv with rfl | rfl | rfl | rfl | rfl | rfl | rfl <;> intro hm
    · exact k1 _ (.leaf .none [Option.none, some .str]) (by simp [defaultSettings]) (by decide) hm
    · exact k1 _ (.leaf (.int 4) [some .int]) (by simp [defaultSettings]) (by decide) hm
    · exact k1 _ (.leaf (.int 4) [some .int]) (by simp [defaultSettings]) (by decide) hm
    · exact k1 _ (.group defaultSaveDict) (by simp [defaultSettings]) (by decide) hm
    · exact k1 _ (.leaf (.bool true) [some .bool]) (by simp [defaultSettings]) (by decide) hm
    · exact k1 _ (.leaf (.bool true) [some .bool]) (by simp [defaultSettings]) (by decide) hm
    · exact k1 _ (.leaf (.float (.fin (1 / 1000000))) [some .float]) (by simp [defaultSettings])
        (by decide) hm
  · intro a ha
    have := (aircraftFileType_iff suffix (k2 _ _ ha (by decide)) _).1 h3
    rcases this with ⟨g1, g2⟩ | ⟨g1, g2⟩ <;> simp [g1, g2]

/-- **C98**: files that do not contain a dictionary are rejected. -/
theorem C98_other_files (suffix : String → String) (hs : suffix "None" = "") (file : PyVal)
    (hf : ∀ d, file ≠ .dict d) : ∃ e, loadSettings suffix file = .error e := by
  cases file with
  | dict d => exact absurd rfl (hf d)
  | none =>
    have e : PyVal.format ((defaultDict defaultSettings).lookup "aircraft") = "None" := rfl
    refine ⟨.valueError, ?_⟩
    simp [loadSettings, initSettings, aircraftFileType, e, hs]
  | _ => exact ⟨_, rfl⟩

/-- **C98**: flight states are read from CPACS exactly if the entry 'state' says so and the aircraft is
read from CPACS; with a JSON aircraft that entry raises RuntimeError. -/
theorem C98_state_source (suffix upper : String → String) (d : PyDict)
    (hd : (d.map Prod.fst).Nodup) (s : SettingsObj) (h : loadSettings suffix (.dict d) = .ok s)
    (a b : String) (ha : ("aircraft", PyVal.str a) ∈ d) (hb : ("state", PyVal.str b) ∈ d) :
    (s.stateIsCpacs upper = .ok true ↔ upper b = "__CPACS" ∧ suffix a = ".xml") ∧
    (s.stateIsCpacs upper = .ok false ↔ upper b ≠ "__CPACS") ∧
    (s.stateIsCpacs upper = .error .runtimeError ↔ upper b = "__CPACS" ∧ suffix a = ".json") := by
  obtain ⟨k1, -, -, k2⟩ := C98_content suffix d hd s h
  have hf := (C98_accepted_iff suffix d hd).1 ⟨s, h⟩
  obtain ⟨a', ha', hs⟩ := hf.aircraft
  have e := lookup_of_mem hd ha
  rw [lookup_of_mem hd ha'] at e
  cases e
  have hc := k2 _ ha
  have e : s.stateIsCpacs upper = if upper b = "__CPACS" then
      if s.aircraftIsCpacs = false then .error .runtimeError else .ok true else .ok false := by
    simp only [SettingsObj.stateIsCpacs, PyVal.item, k1 _ _ (by decide) hb]
  rw [e]
  by_cases hu : upper b = "__CPACS"
  · rcases hs with hs | hs
    · have : s.aircraftIsCpacs = false := by
        cases hb : s.aircraftIsCpacs with
        | false => rfl
        | true => rw [hc.1 hb] at hs; simp at hs
      simp [hu, hs, this]
    · simp [hu, hs, hc.2 hs]
  · simp [hu]

/-! ## Examples -/

/-- A file with a complete group 'plot' and an entry of its own. -/
example : SettingsFileOk demoSuffix demoDict ∧ ∀ v, ("vlm_autopanels_c", v) ∉ demoDict := by
  refine ⟨?_, ?_⟩
  · have h : (∃ s, loadSettings demoSuffix (.dict demoDict) = .ok s) := by
      refine ⟨⟨demoSettings, false⟩, ?_⟩
      have h1 : plotDefault (updateAll (defaultDict defaultSettings) demoDict) =
        .ok demoSettings := rfl
      have h2 : checkSettings demoSettings = .ok () := by
        unfold checkSettings
        rw [show checkDict defaultSettings demoSettings = .ok () from rfl,
          show demoSettings.lookup "_epsilon" = some (.float (.fin (1 / 1000000))) from rfl]
        simp only
        rw [if_pos (by norm_num)]
      have h3 : aircraftFileType demoSuffix demoSettings = .ok false := rfl
      simp only [loadSettings, initSettings, updateSettings, h1, h2, h3]
    exact (C98_accepted_iff _ _ (by decide)).1 h
  · rw [← lookup_none]
    rfl

/-- A file with an integer `_epsilon` is not accepted, one without `state` neither. -/
example : (¬ ∃ s, loadSettings demoSuffix (.dict [("aircraft", .str "a.json"),
      ("state", .str "s.json"), ("_epsilon", .int 0)]) = .ok s) ∧
    ¬ ∃ s, loadSettings demoSuffix (.dict [("aircraft", .str "a.json")]) = .ok s := by
  constructor
  · intro h
    obtain ⟨x, hx, -⟩ := ((C98_accepted_iff _ _ (by decide)).1 h).epsilon (.int 0) (by simp)
    cases hx
  · intro h
    obtain ⟨x, hx⟩ := ((C98_accepted_iff _ _ (by decide)).1 h).state
    simp at hx

/-- A minimal file: 4 automatic panels, nothing is saved; `state` may point to CPACS. -/
example : ∃ s, loadSettings (fun _ => ".xml") (.dict [("aircraft", .str "a.xml"),
      ("state", .str "__cpacs")]) = .ok s ∧
    s.settings.lookup "vlm_autopanels_s" = some (.int 4) ∧ s.aircraftIsCpacs = true ∧
    s.stateIsCpacs (fun x => String.ofList (x.toList.map Char.toUpper)) = .ok true := by
  have hd : (([("aircraft", .str "a.xml"), ("state", .str "__cpacs")] : PyDict).map
    Prod.fst).Nodup := by decide
  obtain ⟨s, hs⟩ := (C98_accepted_iff (fun _ => ".xml") _ hd).2
    ⟨⟨"a.xml", by simp, .inr rfl⟩, ⟨"__cpacs", by simp⟩, by simp [IfGiven], by simp [IfGiven], by simp [IfGiven],
      by simp [IfGiven], by simp [IfGiven], by simp [IfGiven], by simp [IfGiven]⟩
  obtain ⟨-, h2, -, h3⟩ := C98_content _ _ hd s hs
  refine ⟨s, hs, h2 ("vlm_autopanels_s", .int 4) (by simp [settingsLeftOut]) (by simp),
    (h3 "a.xml" (by simp)).2 rfl, ?_⟩
  exact (C98_state_source _ _ _ hd s hs "a.xml" "__cpacs" (by simp) (by simp)).1.2
    ⟨by decide +kernel, rfl⟩

end Verif
