import Verif.Props.Setup

/-!
# Properties C103 and C104: repeated runs, after saving the project and with other output settings
-/

namespace Verif

/-! ## Specification -/

/-- Two runs come to the same end: both finish or none, and with the same results. -/
structure SameResults (r r' : Except (Stop × Files) RunOut) : Prop where
  finish : (∃ out, r = .ok out) ↔ ∃ out, r' = .ok out
  results : ∀ out out', r = .ok out → r' = .ok out' →
    out'.table = out.table ∧ out'.vlm = out.vlm ∧ out'.lattice = out.lattice

/-- The project after its settings, aircraft and flight states, as loaded, have been saved in place of
the files they were loaded from; `keys` are the unknown keys of the flight states. -/
def Project.resaved (P : Project) (x : Loaded) (a b : String) (keys : List String) : Project :=
  { P with
    settings := (saveSettings x.settings).2
    aircraft := fun n => if n = a then some (saveAircraft x.aircraft) else P.aircraft n
    state := fun n => if n = b then some (x.state.saved keys) else P.state n }

/-- Two settings files differ only in what is saved and what is plotted. -/
def SameButOutput (d d' : PyDict) : Prop :=
  ∀ k v, k ≠ "save_results" → k ≠ "plot" → ((k, v) ∈ d ↔ (k, v) ∈ d')

/-! ## Proof -/

/-- Settings of the analysis itself. -/
structure SameAnalysis (env env' : RunEnv) : Prop where
  lat : env'.lat = env.lat
  refs : env'.refs = env.refs
  eps : env'.eps = env.eps
  doRot : env'.doRot = env.doRot
  autoC : env'.autoC = env.autoC
  autoS : env'.autoS = env.autoS
  dgesv : env'.dgesv = env.dgesv

theorem SameAnalysis.analyse {env env' : RunEnv} (h : SameAnalysis env env') :
    Verif.analyse env' = Verif.analyse env := by
  obtain ⟨h1, h2, h3, h4, h5, h6, h7⟩ := h
  cases env
  cases env'
  simp only at h1 h2 h3 h4 h5 h6 h7
  subst h1 h2 h3 h4 h5 h6 h7
  rfl

/-- Flight states with the same parameters. -/
structure SameStates (st st' : FlightSt ℝ) : Prop where
  num : st'.num = st.num
  entries : ∀ p ∈ statePrimaryParams, ∀ i, st'.aero.entry p i = st.aero.entry p i

theorem SameStates.primary {st st' : FlightSt ℝ} (h : SameStates st st') (i : ℕ) :
    ∀ (ps : List String) (acc : String → Option (Flt ℝ)), (∀ p ∈ ps, p ∈ statePrimaryParams) →
      primaryAero st'.aero i ps acc = primaryAero st.aero i ps acc := by
  intro ps
  induction ps with
  | nil => intros; rfl
  | cons p ps ih =>
    intro acc hp
    unfold primaryAero
    rw [h.entries p (hp p (by simp)) i]
    cases st.aero.entry p i with
    | error e => rfl
    | ok f => exact ih _ fun q hq => hp q (List.mem_cons_of_mem _ hq)

theorem SameStates.current {st st' : FlightSt ℝ} (h : SameStates st st') (i : ℕ) :
    st'.current i = st.current i := by
  unfold FlightSt.current
  rw [h.primary i _ _ (fun _ hp => hp), h.entries "alpha" (by decide), h.entries "beta" (by decide),
    h.entries "airspeed" (by decide)]

/-- Loop states that differ in the files at most. -/
structure SameLoop (x x' : LoopSt) : Prop where
  ac : x'.ac = x.ac
  vlm : x'.vlm = x.vlm
  table : x'.table = x.table
  lattice : x'.lattice = x.lattice

theorem runStep_same {env env' : RunEnv} (he : SameAnalysis env env') {st st' : FlightSt ℝ}
    (hs : SameStates st st') {i : ℕ} {x x' y y' : LoopSt} (hx : SameLoop x x')
    (h : runStep env st i x = .ok y) (h' : runStep env' st' i x' = .ok y') : SameLoop y y' := by
  unfold runStep at h h'
  rw [hs.current, hx.ac, he.analyse, hx.vlm, hx.table] at h'
  cases h1 : st.current i with
  | error e => simp [h1, orStop] at h
  | ok cur =>
  simp only [h1, orStop] at h h'
  cases h2 : prePanelFirst i x.ac with
  | error e => simp [h2] at h
  | ok ac =>
  simp only [h2] at h h'
  cases h3 : cur.toFlow with
  | none => simp [h3] at h
  | some s =>
  simp only [h3] at h h'
  cases h4 : analyse env ac s x.vlm with
  | error e => simp [h4] at h
  | ok lv =>
  obtain ⟨l, v⟩ := lv
  simp only [h4] at h h'
  cases h5 : saveAll env i cur v with
  | error e => simp [h5] at h
  | ok fs =>
  cases h6 : saveAll env' i cur v with
  | error e => simp [h6] at h'
  | ok fs' =>
  simp only [h5, h6] at h h'
  cases h7 : appendAll v.forces forceColumns x.table with
  | error e => simp [h7] at h
  | ok t =>
  simp only [h7] at h h'
  cases h8 : appendAll v.coeffs coeffColumns t with
  | error e => simp [h8] at h
  | ok t' =>
  simp only [h8, Except.ok.injEq] at h h'
  subst h h'
  exact ⟨rfl, rfl, rfl, rfl⟩

theorem runLoop_same {env env' : RunEnv} (he : SameAnalysis env env') {st st' : FlightSt ℝ}
    (hs : SameStates st st') : ∀ (k i : ℕ) {x x' y y' : LoopSt}, SameLoop x x' →
      runLoop env st k i x = .ok y → runLoop env' st' k i x' = .ok y' → SameLoop y y' := by
  intro k
  induction k with
  | zero =>
    intro i x x' y y' hx h h'
    simp only [runLoop, Except.ok.injEq] at h h'
    subst h h'
    exact hx
  | succ k ih =>
    intro i x x' y y' hx h h'
    unfold runLoop at h h'
    cases h1 : runStep env st i x with
    | error e => simp [h1] at h
    | ok z =>
    cases h2 : runStep env' st' i x' with
    | error e => simp [h2] at h'
    | ok z' =>
    simp only [h1, h2] at h h'
    exact ih (i + 1) (runStep_same he hs hx h1 h2) h h'

theorem standardRun_same {env env' : RunEnv} (hd : Lapack env.dgesv) (he : SameAnalysis env env')
    {st st' : FlightSt ℝ} (hs : SameStates st st') (ac : PAircraft ℝ) :
    SameResults (standardRun env ac st) (standardRun env' ac st') := by
  refine ⟨?_, ?_⟩
  · rw [C93_finishes_iff env hd, C93_finishes_iff env' (by rw [he.dgesv]; exact hd), hs.num]
    have hp : ∀ ac', Panelled env' ac ac' ↔ Panelled env ac ac' := by
      intro ac'
      unfold Panelled
      rw [he.autoC, he.autoS]
    have ha : ∀ ac' i a, Analysis.Of env' ac' st' i a ↔ Analysis.Of env ac' st i a := by
      intro ac' i a
      obtain ⟨h1, h2, h3, h4, -, -, -⟩ := he
      have key : ∀ p ∈ statePrimaryParams, st'.aero.entry p i = st.aero.entry p i :=
        fun p hp => hs.entries p hp i
      constructor
      · rintro ⟨e1, e2, e3, e4, e5, e6, e7, e8, e9, e10, e11, e12, e13, e14⟩
        rw [key _ (by decide)] at e1 e2 e3 e4 e5 e6 e7
        rw [h1, h4] at e8
        rw [h3] at e11
        rw [h2] at e12 e13
        rw [h2, h3] at e14
        exact ⟨e1, e2, e3, e4, e5, e6, e7, e8, e9, e10, e11, e12, e13, e14⟩
      · rintro ⟨e1, e2, e3, e4, e5, e6, e7, e8, e9, e10, e11, e12, e13, e14⟩
        rw [← key _ (by decide)] at e1 e2 e3 e4 e5 e6 e7
        rw [← h1, ← h4] at e8
        rw [← h3] at e11
        rw [← h2] at e12 e13
        rw [← h2, ← h3] at e14
        exact ⟨e1, e2, e3, e4, e5, e6, e7, e8, e9, e10, e11, e12, e13, e14⟩
    simp only [hp, ha]
  · intro out out' h h'
    unfold standardRun at h h'
    rw [he.autoC, he.autoS, hs.num] at h'
    cases h1 : setAutopanels env.autoC env.autoS ac with
    | error e => simp [h1] at h
    | ok ac1 =>
    simp only [h1] at h h'
    cases h2 : runLoop env st st.num 0 ⟨ac1, VlmData.fresh, Table.fresh, [], none⟩ with
    | error e => simp [h2] at h
    | ok x =>
    cases h3 : runLoop env' st' st.num 0 ⟨ac1, VlmData.fresh, Table.fresh, [], none⟩ with
    | error e => simp [h3] at h'
    | ok x' =>
    have hx := runLoop_same he hs _ _ ⟨rfl, rfl, rfl, rfl⟩ h2 h3
    simp only [h2, h3] at h h'
    cases h4 : saveCpacsMap env x.table with
    | error e => simp [h4] at h
    | ok fs =>
    cases h5 : saveCpacsMap env' x'.table with
    | error e => simp [h5] at h'
    | ok fs' =>
    simp only [h4, h5, hx.lattice] at h h'
    cases h6 : x.lattice with
    | none => simp [h6] at h
    | some l =>
    simp only [h6, Except.ok.injEq] at h h'
    subst h h'
    exact ⟨hx.table, hx.vlm, rfl⟩

theorem SameResults.errors {r r' : Except (Stop × Files) RunOut} {e e' : Stop × Files}
    (h : r = .error e) (h' : r' = .error e') : SameResults r r' := by
  subst h h'
  exact ⟨by simp, by simp⟩

theorem settings_same {suffix : String → String} {d d' : PyDict} (hd : (d.map Prod.fst).Nodup)
    (hd' : (d'.map Prod.fst).Nodup) (hdd : SameButOutput d d') {s s' : SettingsObj}
    (hs : loadSettings suffix (.dict d) = .ok s) (hs' : loadSettings suffix (.dict d') = .ok s') :
    ∀ kv ∈ settingsLeftOut, kv.1 ≠ "save_results" → s'.settings.lookup kv.1 = s.settings.lookup kv.1 := by
  obtain ⟨k1, k2, -, -⟩ := C98_content suffix d hd s hs
  obtain ⟨l1, l2, -, -⟩ := C98_content suffix d' hd' s' hs'
  intro kv hkv h1
  have h2 : kv.1 ≠ "plot" := by
    simp only [settingsLeftOut, List.mem_cons, List.not_mem_nil, or_false] at hkv
    rcases hkv with rfl | rfl | rfl | rfl | rfl | rfl | rfl <;> decide
  by_cases hx : ∃ v, (kv.1, v) ∈ d
  · obtain ⟨v, hv⟩ := hx
    rw [k1 _ v h2 hv, l1 _ v h2 ((hdd _ v h1 h2).1 hv)]
  · push Not at hx
    rw [k2 kv hkv hx, l2 kv hkv fun v hv => hx v ((hdd _ v h1 h2).2 hv)]

/-- **C104**: the results of a run do not depend on the name of the project, on which results are
saved and on what is plotted. -/
theorem C104_output_settings (W : World) (hW : Lapack W.dgesv) (P : Project) (d d' : PyDict)
    (a b : String) (hn : NativeProject W P d a b) (hd' : (d'.map Prod.fst).Nodup)
    (hdd : SameButOutput d d') (hs : SettingsFileOk W.suffix d) (hs' : SettingsFileOk W.suffix d')
    (base' : String) :
    SameResults (runProject W P) (runProject W { P with base := base', settings := .dict d' }) := by
  obtain ⟨s, hs⟩ := (C98_accepted_iff W.suffix d hn.keys).2 hs
  obtain ⟨s', hs'⟩ := (C98_accepted_iff W.suffix d' hd').2 hs'
  have hn' : NativeProject W { P with base := base', settings := .dict d' } d' a b :=
    ⟨rfl, hd', (hdd _ _ (by decide) (by decide)).1 hn.aircraft, hn.json,
      (hdd _ _ (by decide) (by decide)).1 hn.state, hn.notCpacs⟩
  obtain ⟨c1, -, -, -, e1⟩ := loadProject_native hn hs
  obtain ⟨c2, -, -, -, e2⟩ := loadProject_native hn' hs'
  have key := settings_same hn.keys hd' hdd hs hs'
  have hdef : ∀ ac, loadDeformationFrom { P with base := base', settings := .dict d' } s' ac =
      loadDeformationFrom P s ac := by
    intro ac
    unfold loadDeformationFrom
    rw [key ("deformation", .none) (by simp [settingsLeftOut]) (by decide)]
  simp only [hdef] at e2
  cases h1 : P.aircraft a with
  | none =>
    simp only [h1] at e1 e2
    exact .errors (by unfold runProject; rw [e1]) (by unfold runProject; rw [e2])
  | some f =>
  cases h2 : loadAircraft P.root W.airfoilOk f with
  | error e =>
    simp only [h1, h2] at e1 e2
    exact .errors (by unfold runProject; rw [e1]) (by unfold runProject; rw [e2])
  | ok ac =>
  cases h3 : P.state b with
  | none =>
    simp only [h1, h2, h3] at e1 e2
    exact .errors (by unfold runProject; rw [e1]) (by unfold runProject; rw [e2])
  | some sd =>
  cases h4 : updateFromDict W.atm Store.fresh sd with
  | error e =>
    simp only [h1, h2, h3, h4] at e1 e2
    exact .errors (by unfold runProject; rw [e1]) (by unfold runProject; rw [e2])
  | ok st =>
  cases h5 : loadDeformationFrom P s ac with
  | error e =>
    simp only [h1, h2, h3, h4, h5] at e1 e2
    exact .errors (by unfold runProject; rw [e1]) (by unfold runProject; rw [e2])
  | ok defs =>
  simp only [h1, h2, h3, h4, h5] at e1 e2
  unfold runProject
  rw [e1, e2]
  refine standardRun_same (env := Loaded.env W P ⟨s, false, ac, st, defs⟩) hW ?_ ⟨rfl, fun _ _ _ => rfl⟩ _
  refine ⟨rfl, rfl, ?_, ?_, ?_, ?_, rfl⟩
  · show s'.epsilon = s.epsilon
    unfold SettingsObj.epsilon
    rw [key ("_epsilon", .float (.fin (1 / 1000000))) (by simp [settingsLeftOut]) (by decide)]
  · show s'.flag _ = s.flag _
    unfold SettingsObj.flag
    rw [key ("_do_normal_rotations", .bool true) (by simp [settingsLeftOut]) (by decide)]
  · show s'.int _ = s.int _
    unfold SettingsObj.int
    rw [key ("vlm_autopanels_c", .int 4) (by simp [settingsLeftOut]) (by decide)]
  · show s'.int _ = s.int _
    unfold SettingsObj.int
    rw [key ("vlm_autopanels_s", .int 4) (by simp [settingsLeftOut]) (by decide)]

/-- Settings read from a saved file: the same for the analysis, but the hidden ones. -/
structure SameVisible (s s' : SettingsObj) : Prop where
  autoC : s'.int "vlm_autopanels_c" = s.int "vlm_autopanels_c"
  autoS : s'.int "vlm_autopanels_s" = s.int "vlm_autopanels_s"
  eps : s'.epsilon = 1 / 1000000
  doRot : s'.flag "_do_normal_rotations" = true

/-- Loading a project after saving. -/
theorem resaved_load {W : World} (hsuf : W.suffix "None" = "") {P : Project} {d : PyDict} {a b : String}
    (hn : NativeProject W P d a b) {x : Loaded} (hx : loadProject W P = .ok x)
    (hr : ['/'] <+: P.root.toList) (hseg : ∀ w ∈ x.aircraft.wings, ∀ s ∈ w.segments, Survives P.root s)
    (hdef : IfGiven d "deformation" fun v => v = .none ∨ ∃ name, v = .str name) :
    loadSettings W.suffix (.dict d) = .ok x.settings ∧ x.stateIsCpacs = false ∧
    x.settings.aircraftIsCpacs = false ∧
    ∃ s', SameVisible x.settings s' ∧ s'.aircraftIsCpacs = false ∧ ∀ keys,
      loadProject W (P.resaved x a b keys) =
        match updateFromDict W.atm Store.fresh (x.state.saved keys) with
        | .error e => .error e
        | .ok st => .ok ⟨s', false, x.aircraft, st, x.defs⟩ := by
  cases hs : loadSettings W.suffix (.dict d) with
  | error e =>
    unfold loadProject at hx
    rw [hn.settings, hs] at hx
    cases hx
  | ok s =>
  obtain ⟨k1, k2, -, -⟩ := C98_content W.suffix d hn.keys s hs
  obtain ⟨hcp, hscp, hna, hnb, e⟩ := loadProject_native hn hs
  have hx0 := hx
  rw [e] at hx
  cases h1 : P.aircraft a with
  | none => rw [h1] at hx; cases hx
  | some f =>
  cases h2 : loadAircraft P.root W.airfoilOk f with
  | error e => simp only [h1, h2] at hx; cases hx
  | ok ac =>
  cases h3 : P.state b with
  | none => simp only [h1, h2, h3] at hx; cases hx
  | some sd =>
  cases h4 : updateFromDict W.atm Store.fresh sd with
  | error e => simp only [h1, h2, h3, h4] at hx; cases hx
  | ok st =>
  cases h5 : loadDeformationFrom P s ac with
  | error e => simp only [h1, h2, h3, h4, h5] at hx; cases hx
  | ok defs =>
  simp only [h1, h2, h3, h4, h5, Except.ok.injEq] at hx
  subst hx
  simp only at hseg
  obtain ⟨s', hs', hc', hvis, hh'⟩ := C50_round_trip W.suffix hsuf (.dict d) s hs
  have hac := (C57_reload_iff P.root W.airfoilOk f ac hr h2).2 hseg
  -- a visible value
  have hlook : ∀ k v, hidden k = false → v.IsLeaf → s.settings.lookup k = some v →
      s'.settings.lookup k = some v := by
    intro k v hk hv hs
    have hb : ∀ o : Option PyVal, (o.bind fun a => some a) = o := by intro o; cases o <;> rfl
    have := (hvis [k] v (by simpa using hk) hv).2 (by simp [PyVal.at, hs, hb])
    simpa [PyVal.at, hb] using this
  have la : s.settings.lookup "aircraft" = some (.str a) := k1 _ _ (by decide) hn.aircraft
  have lb : s.settings.lookup "state" = some (.str b) := k1 _ _ (by decide) hn.state
  have la' := hlook _ _ (by decide) (by intro d; simp) la
  have lb' := hlook _ _ (by decide) (by intro d; simp) lb
  obtain ⟨vd, ld, hvd⟩ : ∃ v, s.settings.lookup "deformation" = some v ∧ v.IsLeaf := by
    by_cases hg : ∃ v, ("deformation", v) ∈ d
    · obtain ⟨v, hv⟩ := hg
      refine ⟨v, k1 _ _ (by decide) hv, ?_⟩
      rcases hdef v hv with rfl | ⟨name, rfl⟩ <;> intro d <;> simp
    · push Not at hg
      exact ⟨_, k2 ("deformation", .none) (by simp [settingsLeftOut]) hg, by intro d; simp⟩
  have ld' := hlook _ _ (by decide) hvd ld
  have hint : ∀ k, k = "vlm_autopanels_c" ∨ k = "vlm_autopanels_s" → s'.int k = s.int k := by
    intro k hk
    have hset := (C98_accepted_iff W.suffix d hn.keys).1 ⟨s, hs⟩
    have : ∃ v, s.settings.lookup k = some v ∧ v.IsLeaf := by
      by_cases hg : ∃ v, (k, v) ∈ d
      · obtain ⟨v, hv⟩ := hg
        refine ⟨v, k1 _ _ (by rcases hk with rfl | rfl <;> decide) hv, ?_⟩
        have hi : v.IsInt := by
          rcases hk with rfl | rfl
          · exact hset.panelsC v hv
          · exact hset.panelsS v hv
        rcases hi with ⟨z, rfl⟩ | ⟨z, rfl⟩ <;> intro d <;> simp
      · push Not at hg
        rcases hk with rfl | rfl
        · exact ⟨_, k2 ("vlm_autopanels_c", .int 4) (by simp [settingsLeftOut]) hg, by intro d; simp⟩
        · exact ⟨_, k2 ("vlm_autopanels_s", .int 4) (by simp [settingsLeftOut]) hg, by intro d; simp⟩
    obtain ⟨v, hv, hl⟩ := this
    unfold SettingsObj.int
    rw [hv, hlook k v (by rcases hk with rfl | rfl <;> decide) hl hv]
  refine ⟨rfl, rfl, hcp, s', ⟨hint _ (.inl rfl), hint _ (.inr rfl), ?_, ?_⟩, hc'.trans hcp, ?_⟩
  · unfold SettingsObj.epsilon
    rw [hh' "_epsilon" (.leaf (.float (.fin (1 / 1000000))) [some .float])
      (by simp [defaultSettings]) (by decide)]
    simp [Tmpl.default]
  · unfold SettingsObj.flag
    rw [hh' "_do_normal_rotations" (.leaf (.bool true) [some .bool])
      (by simp [defaultSettings]) (by decide)]
    rfl
  · intro keys
    have n1 : s'.name "aircraft" = a := by unfold SettingsObj.name; rw [la']; rfl
    have n2 : s'.name "state" = b := by unfold SettingsObj.name; rw [lb']; rfl
    have n3 : s'.stateIsCpacs W.upper = .ok false := by
      have : (PyVal.dict s'.settings).item "state" = .ok (.str b) := by
        simp only [PyVal.item, lb']
      unfold SettingsObj.stateIsCpacs
      simp only [this]
      rw [if_neg hn.notCpacs]
    have n4 : loadDeformationFrom (P.resaved ⟨s, false, ac, st, defs⟩ a b keys) s' ac = .ok defs := by
      rw [← h5]
      unfold loadDeformationFrom
      rw [ld, ld']
      rfl
    have n5 : loadSettings W.suffix (P.resaved ⟨s, false, ac, st, defs⟩ a b keys).settings = .ok s' := hs'
    unfold loadProject loadAircraftFrom loadStateFrom
    rw [n5]
    simp only [hc', hcp, n1, n2, n3, Bool.false_eq_true, if_false]
    unfold Project.resaved at n4
    simp only [Project.resaved, if_true, hac]
    cases updateFromDict W.atm Store.fresh (st.saved keys) with
    | error e => rfl
    | ok st' => simp only [n4]

/-- **C103**: a project whose segments are not changed by saving (`C57_reload_iff`) can be loaded again
after saving exactly if there is one flight state, given by airspeed and density. -/
theorem C103_loads_iff (W : World) (hsuf : W.suffix "None" = "") (P : Project)
    (d : PyDict) (a b : String) (hn : NativeProject W P d a b) (x : Loaded)
    (hx : loadProject W P = .ok x) (hr : ['/'] <+: P.root.toList)
    (hseg : ∀ w ∈ x.aircraft.wings, ∀ s ∈ w.segments, Survives P.root s)
    (hdef : IfGiven d "deformation" fun v => v = .none ∨ ∃ name, v = .str name)
    (sd : List (String × Arg ℝ)) (hsd : P.state b = some sd) (hk : (sd.map Prod.fst).Nodup) :
    (∃ x', loadProject W (P.resaved x a b ((sd.map Prod.fst).filter (· ∉ stateAllParams))) = .ok x') ↔
      x.state.num = 1 ∧ ∀ v, ("altitude", v) ∉ sd ∧ ("mach", v) ∉ sd := by
  obtain ⟨f, sd', h1, h2, -, -, h4, -⟩ := loaded_reads hn hx
  rw [hsd, Option.some.injEq] at h2
  subst h2
  obtain ⟨-, -, -, s', -, -, hl⟩ := resaved_load hsuf hn hx hr hseg hdef
  rw [hl, ← C45_reload_iff W.atm sd hk x.state h4]
  cases updateFromDict W.atm Store.fresh
    (x.state.saved ((sd.map Prod.fst).filter (· ∉ stateAllParams))) with
  | error e => simp
  | ok st => simp

/-- **C103**: saving what was loaded and running again gives the same results, if the segments are not
changed by saving (`C57_reload_iff`), there is one flight state given by airspeed and density
(`C103_loads_iff`), and the settings file has no hidden settings (`C50_round_trip`: they are lost). -/
theorem C103_resaved_partial (W : World) (hW : Lapack W.dgesv) (hsuf : W.suffix "None" = "") (P : Project)
    (d : PyDict) (a b : String) (hn : NativeProject W P d a b) (x : Loaded)
    (hx : loadProject W P = .ok x) (hr : ['/'] <+: P.root.toList)
    (hseg : ∀ w ∈ x.aircraft.wings, ∀ s ∈ w.segments, Survives P.root s)
    (hdef : IfGiven d "deformation" fun v => v = .none ∨ ∃ name, v = .str name)
    (sd : List (String × Arg ℝ)) (hsd : P.state b = some sd) (hk : (sd.map Prod.fst).Nodup)
    (hnum : x.state.num = 1) (hno : ∀ v, ("altitude", v) ∉ sd ∧ ("mach", v) ∉ sd)
    (hrates : ∀ p ∈ ["rate_P", "rate_Q", "rate_R"], ∃ v, (p, v) ∈ sd)
    (hhid : ∀ v, ("_epsilon", v) ∉ d ∧ ("_do_normal_rotations", v) ∉ d) :
    SameResults (runProject W P)
      (runProject W (P.resaved x a b ((sd.map Prod.fst).filter (· ∉ stateAllParams)))) := by
  obtain ⟨f, sd', h1, h2, -, -, h4, -⟩ := loaded_reads hn hx
  rw [hsd, Option.some.injEq] at h2
  subst h2
  obtain ⟨hs, hc1, hc2, s', hv, hc', hl⟩ := resaved_load hsuf hn hx hr hseg hdef
  obtain ⟨st', hst', hn', haero⟩ := C45_round_trip_partial W.atm sd hk x.state h4 hnum hno
  obtain ⟨k1, k2, -, -⟩ := C98_content W.suffix d hn.keys _ hs
  have hload := hl ((sd.map Prod.fst).filter (· ∉ stateAllParams))
  rw [hst'] at hload
  simp only at hload
  unfold runProject
  rw [hload, hx]
  refine standardRun_same (env := Loaded.env W P x) hW ?_ ?_ _
  · refine ⟨rfl, rfl, ?_, ?_, hv.autoC, hv.autoS, rfl⟩
    · show s'.epsilon = x.settings.epsilon
      rw [hv.eps]
      unfold SettingsObj.epsilon
      rw [k2 ("_epsilon", .float (.fin (1 / 1000000))) (by simp [settingsLeftOut]) fun v => (hhid v).1]
      simp
    · show s'.flag _ = x.settings.flag _
      rw [hv.doRot]
      unfold SettingsObj.flag
      rw [k2 ("_do_normal_rotations", .bool true) (by simp [settingsLeftOut]) fun v => (hhid v).2]
      rfl
  · refine ⟨hn', ?_⟩
    intro p hp i
    have hacc := (C41_accepted_iff W.atm sd hk).1 ⟨_, h4⟩
    obtain ⟨-, F⟩ := (accepted angle_limits W.atm sd hk).2 _ h4
    have hsome : x.state.aero p ≠ none := by
      have ho : ∀ p ∈ stateAllParams, p ≠ "airspeed" → p ≠ "density" → (∃ v, (p, v) ∈ sd) →
          x.state.aero p ≠ none := by
        rintro p hp h1 h2 ⟨v, hv⟩
        rw [(F.other p hp h1 h2).1 _ ⟨v, hv, rfl⟩]
        simp
      have hdoc : Given sd "airspeed" ∧ Given sd "density" := by
        rcases hacc.documented with h | h | h
        · exact ⟨h.1, h.2.1⟩
        · obtain ⟨v, hv, -⟩ := h.2.1
          exact absurd hv (hno v).1
        · obtain ⟨v, hv, -⟩ := h.1
          exact absurd hv (hno v).2
      simp only [statePrimaryParams, List.mem_cons, List.not_mem_nil, or_false] at hp
      rcases hp with rfl | rfl | rfl | rfl | rfl | rfl | rfl
      · obtain ⟨v, hv, hv'⟩ := hdoc.1
        rw [F.airspeed _ ⟨v, hv, rfl⟩ ⟨v, hv, hv'⟩]
        simp
      · exact ho _ (by decide) (by decide) (by decide) hacc.alpha
      · exact ho _ (by decide) (by decide) (by decide) hacc.beta
      · obtain ⟨v, hv, hv'⟩ := hdoc.2
        rw [F.density _ ⟨v, hv, rfl⟩ ⟨v, hv, hv'⟩]
        simp
      · exact ho _ (by decide) (by decide) (by decide) (hrates _ (by simp))
      · exact ho _ (by decide) (by decide) (by decide) (hrates _ (by simp))
      · exact ho _ (by decide) (by decide) (by decide) (hrates _ (by simp))
    show st'.aero.entry p i = x.state.aero.entry p i
    unfold Store.entry
    rw [haero p (List.mem_append_left _ (by
      simp only [statePrimaryParams, List.mem_cons, List.not_mem_nil, or_false] at hp
      rcases hp with rfl | rfl | rfl | rfl | rfl | rfl | rfl <;> decide)) hsome]

/-! ## Examples and counterexample -/

/-- The project with a flap, once more with its loaded data. -/
theorem flap_loaded : ∃ x, loadProject exampleWorld (exampleProject flapFile) = .ok x ∧
    (∀ w ∈ x.aircraft.wings, ∀ s ∈ w.segments, Survives "/home" s) ∧ x.state.num = 1 := by
  obtain ⟨x, hx, -, hac, hst⟩ := (example_ok flapFile_ok flapFile_layout
    ⟨_, List.mem_singleton.2 rfl, by simp⟩).load
  exact ⟨x, hx, flap_survives hac, (oneState_entries hst).1⟩

/-- Example for C103: the project with a flap gives the same results after saving. -/
example : ∃ x, loadProject exampleWorld (exampleProject flapFile) = .ok x ∧
    SameResults (runProject exampleWorld (exampleProject flapFile))
      (runProject exampleWorld ((exampleProject flapFile).resaved x "plane.json" "cruise.json" [])) := by
  obtain ⟨x, hx, hs, hn⟩ := flap_loaded
  refine ⟨x, hx, ?_⟩
  have := C103_resaved_partial exampleWorld exactDgesv_lapack (by simp [exampleWorld])
    (exampleProject flapFile) exampleSettings "plane.json" "cruise.json" (example_native flapFile) x hx
    (by show ['/'] <+: "/home".toList; decide) hs (by simp [IfGiven, exampleSettings])
    (oneState 10 1 5 0) rfl (oneState_nodup _ _ _ _) hn (by simp [oneState]) (by simp [oneState])
    (by simp [exampleSettings])
  have e : ((oneState (10 : ℝ) 1 5 0).map Prod.fst).filter (· ∉ stateAllParams) = [] := by
    show (["airspeed", "density", "alpha", "beta", "rate_P", "rate_Q", "rate_R"].filter
      (· ∉ stateAllParams)) = []
    decide
  rw [e] at this
  exact this

/-- A flight state given by airspeed and altitude. -/
noncomputable def climbState : List (String × Arg ℝ) :=
  [("airspeed", .scalar (.num (.fin 10))), ("altitude", .scalar (.num (.fin 0))),
   ("alpha", .scalar (.num (.fin 5))), ("beta", .scalar (.num (.fin 0))),
   ("rate_P", .scalar (.num (.fin 0))), ("rate_Q", .scalar (.num (.fin 0))),
   ("rate_R", .scalar (.num (.fin 0)))]

theorem climbState_acceptable : Acceptable exampleWorld.atm climbState := by
  have no : ∀ p ∈ ["density", "mach"], ¬ Given climbState p := by
    rintro p hp ⟨a, ha, hv⟩
    simp only [List.mem_cons, List.not_mem_nil, or_false] at hp
    rcases hp with rfl | rfl <;> simp [climbState] at ha
  refine ⟨⟨1, ?_⟩, Or.inr (Or.inl ⟨⟨_, by simp [climbState]; rfl, by simp [Arg.toList, Val.isNum]⟩,
    ⟨_, by simp [climbState]; rfl, by simp [Arg.toList, Val.isNum]⟩, no _ (by simp), no _ (by simp)⟩),
    ?_, ?_, ⟨_, by simp [climbState]; rfl⟩, ⟨_, by simp [climbState]; rfl⟩⟩
  · intro x hx
    simp only [climbState, List.mem_cons, List.not_mem_nil, or_false] at hx
    rcases hx with rfl | rfl | rfl | rfl | rfl | rfl | rfl <;> rfl
  · intro p hp a ha v hv
    simp only [climbState, List.mem_cons, List.not_mem_nil, or_false, Prod.mk.injEq] at ha
    rcases ha with h | h | h | h | h | h | h <;> obtain ⟨-, rfl⟩ := h <;>
      simp only [Arg.toList, List.mem_singleton] at hv <;> subst hv <;> simp [Val.Convertible]
  · intro _ a _ v _
    simp [exampleWorld]

theorem climbState_keys : (climbState.map Prod.fst).Nodup := by
  show ["airspeed", "altitude", "alpha", "beta", "rate_P", "rate_Q", "rate_R"].Nodup
  decide

/-- **C103**: in general a saved project is not a project any more: if the altitude was given, the
saved flight states are refused, though aircraft and settings survive saving. -/
theorem C103_resaved_false : ∃ (W : World) (P : Project) (x : Loaded),
    loadProject W P = .ok x ∧ (∀ w ∈ x.aircraft.wings, ∀ s ∈ w.segments, Survives P.root s) ∧
    ((∃ out, runProject W P = .ok out) ∨ ∃ files, runProject W P = .error (.notFinite, files)) ∧
    ∃ e, runProject W (P.resaved x "plane.json" "cruise.json" []) = .error (.raised e, []) := by
  set P : Project := { exampleProject flapFile with
    state := fun b => if b = "cruise.json" then some climbState else none } with hP
  have hn : NativeProject exampleWorld P exampleSettings "plane.json" "cruise.json" :=
    ⟨rfl, (example_native flapFile).keys, (example_native flapFile).aircraft, rfl,
      (example_native flapFile).state, (example_native flapFile).notCpacs⟩
  have h0 := example_ok flapFile_ok flapFile_layout ⟨_, List.mem_singleton.2 rfl, by simp⟩
  have hok : ProjectOk exampleWorld P exampleSettings "plane.json" "cruise.json" flapFile climbState :=
    ⟨hn, h0.settings, h0.panelsC, h0.panelsS, rfl, flapFile_ok, flapFile_layout, h0.segment, rfl,
      ⟨climbState_keys, climbState_acceptable, by simp [climbState],
        _, List.mem_cons_self .., by simp [Arg.toList]⟩, by simp [DeformationOk, IfGiven, exampleSettings]⟩
  obtain ⟨x, hx, -, hac, hst⟩ := hok.load
  refine ⟨exampleWorld, P, x, hx, flap_survives hac,
    C99_no_exception _ exactDgesv_lapack _ _ _ _ _ _ hok, ?_⟩
  have := C103_loads_iff exampleWorld (by simp [exampleWorld]) P exampleSettings "plane.json"
    "cruise.json" hn x hx (by show ['/'] <+: "/home".toList; decide) (flap_survives hac)
    (by simp [IfGiven, exampleSettings]) climbState rfl climbState_keys
  have e : (climbState.map Prod.fst).filter (· ∉ stateAllParams) = [] := by
    show (["airspeed", "altitude", "alpha", "beta", "rate_P", "rate_Q", "rate_R"].filter
      (· ∉ stateAllParams)) = []
    decide
  rw [e] at this
  cases hl : loadProject exampleWorld (P.resaved x "plane.json" "cruise.json" []) with
  | error e =>
    refine ⟨e, ?_⟩
    unfold runProject
    rw [hl]
  | ok x' =>
    have h1 := (this.1 ⟨x', hl⟩).2 (.scalar (.num (.fin 0)))
    exact absurd (by simp [climbState]) h1.1

/-- Example for C104: saving all results does not change them. -/
example : SameResults (runProject exampleWorld (exampleProject flapFile))
    (runProject exampleWorld { exampleProject flapFile with
      base := "other"
      settings := .dict (exampleSettings ++ [("save_results", .dict [("global", .bool true),
        ("panelwise", .bool true), ("aeroperformance", .bool true), ("matrix_system", .bool true)])]) }) := by
  refine C104_output_settings exampleWorld exactDgesv_lapack _ exampleSettings _ "plane.json"
    "cruise.json" (example_native flapFile) (by simp [exampleSettings]) ?_ example_settings ?_ "other"
  · intro k v h1 h2
    simp [exampleSettings, h1]
  · refine ⟨⟨"plane.json", by simp [exampleSettings], .inl rfl⟩,
      ⟨"cruise.json", by simp [exampleSettings]⟩,
      by simp [IfGiven, exampleSettings], by simp [IfGiven, exampleSettings], ?_,
      by simp [IfGiven, exampleSettings], by simp [IfGiven, exampleSettings],
      by simp [IfGiven, exampleSettings], by simp [IfGiven, exampleSettings]⟩
    intro v hv
    simp [exampleSettings] at hv
    refine ⟨_, hv, ?_⟩
    intro k hk
    simp only [List.mem_cons, List.not_mem_nil, or_false] at hk
    rcases hk with rfl | rfl | rfl | rfl <;> exact ⟨_, rfl, _, rfl⟩

end Verif
