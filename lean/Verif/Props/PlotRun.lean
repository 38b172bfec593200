import Verif.Props.Plot
import Verif.Props.ProgramFiles

/-!
# Properties C107, C110, C111: plots of accepted aircraft, runs with plots
-/

namespace Verif

/-- **C107**: everything that the geometry plot draws of the wings and controls of an accepted
aircraft file lies inside the axes.  (Missing: the centre of gravity, see `C107_cg_false`.) -/
theorem C107_geometry_inside_partial (root : String) (airfoilOk : String → Bool) (f : FileAircraft)
    (ac : LoadedAircraft) (hac : loadAircraft root airfoilOk f = .ok ac) (o : PlotOpts) (plot : Plot)
    (hp : plot ∈ (plotGeometry ac o).1) (L : AxesLimits) (c : Canvas)
    (hv : plot.content = .views L c) (colour : String) (pts : List (V3 ℝ))
    (hl : Mark.line colour pts ∈ c.d3) (p : V3 ℝ) (h : p ∈ pts) : InsideAxes L p := by
  have hok := (C92_accepted_iff _ _ _).1 ⟨ac, hac⟩
  obtain ⟨-, -, hw, -⟩ := C92_content _ _ _ _ hac
  refine geometry_inside ac o ?_ plot hp L c hv colour pts hl p h
  intro w hw' k hk
  obtain ⟨e, he, hf⟩ := forall₂_mem_right hw hw'
  obtain ⟨e', he', -, hd⟩ := forall₂_mem_right hf.controls hk
  have hu := ((hok.wings e he).controls e' he').2
  rw [hd]
  intro t ht
  simp only [ControlDef.completed, List.mem_cons, List.not_mem_nil, or_false] at ht
  rcases ht with rfl | rfl | rfl | rfl | rfl | rfl
  · exact hu.etaInner
  · exact hu.etaOuter
  · exact hu.xsiInner
  · exact hu.xsiOuter
  · exact hu.hingeInner
  · exact hu.hingeOuter

/-- Example for C107: an aircraft with a flap is accepted, so C107 applies to it. -/
example : ∃ ac, loadAircraft "/home" (fun _ => true) flapFile = .ok ac ∧ ∀ o, ∀ plot ∈ (plotGeometry ac o).1,
    ∀ L c, plot.content = .views L c → ∀ colour pts, Mark.line colour pts ∈ c.d3 → ∀ p ∈ pts,
      InsideAxes L p := by
  obtain ⟨ac, h⟩ := (C92_accepted_iff _ _ _).2 flapFile_ok
  exact ⟨ac, h, fun o plot hp L c hv colour pts hl p =>
    C107_geometry_inside_partial _ _ _ _ h o plot hp L c hv colour pts hl p⟩

/-- **C107** (negation of "everything shown lies inside the axes"): the axes follow the wings only, the
centre of gravity can be outside. -/
theorem C107_cg_false : ¬ ∀ (root : String) (airfoilOk : String → Bool) (f : FileAircraft)
    (ac : LoadedAircraft), loadAircraft root airfoilOk f = .ok ac → ∀ (o : PlotOpts) (plot : Plot),
    plot ∈ (plotGeometry ac o).1 → ∀ (L : AxesLimits) (c : Canvas), plot.content = .views L c →
    ∀ p, Mark.cross p ∈ c.d3 → InsideAxes L p := by
  intro hall
  have hok : FileOk "/home" (fun _ => true) { rectFile with refs := ⟨1, 1, 1, ⟨100, 0, 0⟩, 0, none⟩ } :=
    ⟨rectFile_ok.names, by norm_num, by norm_num, by norm_num, rectFile_ok.wings⟩
  obtain ⟨ac, hac⟩ := (C92_accepted_iff _ _ _).2 hok
  obtain ⟨-, href, hw, -⟩ := C92_content _ _ _ _ hac
  obtain ⟨w, hwl, hf⟩ := forall₂_singleton_left hw
  obtain ⟨s, hsl, hs⟩ := forall₂_singleton_left hf.segments
  have hv : s.gen.vertices = flatGeo.vertices := noSpan_given hs.vertices ⟨rfl, rfl, rfl, rfl⟩
  have hsym : w.symmetry = 2 := hf.symmetry
  have hno : w.controls = [] := by
    have := hf.controls
    simpa using this
  have hp : plotGeometry ac ⟨[], true, false⟩ = ((plotGeometry ac ⟨[], true, false⟩).1, none) := by
    refine eq_none ?_
    simp [plotGeometry, plot2d3d, LoadedAircraft.controlsOf, hwl, hno, Canvas.addControls]
  obtain ⟨c, h1, h2⟩ := C108_geometry _ _ _ hp
  have := (hall _ _ _ _ hac ⟨[], true, false⟩ _ (by rw [h1]; exact List.mem_singleton.2 rfl) _ _ rfl _
    ((h2 _).2 .cg)).d3.1.2
  rw [href] at this
  have hl : ac.limits = ⟨⟨0, -(2/25), 0⟩, ⟨3/50, 2/25, 0⟩⟩ := by
    simp [LoadedAircraft.limits, LoadedAircraft.segmentsOf, hwl, hsl, hv, hsym, BBox.getLimits, Corners.outline,
      coordMin, coordMax, flatGeo, lower, raise]
    try norm_num
  rw [hl] at this
  simp only [scalePlots, axisRange] at this
  norm_num at this

/-! ## C110, C111 -/

/-- The plots that the settings ask for: show, save, and the results to be plotted.  Without the
entry 'plot' nothing is plotted; an empty list of results stands for the pressure coefficients. -/
structure PlotAsked (d : PyDict) (kind : String) (o : PlotOpts) : Prop where
  given : ∀ v, ("plot", v) ∈ d → v.at [kind, "show"] = some (.bool o.show_) ∧
    v.at [kind, "save"] = some (.bool o.save)
  results : kind = "results" → ∀ v, ("plot", v) ∈ d → ∃ opt, v.at ["results", "opt"] = some opt ∧
    (opt.IsEmpty → o.opt = [.str "cp"]) ∧ (¬ opt.IsEmpty → opt = .list o.opt)
  absent : (∀ v, ("plot", v) ∉ d) → o.show_ = false ∧ o.save = false

/-- The name of the plot of a result. -/
def resultName : PyVal → String
  | .str k => "results_" ++ k
  | _ => "results_"

/-- The names of the plots of one flight state, each with the marks saved and shown: first the matrix,
then geometry, lattice, and the results in the given order. -/
def plannedPlots (m g l r : PlotOpts) : List (String × Bool × Bool) :=
  let when_ (o : PlotOpts) (names : List String) :=
    if o.save = true ∨ o.show_ = true then names.map fun n => (n, o.save, o.show_) else []
  when_ m ["downwash"] ++ when_ g ["geometry"] ++ when_ l ["lattice"] ++
    when_ r (r.opt.map resultName)

/-- Name of a plot, and whether it has been saved and shown. -/
def Plot.label (p : Plot) : String × Bool × Bool := (p.name, p.saved, p.shown)

/-- A key of the results of panels. -/
def KnownKey (key : PyVal) : Prop := ∃ k ∈ ["gamma", "vx", "vy", "vz", "vmag", "fx", "fy", "fz", "fmag", "cp"],
  key = .str k

/-! ### Proof -/

theorem plot_of_at {s : SettingsObj} {kind : String} {x y : PyVal}
    (h1 : (PyVal.dict s.settings).at ["plot", kind, "show"] = some x)
    (h2 : (PyVal.dict s.settings).at ["plot", kind, "save"] = some y) :
    (s.plot kind).show_ = x.truthy ∧ (s.plot kind).save = y.truthy ∧
    ∀ l, (PyVal.dict s.settings).at ["plot", kind, "opt"] = some (.list l) → (s.plot kind).opt = l := by
  unfold SettingsObj.plot
  simp only [PyVal.at] at h1 h2 ⊢
  cases hp : s.settings.lookup "plot" with
  | none => rw [hp] at h1; cases h1
  | some p =>
    rw [hp] at h1 h2
    simp only [Option.bind_some] at h1 h2 ⊢
    cases p <;> simp only [PyVal.at] at h1 h2 ⊢ <;> try cases h1
    rename_i p
    cases hg : p.lookup kind with
    | none => rw [hg] at h1; cases h1
    | some g =>
      rw [hg] at h1 h2
      simp only [Option.bind_some] at h1 h2 ⊢
      cases g <;> simp only [PyVal.at] at h1 h2 ⊢ <;> try cases h1
      rename_i g
      cases ha : g.lookup "show" with
      | none => rw [ha] at h1; cases h1
      | some a =>
        cases hb : g.lookup "save" with
        | none => rw [hb] at h2; cases h2
        | some b =>
          rw [ha] at h1
          rw [hb] at h2
          cases h1
          cases h2
          refine ⟨rfl, rfl, ?_⟩
          intro l hl
          cases ho : g.lookup "opt" with
          | none => rw [ho] at hl; cases hl
          | some z =>
            rw [ho] at hl
            cases hl
            rfl

/-- The options read from the loaded settings are those asked for in the file. -/
theorem plot_asked {suffix : String → String} {d : PyDict} (hk : (d.map Prod.fst).Nodup)
    {s : SettingsObj} (h : loadSettings suffix (.dict d) = .ok s) {kind : String}
    (hkind : kind ∈ ["matrix_downwash", "geometry", "lattice", "results"]) :
    PlotAsked d kind (s.plot kind) := by
  have hok := (C98_accepted_iff suffix d hk).1 ⟨s, h⟩
  obtain ⟨-, -, k3, k4⟩ := C48_defaults_partial suffix d hk s h
  have group : ∀ v, ("plot", v) ∈ d → ∃ a b, v.at [kind, "show"] = some (.bool a) ∧
      v.at [kind, "save"] = some (.bool b) := by
    intro v hv
    obtain ⟨g, rfl, h1, h2⟩ := hok.plots v hv
    have : ∃ o Q, g.lookup kind = some o ∧ PlotGroup Q o := by
      simp only [List.mem_cons, List.not_mem_nil, or_false] at hkind
      rcases hkind with rfl | rfl | rfl | rfl
      · obtain ⟨o, h3, h4⟩ := h1 "matrix_downwash" (by simp); exact ⟨o, _, h3, h4⟩
      · obtain ⟨o, h3, h4⟩ := h1 "geometry" (by simp); exact ⟨o, _, h3, h4⟩
      · obtain ⟨o, h3, h4⟩ := h1 "lattice" (by simp); exact ⟨o, _, h3, h4⟩
      · obtain ⟨o, h3, h4⟩ := h2; exact ⟨o, _, h3, h4⟩
    obtain ⟨o, Q, h3, g', rfl, -, ⟨x, h5, a, rfl⟩, ⟨y, h6, b, rfl⟩⟩ := this
    refine ⟨a, b, ?_, ?_⟩
    · simp [PyVal.at, h3, h5]
    · simp [PyVal.at, h3, h6]
  have leaf : ∀ b : Bool, (PyVal.bool b).IsLeaf := fun b d h => by cases h
  have notOpt : ∀ key : String, key ≠ "opt" → ¬ ["results", "opt"] <+: [kind, key] := by
    intro key hkey h
    rw [List.cons_prefix_cons, List.cons_prefix_cons] at h
    exact hkey h.2.1.symm
  refine ⟨?_, ?_, ?_⟩
  · intro v hv
    obtain ⟨a, b, ha, hb⟩ := group v hv
    obtain ⟨o, -, -, hpath⟩ := k4 v hv
    obtain ⟨e1, e2, -⟩ := plot_of_at ((hpath _ _ (notOpt "show" (by decide)) (leaf a)).2 ha)
      ((hpath _ _ (notOpt "save" (by decide)) (leaf b)).2 hb)
    rw [e1, e2]
    exact ⟨ha, hb⟩
  · rintro rfl v hv
    obtain ⟨a, b, ha, hb⟩ := group v hv
    obtain ⟨o, h1, h2, hpath⟩ := k4 v hv
    obtain ⟨-, -, e3⟩ := plot_of_at ((hpath _ _ (notOpt "show" (by decide)) (leaf a)).2 ha)
      ((hpath _ _ (notOpt "save" (by decide)) (leaf b)).2 hb)
    refine ⟨o, h1, fun he => ?_, fun he => ?_⟩
    · rw [(truthy_false_iff o).2 he] at h2
      exact e3 _ h2
    · have ht : o.truthy = true := by
        rw [← truthy_false_iff] at he
        simpa using he
      rw [if_pos ht] at h2
      obtain ⟨g, rfl, -, r, h3, g', rfl, ⟨x, h5, h6⟩, -⟩ := hok.plots v hv
      simp only [PyVal.at, h3, h5, Option.bind_some, Option.some.injEq] at h1
      subst h1
      rcases h6 with ⟨l, rfl⟩ | h6
      · rw [e3 l h2]
      · exact absurd h6 he
  · intro hn
    have hp := k3 hn
    unfold SettingsObj.plot
    rw [hp]
    simp only [List.mem_cons, List.not_mem_nil, or_false] at hkind
    rcases hkind with rfl | rfl | rfl | rfl <;> decide

/-! ### Names of the plots -/

theorem thenPlot_ok {p q : List Plot × Option PyErr} (h : (thenPlot p q).2 = none) :
    p.2 = none ∧ q.2 = none ∧ (thenPlot p q).1 = p.1 ++ q.1 := by
  unfold thenPlot at h ⊢
  cases hp : p.2 with
  | some e => rw [hp] at h; cases h
  | none => rw [hp] at h; exact ⟨rfl, h, rfl⟩

theorem thenPlot_none {p q : List Plot × Option PyErr} (hp : p.2 = none) (hq : q.2 = none) :
    (thenPlot p q).2 = none := by
  unfold thenPlot
  rw [hp]
  exact hq

theorem plotResults_labels {ac : LoadedAircraft} {s : FlowState} {l : LatticeData} {v : VlmData}
    {o : PlotOpts} : ∀ {keys : List PyVal}, (plotResults ac s l v o keys).2 = none →
    (plotResults ac s l v o keys).1.map Plot.label =
      (keys.map resultName).map fun n => (n, o.save, o.show_)
  | [], _ => rfl
  | key :: rest, h => by
    obtain ⟨h1, h2, h3⟩ := thenPlot_ok (p := plot2d3d ac (resultsPlotName key) o
      ((Canvas.empty.addFreestream s).addResults ac l v key)) (q := plotResults ac s l v o rest) h
    have hn : resultsPlotName key = resultName key := by cases key <;> rfl
    rw [plotResults, h3, List.map_append, plotResults_labels h2, hn]
    rfl

theorem plotIf_labels {o : PlotOpts} {p : List Plot × Option PyErr} {names : List String}
    (h : (plotIf o p).2 = none)
    (hp : p.2 = none → p.1.map Plot.label = names.map fun n => (n, o.save, o.show_)) :
    (plotIf o p).1.map Plot.label =
      if o.save = true ∨ o.show_ = true then names.map fun n => (n, o.save, o.show_) else [] := by
  unfold plotIf PlotOpts.wanted at *
  by_cases hw : o.save = true ∨ o.show_ = true
  · have : (o.save || o.show_) = true := by simpa using hw
    rw [if_pos hw, if_pos this]
    rw [if_pos this] at h
    exact hp h
  · have : ¬ (o.save || o.show_) = true := by simpa using hw
    rw [if_neg hw, if_neg this]
    rfl

theorem makeAll_labels {set : SettingsObj} {ac : LoadedAircraft} {defs : ODict (DefWing (DefField ℝ))}
    {s : FlowState} {v : VlmData} {l : LatticeData} (h : (makeAll set ac defs s v l).2 = none) :
    (makeAll set ac defs s v l).1.map Plot.label = plannedPlots (set.plot "matrix_downwash")
      (set.plot "geometry") (set.plot "lattice") (set.plot "results") := by
  unfold makeAll at h ⊢
  obtain ⟨h1, h2, h3⟩ := thenPlot_ok h
  obtain ⟨g1, g2, g3⟩ := thenPlot_ok h2
  obtain ⟨f1, f2, f3⟩ := thenPlot_ok g2
  rw [h3, g3, f3]
  simp only [List.map_append, plannedPlots, List.append_assoc]
  rw [plotIf_labels (names := ["downwash"]) h1, plotIf_labels (names := ["geometry"]) g1,
    plotIf_labels (names := ["lattice"]) f1, plotIf_labels f2 plotResults_labels]
  · intro _; rfl
  · intro _; rfl
  · intro hn
    unfold viewDownwash at hn ⊢
    split at hn
    · cases hn
    · rfl

/-! ### Plotting without exceptions -/

theorem analysis_panelwise {env : RunEnv} (hd : Lapack env.dgesv) {ac : PAircraft ℝ} {s : FlowState}
    {l : LatticeData} {v : VlmData} (h : analyse env ac s VlmData.fresh = .ok (l, v)) :
    v.matrix ≠ none ∧ ∀ k ∈ panelwiseKeys, ∃ data, v.panelwise k = some data ∧ data ≠ [] := by
  obtain ⟨-, hn, P, A, R, -, -, -, rfl⟩ := analyse_ok h
  refine ⟨by simp [VlmData.of], ?_⟩
  have hne : ∀ f : Fin l.num → Flt ℝ, List.ofFn f ≠ [] := by
    intro f hf
    rw [List.ofFn_eq_nil_iff] at hf
    exact hn hf
  have hg : ∃ g : Fin l.num → ℝ, env.dgesv (rowsOf A) (List.ofFn (vlmBoundary s env.refs P)) =
      List.ofFn g := by
    by_cases hu : IsUnit A.det
    · obtain ⟨g, h1, -⟩ := (hd _ A (vlmBoundary s env.refs P)).1 hu
      exact ⟨g, h1⟩
    · exact ⟨_, (hd _ A (vlmBoundary s env.refs P)).2 hu⟩
  obtain ⟨g, hg⟩ := hg
  intro k hk
  simp only [panelwiseKeys, List.mem_cons, List.not_mem_nil, or_false] at hk
  rcases hk with rfl | rfl | rfl | rfl | rfl | rfl | rfl | rfl | rfl | rfl
  · refine ⟨_, rfl, ?_⟩
    rw [hg, List.map_ofFn]
    exact hne _
  all_goals exact ⟨_, rfl, hne _⟩

theorem addResults_none {env : RunEnv} (hd : Lapack env.dgesv) {pac : PAircraft ℝ} {s : FlowState}
    {l : LatticeData} {v : VlmData} (h : analyse env pac s VlmData.fresh = .ok (l, v))
    {ac : LoadedAircraft} (hs : aircraftSize ac.shape ≠ 0) {key : PyVal} (hk : KnownKey key) (c : Canvas) :
    (c.addResults ac l v key).2 = none := by
  obtain ⟨k, hk, rfl⟩ := hk
  obtain ⟨data, h1, h2⟩ := (analysis_panelwise hd h).2 k hk
  obtain ⟨ys, hy⟩ := normaliseValues_ok h2
  have : v.panelwiseAt (.str k) = .ok data := by
    unfold VlmData.panelwiseAt
    simp only [h1, if_pos (show k ∈ panelwiseKeys from hk)]
  unfold Canvas.addResults
  simp only [this, hy]
  exact addPatches_none hs _

/-- Each control has a known type and names segments of its wing. -/
def ControlsPlaced (ac : LoadedAircraft) : Prop :=
  ∀ w ∈ ac.wings, ∀ k ∈ w.controls, (k.data.deviceType = some "slat" ∨ k.data.deviceType = some "flap") ∧
    (∃ s ∈ w.segments, s.uid = k.data.segInner) ∧ ∃ s ∈ w.segments, s.uid = k.data.segOuter

theorem verticesOf_exists {w : LoadedWing} {name : String} (h : ∃ s ∈ w.segments, s.uid = name) :
    ∃ v, w.verticesOf name = .ok v := by
  unfold LoadedWing.verticesOf
  cases hf : w.segments.find? fun s => s.uid == name with
  | some s => exact ⟨_, rfl⟩
  | none =>
    obtain ⟨s, hs, e⟩ := h
    have := List.find?_eq_none.1 hf s hs
    simp [e] at this

theorem addControls_none : ∀ (l : List (FileControl × LoadedWing)), (∀ x ∈ l,
    (x.1.data.deviceType = some "slat" ∨ x.1.data.deviceType = some "flap") ∧
    (∃ s ∈ x.2.segments, s.uid = x.1.data.segInner) ∧ ∃ s ∈ x.2.segments, s.uid = x.1.data.segOuter) →
    ∀ c : Canvas, (c.addControls l).2 = none
  | [], _, c => rfl
  | (k, w) :: rest, h, c => by
    obtain ⟨h1, h2, h3⟩ := h (k, w) (by simp)
    obtain ⟨v1, e1⟩ := verticesOf_exists h2
    obtain ⟨v2, e2⟩ := verticesOf_exists h3
    have hc : ∃ v, w.controlVertices k.data = .ok v := by
      unfold LoadedWing.controlVertices
      simp only at e1 e2
      rw [e1, e2]
      simp only
      rcases h1 with h1 | h1
      · simp only at h1
        rw [h1, if_neg (by decide), if_pos rfl]
        exact ⟨_, rfl⟩
      · simp only at h1
        rw [h1, if_pos rfl]
        exact ⟨_, rfl⟩
    obtain ⟨v, hv⟩ := hc
    have hh : ∃ p, w.hingeVertices k.data = .ok p := by
      unfold LoadedWing.hingeVertices
      simp only at e1 e2
      rw [e1, e2]
      exact ⟨_, rfl⟩
    obtain ⟨p, hp⟩ := hh
    unfold Canvas.addControls
    rw [hv]
    dsimp only
    rw [hp]
    exact addControls_none rest (fun x hx => h x (List.mem_cons_of_mem _ hx)) _

theorem ControlsPlaced.none {ac : LoadedAircraft} (h : ControlsPlaced ac) (c : Canvas) :
    (c.addControls ac.controlsOf).2 = none := by
  refine addControls_none _ ?_ c
  intro x hx
  simp only [LoadedAircraft.controlsOf, List.mem_flatMap, List.mem_map] at hx
  obtain ⟨w, hw, k, hk, rfl⟩ := hx
  exact h w hw k hk

theorem plotIf_none {o : PlotOpts} {p : List Plot × Option PyErr}
    (h : (o.save = true ∨ o.show_ = true) → p.2 = none) : (plotIf o p).2 = none := by
  unfold plotIf PlotOpts.wanted
  split_ifs with hw
  · exact h (by simpa using hw)
  · rfl

theorem plotResults_none {env : RunEnv} (hd : Lapack env.dgesv) {pac : PAircraft ℝ} {s : FlowState}
    {l : LatticeData} {v : VlmData} (h : analyse env pac s VlmData.fresh = .ok (l, v))
    {ac : LoadedAircraft} (hs : aircraftSize ac.shape ≠ 0) (o : PlotOpts) : ∀ {keys : List PyVal},
    (∀ key ∈ keys, KnownKey key) → (plotResults ac s l v o keys).2 = none
  | [], _ => rfl
  | key :: rest, hk => thenPlot_none (addResults_none hd h hs (hk key (by simp)) _)
      (plotResults_none hd h hs o fun x hx => hk x (List.mem_cons_of_mem _ hx))

theorem makeAll_none {env : RunEnv} (hd : Lapack env.dgesv) {pac : PAircraft ℝ} {s : FlowState}
    {l : LatticeData} {v : VlmData} (h : analyse env pac s VlmData.fresh = .ok (l, v))
    {set : SettingsObj} {ac : LoadedAircraft} {defs : ODict (DefWing (DefField ℝ))}
    (hs : aircraftSize ac.shape ≠ 0) (hc : ControlsPlaced ac)
    (hk : ((set.plot "results").save = true ∨ (set.plot "results").show_ = true) →
      ∀ key ∈ (set.plot "results").opt, KnownKey key) :
    (makeAll set ac defs s v l).2 = none := by
  refine thenPlot_none (plotIf_none fun _ => ?_) (thenPlot_none (plotIf_none fun _ => ?_)
    (thenPlot_none (plotIf_none fun _ => ?_) (plotIf_none fun hw => ?_)))
  · unfold viewDownwash
    split
    · rename_i hm
      exact absurd hm (analysis_panelwise hd h).1
    · rfl
  · exact hc.none _
  · unfold plotLattice plot2d3d
    dsimp only
    split_ifs
    · rfl
    · exact hc.none _
  · exact plotResults_none hd h hs _ (hk hw)

/-! ### The loop -/

theorem stepPlots_pass {env : RunEnv} {ac : PAircraft ℝ} {st : FlightSt ℝ} {i : ℕ} {p : Pass}
    (h : Pass.Of env ac st i p) (set : SettingsObj) (acl : LoadedAircraft)
    (defs : ODict (DefWing (DefField ℝ))) (t : Table) (fs : Files) :
    stepPlots set acl defs st i ⟨ac, p.v, t, fs, some p.l⟩ = makeAll set acl defs p.s p.v p.l := by
  unfold stepPlots
  simp only [h.cur, h.flow]

/-- Files written in the loop. -/
def loopFiles : Except (Stop × Files) LoopSt → Files
  | .ok x => x.files
  | .error e => e.2

theorem runStep_files {env : RunEnv} {st : FlightSt ℝ} {i : ℕ} {x x' : LoopSt}
    (h : runStep env st i x = .ok x') : ∃ more, x'.files = x.files ++ more := by
  unfold runStep at h
  split at h
  · cases h
  split at h
  · cases h
  split at h
  · cases h
  split at h
  · cases h
  split at h
  · cases h
  split at h
  · cases h
  split at h
  · cases h
  cases h
  exact ⟨_, rfl⟩

theorem runLoop_files {env : RunEnv} {st : FlightSt ℝ} : ∀ {k i : ℕ} {x : LoopSt},
    ∃ more, loopFiles (runLoop env st k i x) = x.files ++ more
  | 0, i, x => ⟨[], by simp [runLoop, loopFiles]⟩
  | k + 1, i, x => by
    unfold runLoop
    split
    · exact ⟨[], by simp [loopFiles]⟩
    · rename_i x' h
      obtain ⟨m1, h1⟩ := runStep_files h
      obtain ⟨m2, h2⟩ := runLoop_files (env := env) (st := st) (k := k) (i := i + 1) (x := x')
      exact ⟨m1 ++ m2, by rw [h2, h1, List.append_assoc]⟩

section
variable {env : RunEnv} {set : SettingsObj} {acl : LoadedAircraft}
  {defs : ODict (DefWing (DefField ℝ))} {st : FlightSt ℝ}

theorem runLoopPlots_ok : ∀ {k i : ℕ} {x x' : LoopSt} {ps ps' : Plots},
    runLoopPlots env set acl defs st k i x ps = .ok (x', ps') → runLoop env st k i x = .ok x'
  | 0, i, x, x', ps, ps', h => by cases h; rfl
  | k + 1, i, x, x', ps, ps', h => by
    unfold runLoopPlots at h
    unfold runLoop
    split at h
    · cases h
    · rename_i y hy
      rw [hy]
      dsimp only at h ⊢
      split at h
      · cases h
      · exact runLoopPlots_ok h

theorem runLoopPlots_error : ∀ {k i : ℕ} {x : LoopSt} {ps ps' : Plots} {e : Stop} {files : Files},
    runLoopPlots env set acl defs st k i x ps = .error (e, files, ps') →
    runLoop env st k i x = .error (e, files) ∨
      (∃ err, e = .raised err) ∧ ∃ more, loopFiles (runLoop env st k i x) = files ++ more
  | 0, i, x, ps, ps', e, files, h => by cases h
  | k + 1, i, x, ps, ps', e, files, h => by
    unfold runLoopPlots at h
    unfold runLoop
    split at h
    · rename_i he
      rw [he]
      cases h
      exact Or.inl rfl
    · rename_i y hy
      rw [hy]
      dsimp only at h ⊢
      split at h
      · rename_i err _
        cases h
        exact Or.inr ⟨⟨err, rfl⟩, runLoop_files⟩
      · exact runLoopPlots_error h

theorem runLoopPlots_safe {ac : PAircraft ℝ}
    (hsafe : ∀ j p, Pass.Of env ac st j p → (makeAll set acl defs p.s p.v p.l).2 = none) :
    ∀ {k i : ℕ} {x : LoopSt} {ps : Plots}, x.vlm.WF → x.table.Full →
    (0 < k → ∀ a, prePanelFirst i x.ac = .ok a → a = ac) →
    (∀ x', runLoop env st k i x = .ok x' → ∃ qs : Plots,
      runLoopPlots env set acl defs st k i x ps = .ok (x', ps ++ qs) ∧
      qs.map (fun q => (q.1, q.2.label)) = (List.range k).flatMap fun j =>
        (plannedPlots (set.plot "matrix_downwash") (set.plot "geometry") (set.plot "lattice")
          (set.plot "results")).map fun n => (i + j, n)) ∧
    ∀ e, runLoop env st k i x = .error e →
      ∃ ps', runLoopPlots env set acl defs st k i x ps = .error (e.1, e.2, ps')
  | 0, i, x, ps, hv, ht, hac => by
    refine ⟨fun x' h => ⟨[], ?_, by simp⟩, fun e h => by cases h⟩
    cases h
    simp [runLoopPlots]
  | k + 1, i, x, ps, hv, ht, hac => by
    unfold runLoop runLoopPlots
    cases h1 : runStep env st i x with
    | error e =>
      refine ⟨fun x' h => (by cases h), fun e' h => ?_⟩
      cases h
      exact ⟨ps, rfl⟩
    | ok y =>
      obtain ⟨ac', p, fs, a1, a2, a3, rfl⟩ := runStep_ok hv ht h1
      obtain rfl := hac (Nat.succ_pos k) _ a1
      dsimp only
      rw [stepPlots_pass a2, hsafe i p a2]
      dsimp only
      obtain ⟨g1, g2⟩ := runLoopPlots_safe hsafe (k := k) (i := i + 1)
        (x := ⟨ac', p.v, fun k => (x.table k).map (· ++ [rowValue p.v k]), x.files ++ fs, some p.l⟩)
        (ps := ps ++ (makeAll set acl defs p.s p.v p.l).1.map fun q => (i, q))
        (analyse_wf a2.result) (append_full ht p.v) (fun _ a ha => by
          rw [prePanelFirst_succ] at ha
          cases ha
          rfl)
      refine ⟨fun x' h => ?_, g2⟩
      obtain ⟨qs, h2, h3⟩ := g1 x' h
      refine ⟨(makeAll set acl defs p.s p.v p.l).1.map (fun q => (i, q)) ++ qs, ?_, ?_⟩
      · rw [h2, List.append_assoc]
      · rw [List.map_append, h3, List.range_succ_eq_map, List.flatMap_cons, List.flatMap_map]
        congr 1
        · rw [← makeAll_labels (hsafe i p a2)]
          simp
        · congr 1
          funext j
          rw [show i + 1 + j = i + (j + 1) by omega]

end

/-! ### Whole runs -/

/-- **C110**: plots change nothing else: if a run with plots finishes then it returns what it returns
without plots; otherwise it stops as without plots, or in an exception of a plot, and then the files
written so far are the first of those written without plots. -/
theorem C110_results_unchanged (W : World) (P : Project) :
    (∀ out ps, runProjectPlots W P = .ok (out, ps) → runProject W P = .ok out) ∧
    ∀ stop files ps, runProjectPlots W P = .error (stop, files, ps) →
      runProject W P = .error (stop, files) ∨ (∃ e, stop = .raised e) ∧
        (∀ out, runProject W P = .ok out → files <+: out.files) ∧
        ∀ stop' files', runProject W P = .error (stop', files') → files <+: files' := by
  unfold runProjectPlots runProject
  cases hx : loadProject W P with
  | error e =>
    refine ⟨fun out ps h => (by cases h), fun stop files ps h => ?_⟩
    cases h
    exact Or.inl rfl
  | ok x =>
    dsimp only
    unfold standardRunPlots standardRun
    cases h1 : setAutopanels (x.env W P).autoC (x.env W P).autoS x.aircraft.toP with
    | error e =>
      refine ⟨fun out ps h => (by cases h), fun stop files ps h => ?_⟩
      cases h
      exact Or.inl rfl
    | ok ac1 =>
      dsimp only
      cases h2 : runLoopPlots (x.env W P) x.settings x.aircraft x.defs x.state x.state.num 0
        ⟨ac1, VlmData.fresh, Table.fresh, [], none⟩ [] with
      | error e =>
        obtain ⟨e, fs, ps'⟩ := e
        refine ⟨fun out ps h => (by cases h), fun stop files ps h => ?_⟩
        cases h
        rcases runLoopPlots_error h2 with h3 | ⟨h3, more, h4⟩
        · rw [h3]
          exact Or.inl rfl
        · refine Or.inr ⟨h3, ?_⟩
          cases h5 : runLoop (x.env W P) x.state x.state.num 0
            ⟨ac1, VlmData.fresh, Table.fresh, [], none⟩ with
          | error e' =>
            rw [h5] at h4
            refine ⟨fun out h => (by cases h), fun stop' files' h => ?_⟩
            cases h
            exact ⟨more, h4.symm⟩
          | ok y =>
            rw [h5] at h4
            have h4 : y.files = fs ++ more := h4
            dsimp only
            cases h6 : saveCpacsMap (x.env W P) y.table with
            | error e' =>
              refine ⟨fun out h => (by cases h), fun stop' files' h => ?_⟩
              cases h
              exact ⟨more, h4.symm⟩
            | ok cs =>
              dsimp only
              cases y.lattice with
              | none =>
                refine ⟨fun out h => (by cases h), fun stop' files' h => ?_⟩
                cases h
                rw [h4]
                simp
              | some l =>
                refine ⟨fun out h => ?_, fun stop' files' h => (by cases h)⟩
                cases h
                rw [h4]
                simp
      | ok r =>
        obtain ⟨y, ps'⟩ := r
        dsimp only
        rw [runLoopPlots_ok h2]
        dsimp only
        cases h6 : saveCpacsMap (x.env W P) y.table with
        | error e' =>
          refine ⟨fun out ps h => (by cases h), fun stop files ps h => ?_⟩
          cases h
          exact Or.inl rfl
        | ok cs =>
          dsimp only
          cases y.lattice with
          | none =>
            refine ⟨fun out ps h => (by cases h), fun stop files ps h => ?_⟩
            cases h
            exact Or.inl rfl
          | some l =>
            refine ⟨fun out ps h => ?_, fun stop files ps h => (by cases h)⟩
            cases h
            rfl

/-- Runs of a loaded project whose plots never fail. -/
theorem runPlots_safe {W : World} {P : Project} {x : Loaded} (hx : loadProject W P = .ok x)
    (hsafe : ∀ ac j p, Pass.Of (x.env W P) ac x.state j p →
      (makeAll x.settings x.aircraft x.defs p.s p.v p.l).2 = none) :
    (∀ out, runProject W P = .ok out → ∃ ps : Plots, runProjectPlots W P = .ok (out, ps) ∧
      ps.map (fun q => (q.1, q.2.label)) = (List.range x.state.num).flatMap fun i =>
        (plannedPlots (x.settings.plot "matrix_downwash") (x.settings.plot "geometry")
          (x.settings.plot "lattice") (x.settings.plot "results")).map fun n => (i, n)) ∧
    ∀ stop files, runProject W P = .error (stop, files) →
      ∃ ps, runProjectPlots W P = .error (stop, files, ps) := by
  unfold runProjectPlots runProject
  rw [hx]
  dsimp only
  unfold standardRunPlots standardRun
  cases h1 : setAutopanels (x.env W P).autoC (x.env W P).autoS x.aircraft.toP with
  | error e =>
    refine ⟨fun out h => (by cases h), fun stop files h => ?_⟩
    cases h
    exact ⟨[], rfl⟩
  | ok ac1 =>
    dsimp only
    have hac : ∃ ac, 0 < x.state.num → ∀ a, prePanelFirst 0 ac1 = .ok a → a = ac := by
      cases hp : prePanelFirst 0 ac1 with
      | error e => exact ⟨ac1, fun _ a h => by cases h⟩
      | ok a => exact ⟨a, fun _ b h => by cases h; rfl⟩
    obtain ⟨ac, hac⟩ := hac
    obtain ⟨g1, g2⟩ := runLoopPlots_safe (hsafe ac) (k := x.state.num) (i := 0)
      (x := ⟨ac1, VlmData.fresh, Table.fresh, [], none⟩) (ps := []) VlmData.fresh_wf Table.fresh_full hac
    cases h2 : runLoop (x.env W P) x.state x.state.num 0 ⟨ac1, VlmData.fresh, Table.fresh, [], none⟩ with
    | error e =>
      obtain ⟨ps', h3⟩ := g2 e h2
      rw [h3]
      refine ⟨fun out h => (by cases h), fun stop files h => ?_⟩
      cases h
      exact ⟨ps', rfl⟩
    | ok y =>
      obtain ⟨qs, h3, h4⟩ := g1 y h2
      rw [h3]
      simp only [Nat.zero_add] at h4
      dsimp only
      cases h6 : saveCpacsMap (x.env W P) y.table with
      | error e' =>
        refine ⟨fun out h => (by cases h), fun stop files h => ?_⟩
        cases h
        exact ⟨_, rfl⟩
      | ok cs =>
        dsimp only
        cases y.lattice with
        | none =>
          refine ⟨fun out h => (by cases h), fun stop files h => ?_⟩
          cases h
          exact ⟨_, rfl⟩
        | some l =>
          refine ⟨fun out h => ?_, fun stop files h => (by cases h)⟩
          cases h
          exact ⟨_, rfl, h4⟩

theorem size_of_load {root : String} {airfoilOk : String → Bool} {f : FileAircraft} {ac : LoadedAircraft}
    (hac : loadAircraft root airfoilOk f = .ok ac) (hseg : ∃ w ∈ f.wings, w.segments ≠ []) :
    aircraftSize ac.shape ≠ 0 := by
  intro h0
  have hok := (C92_accepted_iff _ _ _).1 ⟨ac, hac⟩
  obtain ⟨-, -, hw, -⟩ := C92_content _ _ _ _ hac
  obtain ⟨e, he, hne⟩ := hseg
  obtain ⟨s, hs, p, hp, hspan⟩ := (hok.wings e he).span hne
  obtain ⟨w, hwm, hf⟩ := forall₂_mem_left hw he
  obtain ⟨t, ht, hst⟩ := forall₂_mem_left hf.segments hs
  have hv : t.gen.vertices = p := noSpan_given hst.vertices hp
  obtain ⟨lo, hi, hbox, hsz⟩ := C54_size ac.shape
  rw [h0] at hsz
  have hz := V3.norm_eq_zero.1 hsz.symm
  have inb : ∀ q, AircraftPoint ac.shape q → q.y = 0 ∧ q.z = 0 := by
    intro q hq
    have hy : hi.y - lo.y = 0 := congrArg V3.y hz
    have hz' : hi.z - lo.z = 0 := congrArg V3.z hz
    have y1 := hbox.2.1.1.2 ⟨q, hq, rfl⟩
    have y2 := hbox.2.1.2.2 ⟨q, hq, rfl⟩
    have y3 := hbox.2.1.1.2 ⟨_, .origin, rfl⟩
    have y4 := hbox.2.1.2.2 ⟨_, .origin, rfl⟩
    have z1 := hbox.2.2.1.2 ⟨q, hq, rfl⟩
    have z2 := hbox.2.2.2.2 ⟨q, hq, rfl⟩
    have z3 := hbox.2.2.1.2 ⟨_, .origin, rfl⟩
    have z4 := hbox.2.2.2.2 ⟨_, .origin, rfl⟩
    dsimp only at y1 y2 y3 y4 z1 z2 z3 z4
    constructor <;> linarith
  have k1 : (w.symmetry, w.segments.map fun s => s.gen.vertices) ∈ ac.shape := List.mem_map.2 ⟨w, hwm, rfl⟩
  have k2 : p ∈ (w.symmetry, w.segments.map fun s => s.gen.vertices).2 :=
    List.mem_map.2 ⟨t, ht, hv⟩
  have pa := inb p.a (.vertex k1 k2 (by simp))
  have pb := inb p.b (.vertex k1 k2 (by simp))
  exact hspan ⟨pa.1.trans pb.1.symm, pa.2.trans pb.2.symm⟩

theorem ProjectOk.placed {W : World} {P : Project} {d : PyDict} {a b : String} {f : FileAircraft}
    {sd : List (String × Arg ℝ)} (h : ProjectOk W P d a b f sd) {ac : LoadedAircraft}
    (hac : loadAircraft P.root W.airfoilOk f = .ok ac) : ControlsPlaced ac := by
  obtain ⟨-, -, hw, -⟩ := C92_content _ _ _ _ hac
  intro w hwm k hk
  obtain ⟨e, he, hf⟩ := forall₂_mem_right hw hwm
  obtain ⟨e', he', -, hd⟩ := forall₂_mem_right hf.controls hk
  have hreq : (⟨e'.uid, e'.data.deviceType.getD "", e'.data.segInner, e'.data.segOuter,
      e'.data.etaInner, e'.data.etaOuter, e'.data.xsiInner, e'.data.xsiOuter, some e'.data.hingeInner,
      some e'.data.hingeOuter, e'.data.numC⟩ : PControl ℝ) ∈ e.requested := List.mem_map.2 ⟨e', he', rfl⟩
  obtain ⟨i, j, hon⟩ := (h.layout e he).controls.placed _ hreq
  have huids := hf.uids
  have named : ∀ u, u ∈ e.segments.map (·.uid) → ∃ s ∈ w.segments, s.uid = u := by
    intro u hu
    obtain ⟨s, hs, rfl⟩ := List.mem_map.1 hu
    obtain ⟨t, ht, hst⟩ := forall₂_mem_left hf.segments hs
    exact ⟨t, ht, hst.uid⟩
  rw [hd]
  exact ⟨((h.file.wings e he).controls e' he').1, named _ (List.mem_of_getElem? hon.inner),
    named _ (List.mem_of_getElem? hon.outer)⟩

/-- **C111**: a project in order whose result plots name known results is never answered by an
exception of a plot.  Its run behaves as without plots, and makes for each flight state exactly the
plots asked for, saved and shown as asked for.  (Missing: unknown results, see `C111_unknown_key`.) -/
theorem C111_plots_made_partial (W : World) (hW : Lapack W.dgesv) (P : Project) (d : PyDict) (a b : String)
    (f : FileAircraft) (sd : List (String × Arg ℝ)) (h : ProjectOk W P d a b f sd) :
    ∃ (m g l r : PlotOpts) (n : ℕ), PlotAsked d "matrix_downwash" m ∧ PlotAsked d "geometry" g ∧
      PlotAsked d "lattice" l ∧ PlotAsked d "results" r ∧ (∀ x ∈ sd, x.2.toList.length = n) ∧
      ((r.save = true ∨ r.show_ = true → ∀ key ∈ r.opt, KnownKey key) →
        (∀ out, runProject W P = .ok out → ∃ ps : Plots, runProjectPlots W P = .ok (out, ps) ∧
          ps.map (fun q => (q.1, q.2.label)) =
            (List.range n).flatMap fun i => (plannedPlots m g l r).map fun x => (i, x)) ∧
        ∀ stop files, runProject W P = .error (stop, files) →
          ∃ ps, runProjectPlots W P = .error (stop, files, ps)) := by
  obtain ⟨x, hx, hs, hac, hst⟩ := h.load
  refine ⟨_, _, _, _, x.state.num, plot_asked h.native.keys hs (by simp),
    plot_asked h.native.keys hs (by simp), plot_asked h.native.keys hs (by simp),
    plot_asked h.native.keys hs (by simp),
    ((accepted angle_limits W.atm _ h.states.keys).2 _ hst).1, fun hk => ?_⟩
  refine runPlots_safe hx fun ac j p hp => ?_
  exact makeAll_none (env := x.env W P) hW hp.result (size_of_load hac h.segment) (h.placed hac) hk

theorem addResults_unknown {key : PyVal} (h : ¬ KnownKey key) (c : Canvas) (ac : LoadedAircraft)
    (l : LatticeData) (v : VlmData) : (c.addResults ac l v key).2 ≠ none := by
  have : ∃ e, v.panelwiseAt key = .error e := by
    unfold VlmData.panelwiseAt
    cases key with
    | str k =>
      dsimp only
      rw [if_neg fun hk : k ∈ panelwiseKeys => h ⟨k, hk, rfl⟩]
      exact ⟨_, rfl⟩
    | _ => exact ⟨_, rfl⟩
  obtain ⟨e, he⟩ := this
  unfold Canvas.addResults
  rw [he]
  simp

theorem plotResults_unknown {ac : LoadedAircraft} {s : FlowState} {l : LatticeData} {v : VlmData}
    {o : PlotOpts} : ∀ {keys : List PyVal}, (∃ key ∈ keys, ¬ KnownKey key) →
    (plotResults ac s l v o keys).2 ≠ none
  | [], h => by obtain ⟨key, hk, -⟩ := h; cases hk
  | key :: rest, h => by
    intro h0
    unfold plotResults at h0
    obtain ⟨h1, h2, -⟩ := thenPlot_ok h0
    obtain ⟨k, hk, hn⟩ := h
    rcases List.mem_cons.1 hk with rfl | hk
    · exact addResults_unknown hn _ _ _ _ h1
    · exact plotResults_unknown ⟨k, hk, hn⟩ h2

/-- **C111**: if plots of results are asked for and one of the keys is not the name of a result then
the run ends in an exception, also if all states can be computed. -/
theorem C111_unknown_key (W : World) (P : Project) (d : PyDict) (a b : String)
    (hn : NativeProject W P d a b) (out : RunOut) (h : runProject W P = .ok out) :
    ∃ r, PlotAsked d "results" r ∧ (r.save = true ∨ r.show_ = true → (∃ key ∈ r.opt, ¬ KnownKey key) →
      ∃ e files ps, runProjectPlots W P = .error (.raised e, files, ps)) := by
  cases hx : loadProject W P with
  | error e =>
    unfold runProject at h
    rw [hx] at h
    cases h
  | ok x =>
    have hs : loadSettings W.suffix (.dict d) = .ok x.settings := by
      rw [← hn.settings]
      unfold loadProject at hx
      cases hs : loadSettings W.suffix P.settings with
      | error e => rw [hs] at hx; cases hx
      | ok s =>
        rw [hs] at hx
        dsimp only at hx
        repeat' split at hx
        all_goals first | (cases hx; done) | (cases hx; rfl)
    refine ⟨_, plot_asked hn.keys hs (by simp), fun hw hk => ?_⟩
    cases hr : runProjectPlots W P with
    | error e =>
      obtain ⟨stop, files, ps⟩ := e
      rcases (C110_results_unchanged W P).2 _ _ _ hr with h1 | ⟨⟨e, rfl⟩, -⟩
      · rw [h] at h1
        cases h1
      · exact ⟨e, files, ps, rfl⟩
    | ok r =>
      exfalso
      unfold runProjectPlots at hr
      rw [hx] at hr
      dsimp only at hr
      unfold standardRunPlots at hr
      split at hr
      · cases hr
      rename_i ac1 _
      split at hr
      · cases hr
      rename_i y ps hloop
      cases hnum : x.state.num with
      | zero =>
        rw [hnum] at hloop
        unfold runLoopPlots at hloop
        cases hloop
        split at hr
        · cases hr
        · cases hr
      | succ k =>
        rw [hnum] at hloop
        unfold runLoopPlots at hloop
        cases h1 : runStep (x.env W P) x.state 0 ⟨ac1, VlmData.fresh, Table.fresh, [], none⟩ with
        | error e => rw [h1] at hloop; cases hloop
        | ok y' =>
          rw [h1] at hloop
          dsimp only at hloop
          obtain ⟨ac', p, fs, -, a2, -, rfl⟩ := runStep_ok VlmData.fresh_wf Table.fresh_full h1
          rw [stepPlots_pass a2] at hloop
          cases hm : (makeAll x.settings x.aircraft x.defs p.s p.v p.l).2 with
          | some e => rw [hm] at hloop; cases hloop
          | none =>
            unfold makeAll at hm
            obtain ⟨-, hm, -⟩ := thenPlot_ok hm
            obtain ⟨-, hm, -⟩ := thenPlot_ok hm
            obtain ⟨-, hm, -⟩ := thenPlot_ok hm
            unfold plotIf PlotOpts.wanted at hm
            rw [if_pos (by simpa using hw)] at hm
            exact plotResults_unknown hk hm

/-! ### Examples for C110, C111 -/

/-- Geometry is saved, the given results are saved and shown. -/
def plotGroups (opt : List PyVal) : PyVal := .dict
  [("results", .dict [("opt", .list opt), ("show", .bool true), ("save", .bool true)]),
   ("geometry", .dict [("opt", .list []), ("show", .bool false), ("save", .bool true)]),
   ("lattice", .dict [("opt", .list []), ("show", .bool false), ("save", .bool false)]),
   ("matrix_downwash", .dict [("opt", .list []), ("show", .bool false), ("save", .bool false)])]

/-- Settings with plots. -/
def plotSettings (opt : List PyVal) : PyDict := exampleSettings ++ [("plot", plotGroups opt)]

theorem plots_given (opt : List PyVal) : ("plot", plotGroups opt) ∈ plotSettings opt := by
  simp [plotSettings]

/-- The flat wing with plots. -/
noncomputable def plotProject (opt : List PyVal) : Project :=
  { exampleProject rectFile with base := "plots", settings := .dict (plotSettings opt) }

theorem plots_settings_ok (opt : List PyVal) : SettingsFileOk exampleWorld.suffix (plotSettings opt) := by
  refine ⟨⟨"plane.json", by simp [plotSettings, exampleSettings], .inl rfl⟩,
    ⟨"cruise.json", by simp [plotSettings, exampleSettings]⟩,
    by simp [IfGiven, plotSettings, exampleSettings],
    by simp [IfGiven, plotSettings, exampleSettings],
    by simp [IfGiven, plotSettings, exampleSettings], ?_,
    by simp [IfGiven, plotSettings, exampleSettings],
    by simp [IfGiven, plotSettings, exampleSettings],
    by simp [IfGiven, plotSettings, exampleSettings]⟩
  intro v hv
  simp [plotSettings, exampleSettings] at hv
  refine ⟨_, hv, ?_, ?_⟩
  · intro k hk
    simp only [List.mem_cons, List.not_mem_nil, or_false] at hk
    rcases hk with rfl | rfl | rfl <;>
      exact ⟨_, rfl, _, rfl, ⟨_, rfl, _, rfl⟩,
      ⟨_, rfl, _, rfl⟩, _, rfl, _, rfl⟩
  · exact ⟨_, rfl, _, rfl, ⟨_, rfl, .inl ⟨_, rfl⟩⟩, ⟨_, rfl, _, rfl⟩, _, rfl, _, rfl⟩

theorem plots_native (opt : List PyVal) : NativeProject exampleWorld (plotProject opt) (plotSettings opt)
    "plane.json" "cruise.json" :=
  ⟨rfl, by simp [plotSettings, exampleSettings], by simp [plotSettings, exampleSettings], rfl,
    by simp [plotSettings, exampleSettings], (example_native rectFile).notCpacs⟩

theorem plots_ok (opt : List PyVal) : ProjectOk exampleWorld (plotProject opt) (plotSettings opt)
    "plane.json" "cruise.json" rectFile (oneState 10 1 5 0) where
  native := plots_native opt
  settings := plots_settings_ok opt
  panelsC := by simp [IfGiven, plotSettings, exampleSettings]
  panelsS := by simp [IfGiven, plotSettings, exampleSettings]
  aircraft := rfl
  file := rectFile_ok
  layout := rectFile_layout
  segment := ⟨_, List.mem_singleton.2 rfl, by simp⟩
  state := rfl
  states := ⟨oneState_nodup _ _ _ _, oneState_acceptable _ _ _ _ _, by simp [oneState],
    _, List.mem_cons_self .., by simp [Arg.toList]⟩
  deformation := by simp [DeformationOk, IfGiven, plotSettings, exampleSettings]

theorem plots_finishes (opt : List PyVal) : ∃ out, runProject exampleWorld (plotProject opt) = .ok out := by
  have same := C104_output_settings exampleWorld exactDgesv_lapack _ exampleSettings (plotSettings opt)
    "plane.json" "cruise.json" (example_native rectFile) (by simp [plotSettings, exampleSettings])
    (by intro k v h1 h2; simp [plotSettings, exampleSettings, h2]) example_settings
    (plots_settings_ok opt) "plots"
  exact same.finish.1 rect_finishes

theorem plots_asked_results {opt : List PyVal} (hne : opt ≠ []) {r : PlotOpts}
    (h : PlotAsked (plotSettings opt) "results" r) : r = ⟨opt, true, true⟩ := by
  obtain ⟨o, b, c⟩ := r
  have hm := plots_given opt
  obtain ⟨h1, h2⟩ := h.given _ hm
  obtain ⟨o', h3, -, h4⟩ := h.results rfl _ hm
  cases h1
  cases h2
  cases h3
  have : ¬ (PyVal.list opt).IsEmpty := by
    rw [← truthy_false_iff]
    simpa [PyVal.truthy] using hne
  cases h4 this
  rfl

/-- Example for C110, C111: with the keys 'cp' and 'gamma' the run of the flat wing makes three plots. -/
theorem plots_run : ∃ out ps, runProjectPlots exampleWorld (plotProject [.str "cp", .str "gamma"]) = .ok (out, ps) ∧
    ps.map (fun q => (q.1, q.2.label)) = [(0, "geometry", true, false), (0, "results_cp", true, true),
      (0, "results_gamma", true, true)] := by
  obtain ⟨m, g, l, r, n, hm, hg, hl, hr, hn, h⟩ := C111_plots_made_partial exampleWorld exactDgesv_lapack
    (plotProject [.str "cp", .str "gamma"]) _ _ _ _ _ (plots_ok _)
  obtain rfl := plots_asked_results (by simp) hr
  obtain ⟨out, ho⟩ := plots_finishes [.str "cp", .str "gamma"]
  obtain ⟨ps, h1, h2⟩ := (h (by simp [KnownKey])).1 out ho
  refine ⟨out, ps, h1, ?_⟩
  have h0 : n = 1 := by
    rw [← hn _ (List.mem_cons_self ..)]
    simp [Arg.toList]
  have hmem := plots_given [.str "cp", .str "gamma"]
  obtain ⟨m1, m2⟩ := hm.given _ hmem
  obtain ⟨g1, g2⟩ := hg.given _ hmem
  obtain ⟨l1, l2⟩ := hl.given _ hmem
  obtain ⟨mo, ms, mv⟩ := m
  obtain ⟨go, gs, gv⟩ := g
  obtain ⟨lo, ls, lv⟩ := l
  cases m1
  cases m2
  cases g1
  cases g2
  cases l1
  cases l2
  rw [h2, h0]
  simp only [plannedPlots, resultName, List.map_cons, List.map_nil]
  rfl

/-- **C111** (negation of "a project in order never ends in an exception"): the result to be plotted is
spelt wrongly.  Without plots the same run finishes. -/
theorem C111_no_exception_false : ¬ ∀ (W : World) (P : Project) (d : PyDict) (a b : String)
    (f : FileAircraft) (sd : List (String × Arg ℝ)), Lapack W.dgesv → ProjectOk W P d a b f sd →
    ∀ e files ps, runProjectPlots W P ≠ .error (.raised e, files, ps) := by
  intro hall
  obtain ⟨out, ho⟩ := plots_finishes [.str "Cp"]
  obtain ⟨r, hr, h⟩ := C111_unknown_key exampleWorld (plotProject [.str "Cp"]) _ _ _ (plots_native _) out ho
  obtain rfl := plots_asked_results (by simp) hr
  obtain ⟨e, files, ps, h⟩ := h (Or.inl rfl) ⟨.str "Cp", by simp, by simp [KnownKey]⟩
  exact hall _ _ _ _ _ _ _ exactDgesv_lapack (plots_ok [.str "Cp"]) e files ps h

end Verif
