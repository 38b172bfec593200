import Verif.Props.PlotRun

/-!
# Properties C108, C110, C112: the lattice plot, plots that fail, and what the plots of a run show
-/

namespace Verif

/-! ## C108: the lattice plot -/

/-- What belongs on the lattice plot: the centre of gravity, the outline of each panel, and, if no wing
is deformed, the controls with their mirror images. -/
inductive LatticeMark (ac : LoadedAircraft) (deformed : Prop) (l : LatticeData) : Mark (V3 ℝ) → Prop
  | cg : LatticeMark ac deformed l (.cross ac.refs.gcenter)
  | panel {k : ℕ} {g : PanelPts ℝ} : k < l.num → l.pts k = some g →
      LatticeMark ac deformed l (.line "black" [g.p, g.q, g.r, g.s, g.p])
  | control {w k colour pts qs} : ¬ deformed → w ∈ ac.wings → k ∈ w.controls →
      ControlLine w k.data colour pts → WithImage w.symmetry pts qs →
      LatticeMark ac deformed l (.line colour qs)

theorem mem_addLattice {c : Canvas} {l : LatticeData} (hl : ∀ k < l.num, ∃ g, l.pts (k : ℤ) = some g)
    {m : Mark (V3 ℝ)} : m ∈ (c.addLattice l).d3 ↔ m ∈ c.d3 ∨ ∃ k < l.num, ∃ g, l.pts (k : ℤ) = some g ∧
      m = .line "black" [g.p, g.q, g.r, g.s, g.p] := by
  have key : ∀ (vs : List (Corners (V3 ℝ))) (c : Canvas),
      m ∈ (vs.foldl (fun c v => c.plotXYZ "black" v.outline none) c).d3 ↔
        m ∈ c.d3 ∨ ∃ v ∈ vs, m = .line "black" v.outline := by
    intro vs
    induction vs with
    | nil => intro c; simp
    | cons v vs ih =>
      intro c
      rw [List.foldl_cons, ih]
      simp [Canvas.plotXYZ, or_assoc]
  unfold Canvas.addLattice
  rw [key]
  apply or_congr_right
  constructor
  · rintro ⟨v, hv, rfl⟩
    simp only [LatticeData.corners, List.mem_map, List.mem_range] at hv
    obtain ⟨k, hk, rfl⟩ := hv
    obtain ⟨g, hg⟩ := hl k hk
    exact ⟨k, hk, g, hg, by simp [hg, Corners.outline]⟩
  · rintro ⟨k, hk, g, hg, rfl⟩
    refine ⟨⟨g.p, g.q, g.r, g.s⟩, ?_, rfl⟩
    simp only [LatticeData.corners, List.mem_map, List.mem_range]
    exact ⟨k, hk, by rw [hg]⟩

theorem mem_controlsOf {ac : LoadedAircraft} {x : FileControl × LoadedWing} :
    x ∈ ac.controlsOf ↔ x.2 ∈ ac.wings ∧ x.1 ∈ x.2.controls := by
  simp only [LoadedAircraft.controlsOf, List.mem_flatMap, List.mem_map]
  constructor
  · rintro ⟨w, hw, s, hs, rfl⟩
    exact ⟨hw, hs⟩
  · rintro ⟨hw, hs⟩
    exact ⟨x.2, hw, x.1, hs, rfl⟩

/-- **C108**: the lattice plot shows the outline of every panel, the centre of gravity, and, unless a
wing is deformed, the controls; and nothing else. -/
theorem C108_lattice (ac : LoadedAircraft) (defs : ODict (DefWing (DefField ℝ))) (l : LatticeData)
    (hl : ∀ k < l.num, ∃ g, l.pts (k : ℤ) = some g) (o : PlotOpts) (plots : List Plot)
    (h : plotLattice ac defs l o = (plots, none)) :
    ∃ c, plots = [⟨"lattice", o.save, o.show_, .views (scalePlots ac.limits) c⟩] ∧
      ∀ m, m ∈ c.d3 ↔ LatticeMark ac (∃ d ∈ defs, d.2.defField ≠ none ∨ d.2.defFieldMirror ≠ none) l m := by
  unfold plotLattice plot2d3d at h
  simp only [Prod.mk.injEq] at h
  obtain ⟨rfl, h⟩ := h
  refine ⟨_, rfl, fun m => ?_⟩
  have hdef : hasDeformedWings defs = true ↔
      ∃ d ∈ defs, d.2.defField ≠ none ∨ d.2.defFieldMirror ≠ none := by
    unfold hasDeformedWings
    simp [List.any_eq_true, Option.isSome_iff_ne_none]
  have base : m ∈ ((Canvas.empty.addCG ac.refs.gcenter).addLattice l).d3 ↔
      m = .cross ac.refs.gcenter ∨ ∃ k < l.num, ∃ g, l.pts (k : ℤ) = some g ∧
        m = .line "black" [g.p, g.q, g.r, g.s, g.p] := by
    rw [mem_addLattice hl]
    simp [Canvas.addCG, Canvas.empty]
  by_cases hd : hasDeformedWings defs = true
  · rw [if_pos hd, base]
    have hd := hdef.1 hd
    constructor
    · rintro (rfl | ⟨k, hk, g, hg, rfl⟩)
      · exact .cg
      · exact .panel hk hg
    · rintro (_ | ⟨hk, hg⟩ | ⟨hn, -⟩)
      · exact .inl rfl
      · exact .inr ⟨_, hk, _, hg, rfl⟩
      · exact absurd hd hn
  · rw [if_neg hd] at h ⊢
    have hd := fun x => hd (hdef.2 x)
    have key := mem_addControls (m := m) ac.controlsOf
      (c := (Canvas.empty.addCG ac.refs.gcenter).addLattice l)
    rw [base] at key
    have iff : _ ↔ _ := ⟨key.1, key.2 h⟩
    rw [iff]
    constructor
    · rintro ((rfl | ⟨k, hk, g, hg, rfl⟩) | ⟨x, hx, colour, pts, qs, h1, h2, rfl⟩)
      · exact .cg
      · exact .panel hk hg
      · exact .control hd (mem_controlsOf.1 hx).1 (mem_controlsOf.1 hx).2 h1 h2
    · rintro (_ | ⟨hk, hg⟩ | ⟨hn, hw, hk, h1, h2⟩)
      · exact .inl (.inl rfl)
      · exact .inl (.inr ⟨_, hk, _, hg, rfl⟩)
      · exact .inr ⟨(_, _), mem_controlsOf.2 ⟨hw, hk⟩, _, _, _, h1, h2, rfl⟩

/-- Example for C108: the second panel of two and the flap of the right half. -/
example : ∃ c, plotLattice plotAc [("wing", ⟨none, none⟩)] plotPanels ⟨[], true, false⟩ =
    ([⟨"lattice", false, true, .views (scalePlots plotAc.limits) c⟩], none) ∧
    Mark.line "black" [⟨0, 1, 0⟩, ⟨0, 2, 0⟩, ⟨1, 2, 0⟩, ⟨1, 1, 0⟩, ⟨0, 1, 0⟩] ∈ c.d3 ∧
    Mark.line "blue" [⟨31/20, 4/5, 0⟩, ⟨17/10, 16/5, 0⟩] ∈ c.d3 := by
  have h0 : (plotLattice plotAc [("wing", ⟨none, none⟩)] plotPanels ⟨[], true, false⟩).2 = none := by
    simp [plotLattice, hasDeformedWings, plot2d3d, plotAc, LoadedAircraft.controlsOf, Canvas.addControls,
      LoadedWing.controlVertices, LoadedWing.hingeVertices, LoadedWing.verticesOf]
  obtain ⟨c, h1, h2⟩ := C108_lattice plotAc _ plotPanels (fun k _ => by
    simp only [plotPanels]; split_ifs <;> exact ⟨_, rfl⟩) _ _ (eq_none h0)
  refine ⟨c, by rw [eq_none h0, h1], (h2 _).2 (.panel (k := 1)
    (g := ⟨⟨0, 1, 0⟩, ⟨0, 2, 0⟩, ⟨1, 2, 0⟩, ⟨1, 1, 0⟩, 0, 0, 0, 0, 0, 0⟩) ?_ ?_), (h2 _).2 (.control ?_
    (List.mem_singleton.2 rfl) (List.mem_singleton.2 rfl) (.hinge (by rfl) (by rfl)) (Or.inl ?_))⟩
  · show 1 < plotPanels.num
    decide
  · simp [plotPanels]
  · simp
  · simp only [List.cons.injEq, and_true]
    constructor <;> ext <;> norm_num [segPoint]

/-- Example for C108: if the mirrored half is deformed then the controls are left out. -/
example (fld : DefField ℝ) : ∃ c, plotLattice plotAc [("wing", ⟨none, some fld⟩)] plotPanels ⟨[], true, false⟩ =
    ([⟨"lattice", false, true, .views (scalePlots plotAc.limits) c⟩], none) ∧
    ∀ qs, Mark.line "blue" qs ∉ c.d3 := by
  have h0 : (plotLattice plotAc [("wing", ⟨none, some fld⟩)] plotPanels ⟨[], true, false⟩).2 = none := by
    simp [plotLattice, hasDeformedWings, plot2d3d]
  obtain ⟨c, h1, h2⟩ := C108_lattice plotAc _ plotPanels (fun k _ => by
    simp only [plotPanels]; split_ifs <;> exact ⟨_, rfl⟩) _ _ (eq_none h0)
  refine ⟨c, by rw [eq_none h0, h1], fun qs hq => ?_⟩
  have hm := (h2 _).1 hq
  generalize hx : Mark.line "blue" qs = x at hm
  cases hm with
  | cg => cases hx
  | panel _ _ => simp at hx
  | control hn => exact hn (by simp)

/-! ## C112: what the plots of a run show -/

/-- The results that can be plotted: name and values on the panels. -/
def resultColumns : List (String × ((a : Analysis) → Fin a.l.num → Flt ℝ)) :=
  [("gamma", fun a k => .fin (a.g k)),
   ("vx", fun a k => .fin (a.R.iw k).x), ("vy", fun a k => .fin (a.R.iw k).y),
   ("vz", fun a k => .fin (a.R.iw k).z), ("vmag", fun a k => .fin (a.R.iwMag k)),
   ("fx", fun a k => .fin (a.R.f k).x), ("fy", fun a k => .fin (a.R.f k).y),
   ("fz", fun a k => .fin (a.R.f k).z), ("fmag", fun a k => .fin (a.R.fMag k)),
   ("cp", fun a k => asFlt (a.R.cp k))]

/-- The values are shown: the free stream, and one patch per panel with a colour for its value. -/
def ShowsValues (a : Analysis) (values : Fin a.l.num → Flt ℝ) (c : Canvas) : Prop :=
  ∀ xs : List ℝ, List.ofFn values = xs.map .fin → a.s.airspeed ≠ 0 →
    ∃ vals gs t u, StreamArrow a.s t u ∧ ColoursOf xs vals ∧ gs.length = a.l.num ∧
      (∀ (i : ℕ) (hi : i < gs.length) (g : PanelPts ℝ), a.l.pts i = some g →
        GridOn ⟨g.p, g.q, g.r, g.s⟩ gs[i]) ∧
      c.d3 = .arrow t u :: List.zipWith (fun x g => .patch (.fin x) g) vals gs

/-- A plot shows the data of an analysis. -/
inductive PlotShows (ac : LoadedAircraft) (deformed : Prop) (a : Analysis) : Plot → Prop
  | matrix {s v} : PlotShows ac deformed a
      ⟨"downwash", s, v, .matrix (List.ofFn fun i => List.ofFn fun j => a.A i j)⟩
  | geometry {s v L c} : (∀ m, m ∈ c.d3 ↔ GeometryMark ac m) →
      PlotShows ac deformed a ⟨"geometry", s, v, .views L c⟩
  | lattice {s v L c} : (∀ m, m ∈ c.d3 ↔ LatticeMark ac deformed a.l m) →
      PlotShows ac deformed a ⟨"lattice", s, v, .views L c⟩
  | result {s v L c k col} : (k, col) ∈ resultColumns → ShowsValues a (col a) c →
      PlotShows ac deformed a ⟨"results_" ++ k, s, v, .views L c⟩

theorem Holds.column {env : RunEnv} {v : VlmData} {a : Analysis} (h : v.Holds env a) {k : String}
    (hk : k ∈ panelwiseKeys) :
    ∃ col, (k, col) ∈ resultColumns ∧ v.panelwise k = some (List.ofFn (col a)) := by
  simp only [panelwiseKeys, List.mem_cons, List.not_mem_nil, or_false] at hk
  rcases hk with rfl | rfl | rfl | rfl | rfl | rfl | rfl | rfl | rfl | rfl
  · exact ⟨_, by simp [resultColumns]; rfl, h.gamma⟩
  · exact ⟨_, by simp [resultColumns]; rfl, h.vx⟩
  · exact ⟨_, by simp [resultColumns]; rfl, h.vy⟩
  · exact ⟨_, by simp [resultColumns]; rfl, h.vz⟩
  · exact ⟨_, by simp [resultColumns]; rfl, h.vmag⟩
  · exact ⟨_, by simp [resultColumns]; rfl, h.fx⟩
  · exact ⟨_, by simp [resultColumns]; rfl, h.fy⟩
  · exact ⟨_, by simp [resultColumns]; rfl, h.fz⟩
  · exact ⟨_, by simp [resultColumns]; rfl, h.fmag⟩
  · exact ⟨_, by simp [resultColumns]; rfl, h.cp⟩

theorem plotResults_mem {ac : LoadedAircraft} {s : FlowState} {l : LatticeData} {v : VlmData}
    {o : PlotOpts} {plot : Plot} : ∀ {keys : List PyVal}, (plotResults ac s l v o keys).2 = none →
    plot ∈ (plotResults ac s l v o keys).1 → ∃ key ∈ keys, plotResults ac s l v o [key] = ([plot], none)
  | [], _, hm => by simp [plotResults] at hm
  | key :: rest, h, hm => by
    obtain ⟨h1, h2, h3⟩ := thenPlot_ok (p := plot2d3d ac (resultsPlotName key) o
      ((Canvas.empty.addFreestream s).addResults ac l v key)) (q := plotResults ac s l v o rest) h
    rw [plotResults, h3] at hm
    rcases List.mem_append.1 hm with hm | hm
    · refine ⟨key, by simp, ?_⟩
      simp only [plotResults, thenPlot, h1]
      simp only [plot2d3d, List.mem_singleton] at hm
      subst hm
      simp [plot2d3d]
    · obtain ⟨key', hk, e⟩ := plotResults_mem h2 hm
      exact ⟨key', List.mem_cons_of_mem _ hk, e⟩

theorem plotIf_mem {o : PlotOpts} {p : List Plot × Option PyErr} {plot : Plot} (h : (plotIf o p).2 = none)
    (hm : plot ∈ (plotIf o p).1) : p.2 = none ∧ plot ∈ p.1 := by
  unfold plotIf at h hm
  split_ifs at h hm
  · exact ⟨h, hm⟩
  · simp at hm

theorem makeAll_shows {env : RunEnv} {pac : PAircraft ℝ} {st : FlightSt ℝ} {i : ℕ} {p : Pass}
    {a : Analysis} (ha : a.Of env pac st i) (hp : PassSpec env p a) {set : SettingsObj}
    {ac : LoadedAircraft} {defs : ODict (DefWing (DefField ℝ))}
    (h : (makeAll set ac defs p.s p.v p.l).2 = none) {plot : Plot}
    (hm : plot ∈ (makeAll set ac defs p.s p.v p.l).1) :
    PlotShows ac (∃ d ∈ defs, d.2.defField ≠ none ∨ d.2.defFieldMirror ≠ none) a plot := by
  have hold := PassSpec.holds hp
  obtain ⟨el, es, -⟩ := hp
  unfold makeAll at h hm
  obtain ⟨h1, h2, h3⟩ := thenPlot_ok h
  obtain ⟨g1, g2, g3⟩ := thenPlot_ok h2
  obtain ⟨f1, f2, f3⟩ := thenPlot_ok g2
  rw [h3, g3, f3] at hm
  simp only [List.mem_append] at hm
  rcases hm with hm | hm | hm | hm
  · obtain ⟨-, hm⟩ := plotIf_mem h1 hm
    unfold viewDownwash at hm
    rw [hold.matrix] at hm
    simp only [List.mem_singleton] at hm
    subst hm
    exact .matrix
  · obtain ⟨hn, hm⟩ := plotIf_mem g1 hm
    obtain ⟨c, e1, e2⟩ := C108_geometry _ _ _ (eq_none hn)
    rw [e1, List.mem_singleton] at hm
    subst hm
    exact .geometry e2
  · obtain ⟨hn, hm⟩ := plotIf_mem f1 hm
    have hl : ∀ k < p.l.num, ∃ g, p.l.pts (k : ℤ) = some g := by
      rw [← el]
      intro k hk
      have := ha.panels ⟨k, hk⟩
      unfold LatticeData.panel LatticeData.panelAt at this
      simp only at this
      split at this
      · rename_i g _ hg _
        exact ⟨g, hg⟩
      · cases this
    obtain ⟨c, e1, e2⟩ := C108_lattice _ _ _ hl _ _ (eq_none hn)
    rw [e1, List.mem_singleton] at hm
    subst hm
    exact .lattice (by rw [el]; exact e2)
  · obtain ⟨hn, hm⟩ := plotIf_mem f2 hm
    obtain ⟨key, hk, e⟩ := plotResults_mem hn hm
    have hkey : KnownKey key := by
      by_contra hc
      exact plotResults_unknown (keys := [key]) ⟨key, by simp, hc⟩ (by rw [e])
    obtain ⟨k, hk', rfl⟩ := hkey
    obtain ⟨col, hcol, hv⟩ := Holds.column hold hk'
    have e' := e
    simp only [plotResults, thenPlot, plot2d3d] at e'
    split at e'
    · cases e'
    simp only [List.append_nil, Prod.mk.injEq, List.cons.injEq, and_true] at e'
    obtain ⟨c, hc⟩ : ∃ c, plot = ⟨"results_" ++ k, (set.plot "results").save, (set.plot "results").show_,
        .views (scalePlots ac.limits) c⟩ := ⟨_, e'.symm⟩
    rw [hc]
    refine .result hcol ?_
    intro xs hx hs
    rw [es] at hs
    have key := C109_results _ _ hs _ _ _ _ _ ?_ e
    · obtain ⟨plot', rest, ⟨k', c', xs', vals, gs, t, u, q1, q2, q3, q4, q5, q6, q7, q8⟩, -, q9⟩ :=
        List.forall₂_cons_left_iff.1 key
      simp only [List.cons.injEq] at q9
      obtain ⟨rfl, -⟩ := q9
      cases q1
      rw [q3] at hc
      simp only [Plot.mk.injEq, PlotContent.views.injEq, true_and] at hc
      subst hc
      have hxs : xs' = xs := by
        rw [hv, hx, Option.some.injEq] at q2
        exact (List.map_injective_iff.2 (fun x y h => by cases h; rfl) q2).symm
      subst hxs
      rw [el, es]
      exact ⟨vals, gs, t, u, q4, q5, q6, q7, q8⟩
    · intro k' hk' data hd
      simp only [List.mem_singleton, PyVal.str.injEq] at hk'
      subst hk'
      rw [hv, hx] at hd
      cases hd
      refine ⟨xs, rfl, ?_⟩
      rw [← el]
      have := congrArg List.length hx
      simpa using this.symm

/-! ### The loop -/

section
variable {env : RunEnv} {set : SettingsObj} {acl : LoadedAircraft}
  {defs : ODict (DefWing (DefField ℝ))} {st : FlightSt ℝ}

/-- The plots planned for the states from `i` on. -/
def plannedLabels (set : SettingsObj) (i k : ℕ) : List (ℕ × String × Bool × Bool) :=
  (List.range k).flatMap fun j =>
    (plannedPlots (set.plot "matrix_downwash") (set.plot "geometry") (set.plot "lattice")
      (set.plot "results")).map fun n => (i + j, n)

theorem plannedLabels_succ (set : SettingsObj) (i k : ℕ) : plannedLabels set i (k + 1) =
    (plannedPlots (set.plot "matrix_downwash") (set.plot "geometry") (set.plot "lattice")
      (set.plot "results")).map (fun n => (i, n)) ++ plannedLabels set (i + 1) k := by
  unfold plannedLabels
  rw [List.range_succ_eq_map, List.flatMap_cons, List.flatMap_map]
  congr 1
  congr 1
  funext j
  rw [show i + 1 + j = i + (j + 1) by omega]

theorem runLoopPlots_contents {ac : PAircraft ℝ} : ∀ {k i : ℕ} {x x' : LoopSt} {ps ps' : Plots},
    x.vlm.WF → x.table.Full → (0 < k → ∀ a, prePanelFirst i x.ac = .ok a → a = ac) →
    runLoopPlots env set acl defs st k i x ps = .ok (x', ps') →
    ∃ qs : Plots, ps' = ps ++ qs ∧ qs.map (fun q => (q.1, q.2.label)) = plannedLabels set i k ∧
      ∀ q ∈ qs, ∃ p, Pass.Of env ac st q.1 p ∧ q.1 < i + k ∧
        (makeAll set acl defs p.s p.v p.l).2 = none ∧ q.2 ∈ (makeAll set acl defs p.s p.v p.l).1
  | 0, i, x, x', ps, ps', hv, ht, hac, h => by
    cases h
    exact ⟨[], by simp, rfl, by simp⟩
  | k + 1, i, x, x', ps, ps', hv, ht, hac, h => by
    unfold runLoopPlots at h
    cases h1 : runStep env st i x with
    | error e => rw [h1] at h; cases h
    | ok y =>
      rw [h1] at h
      dsimp only at h
      obtain ⟨ac', p, fs, a1, a2, a3, rfl⟩ := runStep_ok hv ht h1
      obtain rfl := hac (Nat.succ_pos k) _ a1
      rw [stepPlots_pass a2] at h
      cases hm : (makeAll set acl defs p.s p.v p.l).2 with
      | some e => rw [hm] at h; cases h
      | none =>
        rw [hm] at h
        dsimp only at h
        obtain ⟨qs, h2, h3, h4⟩ := runLoopPlots_contents (ac := ac') (k := k) (i := i + 1)
          (analyse_wf a2.result) (append_full ht p.v) (fun _ a ha => by
            rw [prePanelFirst_succ] at ha
            cases ha
            rfl) h
        refine ⟨(makeAll set acl defs p.s p.v p.l).1.map (fun q => (i, q)) ++ qs, ?_, ?_, ?_⟩
        · rw [h2, List.append_assoc]
        · rw [List.map_append, h3, plannedLabels_succ, ← makeAll_labels hm]
          simp
        · intro q hq
          rcases List.mem_append.1 hq with hq | hq
          · obtain ⟨q', hq', rfl⟩ := List.mem_map.1 hq
            exact ⟨p, a2, by simp, hm, hq'⟩
          · obtain ⟨p', g1, g2, g3⟩ := h4 q hq
            exact ⟨p', g1, by omega, g3⟩

theorem runLoopPlots_raised {ac : PAircraft ℝ} : ∀ {k i : ℕ} {x : LoopSt} {ps ps' : Plots} {e : Stop}
    {files : Files}, x.vlm.WF → x.table.Full → (0 < k → ∀ a, prePanelFirst i x.ac = .ok a → a = ac) →
    runLoopPlots env set acl defs st k i x ps = .error (e, files, ps') →
    runLoop env st k i x = .error (e, files) ∨
      ∃ j < k, ∃ y qs p err, runLoop env st (j + 1) i x = .ok y ∧ y.files = files ∧ e = .raised err ∧
        Pass.Of env ac st (i + j) p ∧ (makeAll set acl defs p.s p.v p.l).2 = some err ∧
        ps' = ps ++ qs ++ (makeAll set acl defs p.s p.v p.l).1.map (fun q => (i + j, q)) ∧
        qs.map (fun q => (q.1, q.2.label)) = plannedLabels set i j
  | 0, i, x, ps, ps', e, files, hv, ht, hac, h => by cases h
  | k + 1, i, x, ps, ps', e, files, hv, ht, hac, h => by
    unfold runLoopPlots at h
    unfold runLoop
    cases h1 : runStep env st i x with
    | error e =>
      rw [h1] at h
      cases h
      exact Or.inl rfl
    | ok y =>
      rw [h1] at h
      dsimp only at h ⊢
      obtain ⟨ac', p, fs, a1, a2, a3, rfl⟩ := runStep_ok hv ht h1
      obtain rfl := hac (Nat.succ_pos k) _ a1
      rw [stepPlots_pass a2] at h
      cases hm : (makeAll set acl defs p.s p.v p.l).2 with
      | some e =>
        rw [hm] at h
        cases h
        refine Or.inr ⟨0, Nat.succ_pos k, _, [], p, e, ?_, rfl, rfl, a2, hm, by simp, rfl⟩
        rfl
      | none =>
        rw [hm] at h
        dsimp only at h
        rcases runLoopPlots_raised (ac := ac') (k := k) (i := i + 1)
          (analyse_wf a2.result) (append_full ht p.v) (fun _ a ha => by
            rw [prePanelFirst_succ] at ha
            cases ha
            rfl) h with h2 | ⟨j, hj, y, qs, p', err, b1, b2, b3, b4, b5, b6, b7⟩
        · exact Or.inl h2
        · refine Or.inr ⟨j + 1, by omega, y, (makeAll set acl defs p.s p.v p.l).1.map (fun q => (i, q)) ++ qs,
            p', err, b1, b2, b3, by rwa [show i + (j + 1) = i + 1 + j by omega], b5, ?_, ?_⟩
          · rw [b6, show i + 1 + j = i + (j + 1) by omega]
            simp
          · rw [List.map_append, b7, plannedLabels_succ, ← makeAll_labels hm]
            simp

end

/-! ### Labels of plots if one of them fails -/

theorem thenPlot_prefix {p q : List Plot × Option PyErr} {A B : List (String × Bool × Bool)}
    (h1 : p.1.map Plot.label <+: A) (h2 : p.2 = none → p.1.map Plot.label = A)
    (h3 : q.1.map Plot.label <+: B) : (thenPlot p q).1.map Plot.label <+: A ++ B := by
  unfold thenPlot
  split
  · exact h1.trans (List.prefix_append _ _)
  · rename_i h
    rw [List.map_append, h2 h]
    exact (List.prefix_append_right_inj _).2 h3

theorem plotResults_prefix {ac : LoadedAircraft} {s : FlowState} {l : LatticeData} {v : VlmData}
    {o : PlotOpts} : ∀ (keys : List PyVal), (plotResults ac s l v o keys).1.map Plot.label <+:
      (keys.map resultName).map fun n => (n, o.save, o.show_)
  | [] => by simp [plotResults]
  | key :: rest => by
    have hn : resultsPlotName key = resultName key := by cases key <;> rfl
    have := thenPlot_prefix (p := plot2d3d ac (resultsPlotName key) o
      ((Canvas.empty.addFreestream s).addResults ac l v key)) (q := plotResults ac s l v o rest)
      (A := [(resultName key, o.save, o.show_)]) (by rw [← hn]; simp [plot2d3d, Plot.label])
      (fun _ => by rw [← hn]; rfl) (plotResults_prefix rest)
    exact this

theorem plotIf_prefix {o : PlotOpts} {p : List Plot × Option PyErr} {names : List String}
    (hp : p.1.map Plot.label <+: names.map fun n => (n, o.save, o.show_)) :
    (plotIf o p).1.map Plot.label <+:
      if o.save = true ∨ o.show_ = true then names.map fun n => (n, o.save, o.show_) else [] := by
  unfold plotIf PlotOpts.wanted
  by_cases hw : o.save = true ∨ o.show_ = true
  · rw [if_pos hw, if_pos (by simpa using hw)]
    exact hp
  · rw [if_neg hw, if_neg (by simpa using hw)]
    simp

theorem makeAll_prefix (set : SettingsObj) (ac : LoadedAircraft) (defs : ODict (DefWing (DefField ℝ)))
    (s : FlowState) (v : VlmData) (l : LatticeData) :
    (makeAll set ac defs s v l).1.map Plot.label <+: plannedPlots (set.plot "matrix_downwash")
      (set.plot "geometry") (set.plot "lattice") (set.plot "results") := by
  have hd : ∀ o, (viewDownwash v o).1.map Plot.label <+: ["downwash"].map fun n => (n, o.save, o.show_) := by
    intro o
    unfold viewDownwash
    split
    · simp
    · exact List.prefix_refl _
  have hd' : ∀ o, (viewDownwash v o).2 = none →
      (viewDownwash v o).1.map Plot.label = ["downwash"].map fun n => (n, o.save, o.show_) := by
    intro o h
    unfold viewDownwash at h ⊢
    split at h
    · cases h
    · rfl
  have hg : ∀ o, (plotGeometry ac o).1.map Plot.label = ["geometry"].map fun n => (n, o.save, o.show_) :=
    fun o => rfl
  have hl : ∀ o, (plotLattice ac defs l o).1.map Plot.label =
      ["lattice"].map fun n => (n, o.save, o.show_) := fun o => rfl
  unfold makeAll plannedPlots
  dsimp only
  simp only [List.append_assoc]
  refine thenPlot_prefix (plotIf_prefix (hd _)) (fun h => plotIf_labels h (hd' _)) ?_
  refine thenPlot_prefix (plotIf_prefix (by rw [hg])) (fun h => plotIf_labels h fun _ => hg _) ?_
  refine thenPlot_prefix (plotIf_prefix (by rw [hl])) (fun h => plotIf_labels h fun _ => hl _) ?_
  exact plotIf_prefix (plotResults_prefix _)

theorem thenPlot_ne {p q : List Plot × Option PyErr} (h : (thenPlot p q).2 ≠ none)
    (hp : p.2 ≠ none → p.1 ≠ []) (hq : q.2 ≠ none → q.1 ≠ []) : (thenPlot p q).1 ≠ [] := by
  unfold thenPlot at h ⊢
  split
  · rename_i e he
    exact hp (by rw [he]; simp)
  · rename_i he
    rw [he] at h
    simp only [ne_eq, List.append_eq_nil_iff, not_and]
    exact fun _ => hq h

/-- The plot that fails has been made as far as possible. -/
theorem makeAll_ne {set : SettingsObj} {ac : LoadedAircraft} {defs : ODict (DefWing (DefField ℝ))}
    {s : FlowState} {v : VlmData} {l : LatticeData} (hm : v.matrix ≠ none)
    (h : (makeAll set ac defs s v l).2 ≠ none) : (makeAll set ac defs s v l).1 ≠ [] := by
  have ite : ∀ (o : PlotOpts) (p : List Plot × Option PyErr), (p.2 ≠ none → p.1 ≠ []) →
      (plotIf o p).2 ≠ none → (plotIf o p).1 ≠ [] := by
    intro o p hp h
    unfold plotIf at h ⊢
    split_ifs at h ⊢
    · exact hp h
    · exact absurd rfl h
  refine thenPlot_ne h (ite _ _ ?_) fun h => thenPlot_ne h (ite _ _ ?_) fun h =>
    thenPlot_ne h (ite _ _ ?_) (ite _ _ ?_)
  · intro h
    unfold viewDownwash at h ⊢
    split at h
    · rename_i h0
      exact absurd h0 hm
    · exact absurd rfl h
  · intro _
    simp [plotGeometry, plot2d3d]
  · intro _
    simp [plotLattice, plot2d3d]
  · generalize (set.plot "results").opt = keys
    cases keys with
    | nil => intro h; exact absurd rfl h
    | cons key rest =>
      intro h
      unfold plotResults thenPlot
      split <;> simp [plot2d3d]

/-! ### Whole runs -/

/-- A half of a wing is deformed. -/
def Deformed (env : RunEnv) : Prop :=
  ∃ m k, (env.lat.geo m k).defField ≠ none ∨ (env.lat.geo m k).defFieldMirror ≠ none

theorem loadDeformation_keys {α : Type*} : ∀ {fields : List (String × α)} {ws ws' : ODict (DefWing α)},
    ws.keys.Nodup → loadDeformation fields ws = .ok ws' → ws'.keys = ws.keys
  | [], ws, ws', _, h => by cases h; rfl
  | (uid, field) :: rest, ws, ws', hn, h => by
    rcases deformation_step uid field rest ws hn with h1 | ⟨ws1, h1, h2⟩
    · rw [h1] at h; cases h
    · rw [h2] at h
      rw [loadDeformation_keys (h1 ▸ hn) h, h1]

/-- The parts of a loaded project. -/
theorem loadProject_parts {W : World} {P : Project} {d : PyDict} {a b : String}
    (hn : NativeProject W P d a b) {x : Loaded} (hx : loadProject W P = .ok x) :
    loadSettings W.suffix (.dict d) = .ok x.settings ∧
    (∃ f, P.aircraft a = some f ∧ loadAircraft P.root W.airfoilOk f = .ok x.aircraft) ∧
    loadDeformationFrom P x.settings x.aircraft = .ok x.defs := by
  cases hs : loadSettings W.suffix (.dict d) with
  | error e =>
    unfold loadProject at hx
    rw [hn.settings, hs] at hx
    cases hx
  | ok s =>
  obtain ⟨-, -, -, -, e⟩ := loadProject_native hn hs
  rw [e] at hx
  cases h1 : P.aircraft a with
  | none => rw [h1] at hx; cases hx
  | some f =>
  rw [h1] at hx
  simp only at hx
  cases h2 : loadAircraft P.root W.airfoilOk f with
  | error e => rw [h2] at hx; cases hx
  | ok ac =>
  rw [h2] at hx
  simp only at hx
  cases h3 : P.state b with
  | none => rw [h3] at hx; cases hx
  | some sd =>
  rw [h3] at hx
  simp only at hx
  cases h4 : updateFromDict W.atm Store.fresh sd with
  | error e => rw [h4] at hx; cases hx
  | ok st =>
  rw [h4] at hx
  simp only at hx
  cases h5 : loadDeformationFrom P s ac with
  | error e => rw [h5] at hx; cases hx
  | ok defs =>
  rw [h5] at hx
  cases hx
  exact ⟨rfl, ⟨f, rfl, h2⟩, h5⟩

theorem deformed_iff {W : World} {P : Project} {d : PyDict} {a b : String}
    (hn : NativeProject W P d a b) {x : Loaded} (hx : loadProject W P = .ok x) :
    (∃ e ∈ x.defs, e.2.defField ≠ none ∨ e.2.defFieldMirror ≠ none) ↔ Deformed (x.env W P) := by
  obtain ⟨-, ⟨f, -, h2⟩, h5⟩ := loadProject_parts hn hx
  have hok := (C92_accepted_iff _ _ _).1 ⟨x.aircraft, h2⟩
  obtain ⟨-, -, hw, -⟩ := C92_content _ _ _ _ h2
  have hun : x.aircraft.undeformed.keys.Nodup := undeformed_keys hw ▸ hok.names.2
  have hkeys : x.defs.keys = x.aircraft.undeformed.keys := by
    unfold loadDeformationFrom at h5
    split at h5
    · cases h5
    split_ifs at h5
    · split at h5
      · cases h5
      · exact loadDeformation_keys hun h5
    · exact congrArg _ (Except.ok.inj h5).symm
  have hnd : (x.defs.map Prod.fst).Nodup := by
    have : x.defs.keys.Nodup := hkeys ▸ hun
    exact this
  have hgeo : ∀ m k w, x.aircraft.wings[m]? = some w → ((x.env W P).lat.geo m k) = w.geo x.defs k := by
    intro m k w hm
    show (x.aircraft.lattice W x.defs).geo m k = _
    unfold LoadedAircraft.lattice
    simp only [hm]
  constructor
  · rintro ⟨e, he, h⟩
    have hk : e.1 ∈ x.aircraft.undeformed.keys := by
      rw [← hkeys]
      exact List.mem_map.2 ⟨e, he, rfl⟩
    simp only [LoadedAircraft.undeformed, ODict.keys, List.map_map, List.mem_map,
      Function.comp] at hk
    obtain ⟨w, hwm, ew⟩ := hk
    obtain ⟨m, hm⟩ := List.getElem?_of_mem hwm
    refine ⟨m, 0, ?_⟩
    rw [hgeo m 0 w hm]
    have : x.defs.lookup w.uid = some e.2 := by
      rw [ew]
      exact lookup_of_mem hnd he
    simpa only [LoadedWing.geo, this, Option.bind_some] using h
  · rintro ⟨m, k, h⟩
    cases hm : x.aircraft.wings[m]? with
    | none =>
      exfalso
      have : (x.env W P).lat.geo m k = ⟨noCorners, 0, none, none⟩ := by
        show (x.aircraft.lattice W x.defs).geo m k = _
        unfold LoadedAircraft.lattice
        simp only [hm]
      rw [this] at h
      simp at h
    | some w =>
      rw [hgeo m k w hm] at h
      simp only [LoadedWing.geo] at h
      cases hl : x.defs.lookup w.uid with
      | none => rw [hl] at h; simp at h
      | some e =>
        rw [hl] at h
        exact ⟨(w.uid, e), lookup_mem hl, h⟩

/-- **C112**: each plot of a finished run shows the data of its flight state: the matrix of its
influence coefficients, the geometry of the aircraft file, its lattice, or the result named. -/
theorem C112_plots_show (W : World) (hW : Lapack W.dgesv) (P : Project) (d : PyDict) (a b : String)
    (hn : NativeProject W P d a b) (out : RunOut) (ps : Plots)
    (h : runProjectPlots W P = .ok (out, ps)) :
    ∃ (f : FileAircraft) (acl : LoadedAircraft) (sd : List (String × Arg ℝ)) (st : FlightSt ℝ)
      (env : RunEnv) (ac ac' : PAircraft ℝ) (as : List Analysis), P.aircraft a = some f ∧
      loadAircraft P.root W.airfoilOk f = .ok acl ∧ P.state b = some sd ∧
      updateFromDict W.atm Store.fresh sd = .ok st ∧ ReadsFiles W P d f env ac ∧
      Panelled env ac ac' ∧ AllAnalysed env ac' st as ∧
      ∀ q ∈ ps, ∃ an, as[q.1]? = some an ∧ PlotShows acl (Deformed env) an q.2 := by
  cases hx : loadProject W P with
  | error e =>
    unfold runProjectPlots at h
    rw [hx] at h
    cases h
  | ok x =>
  have hrun := (C110_results_unchanged W P).1 out ps h
  unfold runProject at hrun
  rw [hx] at hrun
  simp only at hrun
  obtain ⟨f, sd, h1, h2, h3, h4, h5, h6⟩ := loaded_reads hn hx
  obtain ⟨hset, ⟨f', hf', hload⟩, -⟩ := loadProject_parts hn hx
  rw [h1] at hf'
  cases hf'
  obtain ⟨-, ac', as, q2, q3, -⟩ := C81_result_files _ hW _ _ out hrun
  refine ⟨f, x.aircraft, sd, x.state, x.env W P, x.aircraft.toP, ac', as, h1, hload, h2, h5, h6, q2, q3, ?_⟩
  unfold runProjectPlots at h
  rw [hx] at h
  dsimp only at h
  unfold standardRunPlots at h
  obtain ⟨ac1, p1, p2⟩ := q2
  rw [p1] at h
  dsimp only at h
  split at h
  · cases h
  rename_i y qs hloop
  have hps : qs = ps := by
    split at h
    · cases h
    split at h
    · cases h
    · cases h; rfl
  subst hps
  obtain ⟨qs', e1, -, e3⟩ := runLoopPlots_contents (ac := ac') VlmData.fresh_wf Table.fresh_full
    (fun _ a ha => by
      unfold prePanelFirst at ha
      simp only [if_true] at ha
      rw [p2] at ha
      cases ha
      rfl) hloop
  simp only [List.nil_append] at e1
  subst e1
  intro q hq
  obtain ⟨p, g1, g2, g3, g4⟩ := e3 q hq
  rw [Nat.zero_add, ← q3.1] at g2
  refine ⟨as[q.1], List.getElem?_eq_getElem g2, ?_⟩
  have ha := q3.2 q.1 _ (List.getElem?_eq_getElem g2)
  obtain ⟨p', k1, k2⟩ := ha.pass hW
  rw [← g1.unique k1] at k2
  have := makeAll_shows ha k2 g3 g4
  rwa [show (∃ e ∈ x.defs, e.2.defField ≠ none ∨ e.2.defFieldMirror ≠ none) = Deformed (x.env W P) from
    propext (deformed_iff hn hx)] at this

/-- **C110**: if a run is ended by a plot then the files are exactly those asked for of the states up
to the one whose plot has failed, which have all been analysed.  All plots of the states before have
been made, and those of this state up to the one that has failed. -/
theorem C110_plot_exception (W : World) (hW : Lapack W.dgesv) (P : Project) (d : PyDict) (a b : String)
    (hn : NativeProject W P d a b) (stop : Stop) (files : Files) (ps : Plots)
    (h : runProjectPlots W P = .error (stop, files, ps)) (hne : runProject W P ≠ .error (stop, files)) :
    ∃ (f : FileAircraft) (sd : List (String × Arg ℝ)) (st : FlightSt ℝ) (env : RunEnv)
      (ac : PAircraft ℝ) (m g l r : PlotOpts), P.aircraft a = some f ∧ P.state b = some sd ∧
      updateFromDict W.atm Store.fresh sd = .ok st ∧ ReadsFiles W P d f env ac ∧
      PlotAsked d "matrix_downwash" m ∧ PlotAsked d "geometry" g ∧ PlotAsked d "lattice" l ∧
      PlotAsked d "results" r ∧ ∃ k < st.num, (∀ i ≤ k, Analysable env ac st i) ∧
        (files.map Prod.fst).Nodup ∧
        (∀ path, path ∈ files.map Prod.fst ↔ WantedBefore d P.base (k + 1) path) ∧
        ∃ part, part ≠ [] ∧ part <+: plannedPlots m g l r ∧
          ps.map (fun q => (q.1, q.2.label)) =
            ((List.range k).flatMap fun i => (plannedPlots m g l r).map fun n => (i, n)) ++
              part.map fun n => (k, n) := by
  cases hx : loadProject W P with
  | error e =>
    exfalso
    unfold runProjectPlots at h
    unfold runProject at hne
    rw [hx] at h hne
    cases h
    exact hne rfl
  | ok x =>
  obtain ⟨f, sd, h1, h2, h3, h4, h5, h6⟩ := loaded_reads hn hx
  obtain ⟨hset, -, -⟩ := loadProject_parts hn hx
  refine ⟨f, sd, x.state, x.env W P, x.aircraft.toP, _, _, _, _, h1, h2, h5, h6, plot_asked hn.keys hset (by simp),
    plot_asked hn.keys hset (by simp), plot_asked hn.keys hset (by simp),
    plot_asked hn.keys hset (by simp), ?_⟩
  unfold runProjectPlots at h
  unfold runProject at hne
  rw [hx] at h hne
  dsimp only at h hne
  unfold standardRunPlots at h
  unfold standardRun at hne
  cases ha : setAutopanels (x.env W P).autoC (x.env W P).autoS x.aircraft.toP with
  | error e =>
    rw [ha] at h hne
    cases h
    exact absurd rfl hne
  | ok ac1 =>
  rw [ha] at h hne
  dsimp only at h hne
  cases hl : runLoopPlots (x.env W P) x.settings x.aircraft x.defs x.state x.state.num 0
    ⟨ac1, VlmData.fresh, Table.fresh, [], none⟩ [] with
  | ok r =>
    exfalso
    obtain ⟨y, qs⟩ := r
    rw [hl] at h
    dsimp only at h
    rw [runLoopPlots_ok hl] at hne
    dsimp only at hne
    cases hm : saveCpacsMap (x.env W P) y.table with
    | error e =>
      rw [hm] at h hne
      cases h
      exact hne rfl
    | ok cs =>
      rw [hm] at h hne
      dsimp only at h hne
      cases hy : y.lattice with
      | none =>
        rw [hy] at h hne
        cases h
        exact hne rfl
      | some l =>
        rw [hy] at h
        cases h
  | error e =>
    rw [hl] at h
    cases h
    have hac : ∃ ac', 0 < x.state.num → ∀ a, prePanelFirst 0 ac1 = .ok a → a = ac' := by
      cases hp : prePanelFirst 0 ac1 with
      | error e => exact ⟨ac1, fun _ a h => by cases h⟩
      | ok a => exact ⟨a, fun _ b h => by cases h; rfl⟩
    obtain ⟨ac', hac⟩ := hac
    rcases runLoopPlots_raised (ac := ac') VlmData.fresh_wf Table.fresh_full hac hl with
      h2 | ⟨k, hk, y, qs, p, err, b1, b2, b3, b4, b5, b6, b7⟩
    · rw [h2] at hne
      exact absurd rfl hne
    have hfirst : prePanelFirst 0 ac1 = .ok ac' := by
      unfold runLoop at b1
      split at b1
      · cases b1
      · rename_i z hz
        obtain ⟨ac2, -, -, a1, -⟩ := runStep_ok VlmData.fresh_wf Table.fresh_full hz
        rw [a1, hac (by omega) _ a1]
    have hpan : Panelled (x.env W P) x.aircraft.toP ac' := by
      refine ⟨ac1, ha, ?_⟩
      unfold prePanelFirst at hfirst
      simpa using hfirst
    obtain ⟨ps', fs, c1, c2, c3, -⟩ := runLoop_ok (ac := ac') VlmData.fresh_wf Table.fresh_full
      (fun _ => hfirst) b1
    obtain ⟨as, q1, q2, q3, q4, q5⟩ := c1.files hW
    have hlen : as.length = k + 1 := by rw [← q1.length_eq, c2]
    rw [c3] at b2
    simp only [List.nil_append, Nat.zero_add] at b2 b4 b6 b7 q2 q4 q5
    subst b2
    have hbase : (x.env W P).base = P.base := h6.base
    have hG := saveIs_iff hn.keys h3 (by simp) h6.saveGlobal
    have hP := saveIs_iff hn.keys h3 (by simp) h6.savePanelwise
    have hM := saveIs_iff hn.keys h3 (by simp) h6.saveMatrix
    refine ⟨k, hk, ?_, q3, ?_, (makeAll x.settings x.aircraft x.defs p.s p.v p.l).1.map Plot.label, ?_,
      makeAll_prefix _ _ _ _ _ _, ?_⟩
    · intro i hi
      have hi' : i < as.length := by omega
      exact ⟨ac', hpan, as[i], q2 i _ (List.getElem?_eq_getElem hi')⟩
    · intro path
      constructor
      · intro hp
        obtain ⟨z, hz, rfl⟩ := List.mem_map.1 hp
        obtain ⟨i, an, name, hi, e, hs⟩ := q4 z hz
        have hi : i < k + 1 := by
          rw [← hlen]
          exact (List.getElem?_eq_some_iff.1 hi).1
        rw [e, hbase]
        revert hs
        generalize z.2 = c
        intro hs
        cases hs with
        | global g _ _ _ => exact ⟨i, hi, ("global", _), by simp [stateFileNames], hG.1 g, rfl⟩
        | panelwise g => exact ⟨i, hi, ("panelwise", _), by simp [stateFileNames], hP.1 g, rfl⟩
        | matrix g => exact ⟨i, hi, ("matrix_system", _), by simp [stateFileNames], hM.1 g, rfl⟩
      · rintro ⟨i, hi, n, hn', hs, rfl⟩
        have hi : i < as.length := by omega
        obtain ⟨k1, k2, k3⟩ := q5 i _ (List.getElem?_eq_getElem hi)
        rw [hbase] at k1 k2 k3
        simp only [stateFileNames, List.mem_cons, List.not_mem_nil, or_false] at hn'
        rcases hn' with rfl | rfl | rfl
        · obtain ⟨c, hc⟩ := k1 (hG.2 hs)
          exact List.mem_map.2 ⟨_, hc, rfl⟩
        · obtain ⟨c, hc⟩ := k2 (hP.2 hs)
          exact List.mem_map.2 ⟨_, hc, rfl⟩
        · obtain ⟨c, hc⟩ := k3 (hM.2 hs)
          exact List.mem_map.2 ⟨_, hc, rfl⟩
    · rw [ne_eq, List.map_eq_nil_iff]
      exact makeAll_ne (analysis_panelwise (env := x.env W P) hW b4.result).1 (by rw [b5]; simp)
    · rw [b6, List.map_append, b7]
      simp [plannedLabels]

/-! ### Examples -/

/-- Example for C112: the run with plots of the flat wing makes a plot of the circulation, which shows
the circulation of the flight state. -/
example : ∃ out ps, runProjectPlots exampleWorld (plotProject [.str "cp", .str "gamma"]) = .ok (out, ps) ∧
    ∃ plot, (0, plot) ∈ ps ∧ ∃ (an : Analysis) (c : Canvas) (L : AxesLimits),
      plot = ⟨"results_gamma", true, true, .views L c⟩ ∧ ShowsValues an (fun k => .fin (an.g k)) c := by
  obtain ⟨out, ps, h, hl⟩ := plots_run
  refine ⟨out, ps, h, ?_⟩
  obtain ⟨f, acl, sd, st, env, ac, ac', as, -, -, -, -, -, -, -, hs⟩ := C112_plots_show _ exactDgesv_lapack _ _ _ _
    (plots_native _) out ps h
  have hm : ((0 : ℕ), "results_gamma", true, true) ∈ ps.map fun q => (q.1, q.2.label) := by
    rw [hl]; simp
  obtain ⟨⟨i, plot⟩, hq, e⟩ := List.mem_map.1 hm
  simp only [Prod.mk.injEq] at e
  obtain ⟨rfl, e⟩ := e
  obtain ⟨an, -, hp⟩ := hs _ hq
  refine ⟨plot, hq, an, ?_⟩
  simp only at hp
  cases hp with
  | matrix => simp [Plot.label] at e
  | geometry _ => simp [Plot.label] at e
  | lattice _ => simp [Plot.label] at e
  | @result s v L c k col hc hv =>
    simp only [Plot.label, Prod.mk.injEq] at e
    obtain ⟨e1, rfl, rfl⟩ := e
    refine ⟨c, L, by rw [e1], ?_⟩
    simp only [resultColumns, List.mem_cons, List.not_mem_nil, or_false, Prod.mk.injEq] at hc
    rcases hc with ⟨rfl, rfl⟩ | ⟨rfl, -⟩ | ⟨rfl, -⟩ | ⟨rfl, -⟩ | ⟨rfl, -⟩ | ⟨rfl, -⟩ | ⟨rfl, -⟩ | ⟨rfl, -⟩ |
      ⟨rfl, -⟩ | ⟨rfl, -⟩
    · exact hv
    all_goals exact absurd e1 (by decide)

/-- Example for C110: the second result is misspelt.  The run is ended by its plot; the flight state
has been analysed. -/
example : ∃ stop files ps, runProjectPlots exampleWorld (plotProject [.str "gamma", .str "Cp"]) =
      .error (stop, files, ps) ∧ files = [] ∧ ∃ part, part ≠ [] ∧
    part <+: [("geometry", true, false), ("results_gamma", true, true), ("results_Cp", true, true)] ∧
    ps.map (fun q => (q.1, q.2.label)) = part.map fun n => (0, n) := by
  obtain ⟨out, ho⟩ := plots_finishes [.str "gamma", .str "Cp"]
  obtain ⟨r, hr, h⟩ := C111_unknown_key exampleWorld (plotProject [.str "gamma", .str "Cp"]) _ _ _
    (plots_native _) out ho
  obtain rfl := plots_asked_results (by simp) hr
  obtain ⟨e, files, ps, h⟩ := h (Or.inl rfl) ⟨.str "Cp", by simp, by simp [KnownKey]⟩
  obtain ⟨f, sd, st, env, ac, m, g, l, r, -, h2, h3, -, hm, hg, hl, hr, k, hk, -, -, hpath, part, p1, p2, p3⟩ :=
    C110_plot_exception _ exactDgesv_lapack _ _ _ _ (plots_native _) _ files ps h (by rw [ho]; simp)
  obtain rfl := plots_asked_results (by simp) hr
  refine ⟨_, files, ps, h, ?_, part, p1, ?_, ?_⟩
  · cases files with
    | nil => rfl
    | cons x rest =>
      obtain ⟨i, -, n, -, ⟨g', hs, -⟩, -⟩ := (hpath x.1).1 (by simp)
      simp [plotSettings, exampleSettings] at hs
  · have hmem := plots_given [.str "gamma", .str "Cp"]
    obtain ⟨m1, m2⟩ := hm.given _ hmem
    obtain ⟨g1, g2⟩ := hg.given _ hmem
    obtain ⟨l1, l2⟩ := hl.given _ hmem
    obtain ⟨mo, ms, mv⟩ := m
    obtain ⟨go, gs, gv⟩ := g
    obtain ⟨lo, ls, lv⟩ := l
    cases m1
    cases m2
    cases g1
    cases g2
    cases l1
    cases l2
    exact p2
  · have hk0 : k = 0 := by
      have hs := (plots_ok [.str "gamma", .str "Cp"]).state
      rw [h2] at hs
      cases hs
      have := ((accepted angle_limits exampleWorld.atm _
        (plots_ok [.str "gamma", .str "Cp"]).states.keys).2 _ h3).1 _ (List.mem_cons_self ..)
      have h1 : st.num = 1 := by
        rw [← this]
        simp [Arg.toList]
      omega
    subst hk0
    simpa using p3

end Verif
