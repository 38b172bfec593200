import Verif.Props.Program
import Verif.Props.RunExamples

/-!
# Concrete projects: examples for C99–C101
-/

namespace Verif

open V3

/-- Surroundings: all airfoil definitions can be read and have no camber; the solver is exact; there
are no CPACS files. -/
noncomputable def exampleWorld : World where
  suffix := fun a => if a = "plane.json" then ".json" else ""
  upper := fun a => if a = "__cpacs" then "__CPACS" else a
  airfoilOk := fun _ => true
  atm := fun _ => some (.fin 1, .fin 300)
  dgesv := exactDgesv
  camber := fun _ _ _ _ => 0
  cpacsAircraft := fun _ => .error .ioError
  cpacsState := fun _ => .error .ioError

/-- The settings name the aircraft file and the state file. -/
def exampleSettings : PyDict := [("aircraft", .str "plane.json"), ("state", .str "cruise.json")]

/-- A project with the given aircraft and one flight state (10 m/s, 5 degrees). -/
noncomputable def exampleProject (f : FileAircraft) : Project where
  base := "example"
  root := "/home"
  settings := .dict exampleSettings
  aircraft := fun a => if a = "plane.json" then some f else none
  state := fun b => if b = "cruise.json" then some (oneState 10 1 5 0) else none
  deformation := fun _ => none

theorem example_native (f : FileAircraft) :
    NativeProject exampleWorld (exampleProject f) exampleSettings "plane.json" "cruise.json" :=
  ⟨rfl, by decide, by simp [exampleSettings], rfl, by simp [exampleSettings], by
    show (if "cruise.json" = "__cpacs" then "__CPACS" else "cruise.json") ≠ "__CPACS"
    decide⟩

theorem example_settings : SettingsFileOk exampleWorld.suffix exampleSettings :=
  ⟨⟨"plane.json", by simp [exampleSettings], .inl rfl⟩, ⟨"cruise.json", by simp [exampleSettings]⟩,
    by simp [IfGiven, exampleSettings], by simp [IfGiven, exampleSettings],
    by simp [IfGiven, exampleSettings], by simp [IfGiven, exampleSettings],
    by simp [IfGiven, exampleSettings], by simp [IfGiven, exampleSettings],
    by simp [IfGiven, exampleSettings]⟩

theorem example_ok {f : FileAircraft} (hf : FileOk "/home" (fun _ => true) f)
    (hl : ∀ w ∈ f.wings, WingLayoutOk w) (hs : ∃ w ∈ f.wings, w.segments ≠ []) :
    ProjectOk exampleWorld (exampleProject f) exampleSettings "plane.json" "cruise.json" f
      (oneState 10 1 5 0) where
  native := example_native f
  settings := example_settings
  panelsC := by simp [IfGiven, exampleSettings]
  panelsS := by simp [IfGiven, exampleSettings]
  aircraft := rfl
  file := hf
  layout := hl
  segment := hs
  state := rfl
  states := ⟨oneState_nodup _ _ _ _, oneState_acceptable _ _ _ _ _, by simp [oneState],
    _, List.mem_cons_self .., by simp [Arg.toList]⟩
  deformation := by simp [DeformationOk, IfGiven, exampleSettings]

/-- A swept, tapered wing with dihedral and a flap, deflected by 5 degrees. -/
noncomputable def flapFile : FileAircraft :=
  ⟨"plane", ⟨8, 4, 2, 0, 0, none⟩, [⟨"wing", 2,
    [⟨"seg", ⟨some taperedSeg.a, some taperedSeg.b, some taperedSeg.c, some taperedSeg.d⟩,
      SegGeo.fresh, "airfoils/blade.x", "NACA0012", none, none⟩],
    [⟨"F", ⟨"seg", "seg", 1/5, 4/5, 3/4, 3/4, 3/4, 3/4, none, some "flap", .num (.fin 5), .none⟩⟩]⟩]⟩

theorem fresh_geoOk : GeoOk SegGeo.fresh := by
  constructor <;> intro x hx <;> cases hx

theorem flapFile_ok : FileOk "/home" (fun _ => true) flapFile := by
  refine ⟨?_, by norm_num [flapFile], by norm_num [flapFile], by norm_num [flapFile], ?_⟩
  · exact ⟨by simp [flapFile], by simp [flapFile]⟩
  · intro w hw
    simp only [flapFile, List.mem_singleton] at hw
    subst hw
    refine ⟨by norm_num, ⟨by simp, by simp⟩, ⟨by simp, by simp⟩, ?_, ?_, ?_⟩
    · intro s hs
      simp only [List.mem_singleton] at hs
      subst hs
      exact ⟨⟨taperedSeg, rfl, rfl, rfl, rfl⟩, fresh_geoOk, by simp, by simp,
        ⟨_, .inl ⟨by decide, rfl⟩, rfl⟩, ⟨_, .inr ⟨by decide, rfl⟩, rfl⟩⟩
    · intro c hc
      simp only [List.mem_singleton] at hc
      subst hc
      refine ⟨.inr rfl, by simp, ?_, ?_, ?_, ?_, ?_, ?_, by simp, ?_, ⟨5, rfl, ?_⟩, by simp⟩ <;>
        norm_num
    · intro _
      exact ⟨_, List.mem_singleton.2 rfl, taperedSeg, ⟨rfl, rfl, rfl, rfl⟩,
        by simp [NoSpan, taperedSeg]⟩

theorem flapFile_layout : ∀ w ∈ flapFile.wings, WingLayoutOk w := by
  intro w hw
  simp only [flapFile, List.mem_singleton] at hw
  subst hw
  refine ⟨?_, ?_, ?_⟩
  · intro u x hx y hy hxy
    simp only [FileWing.requested, List.map_cons, List.map_nil, List.mem_cons, List.not_mem_nil,
      or_false, exists_eq_left, Set.mem_union, Set.mem_insert_iff, Set.mem_singleton_iff,
      Set.mem_ofPred_eq] at hx hy
    rcases hx with ((rfl | rfl) | ⟨-, rfl⟩) | ⟨-, rfl⟩ <;>
    rcases hy with ((rfl | rfl) | ⟨-, rfl⟩) | ⟨-, rfl⟩ <;>
    first | (norm_num at hxy; done) | norm_num
  · simp only [FileWing.requested, List.map_cons, List.map_nil]
    refine ⟨by simp, ?_, by simp, ?_, ?_, by simp, ?_⟩
    · simp only [List.mem_singleton, forall_eq]
      exact ⟨0, 0, rfl, rfl, by norm_num, by norm_num, by norm_num⟩
    · simp only [List.mem_singleton, forall_eq]
      norm_num
    · simp only [List.mem_singleton, forall_eq]
      rintro h (h' | h') <;> simp only [Option.some.injEq] at h' <;> subst h' <;> norm_num
    · simp only [List.mem_singleton, forall_eq]
      exact fun h => absurd rfl h
  · intro _ s hs p hp
    simp only [List.mem_singleton] at hs
    subst hs
    have : p = taperedSeg := noSpan_given hp ⟨rfl, rfl, rfl, rfl⟩
    subst this
    refine ⟨⟨?_, ?_, ?_, ?_⟩, ?_⟩ <;> simp only [taperedSeg, Planar] <;> vsimp <;> norm_num

/-- Example for C99: a wing with a flap is analysed without an exception. -/
example : (∃ out, runProject exampleWorld (exampleProject flapFile) = .ok out) ∨
    ∃ files, runProject exampleWorld (exampleProject flapFile) = .error (.notFinite, files) :=
  C99_no_exception _ exactDgesv_lapack _ _ _ _ _ _ (example_ok flapFile_ok flapFile_layout
    ⟨_, List.mem_singleton.2 rfl, by simp⟩)

/-- Example for C100: nothing is written if the state file is missing, -/
example : ∃ e, runProject exampleWorld { exampleProject flapFile with state := fun _ => none } =
    .error (.raised e, []) :=
  C100_nothing_written _ _ exampleSettings "plane.json" "cruise.json"
    ⟨rfl, (example_native flapFile).keys, (example_native flapFile).aircraft, rfl,
      (example_native flapFile).state, (example_native flapFile).notCpacs⟩ (.noState rfl)

/-- or if the span of the aircraft is zero. -/
example : ∃ e, runProject exampleWorld
    (exampleProject { flapFile with refs := ⟨8, 0, 2, 0, 0, none⟩ }) = .error (.raised e, []) :=
  C100_nothing_written _ _ exampleSettings "plane.json" "cruise.json" (example_native _)
    (.aircraft _ rfl fun h => by have := h.span; norm_num at this)

/-! ## A project whose run finishes -/

/-- A flat rectangular wing, one panel on each side. -/
noncomputable def rectFile : FileAircraft :=
  ⟨"plane", ⟨1, 1, 1, 0, 0, none⟩, [⟨"W", 2,
    [⟨"S", ⟨some flatGeo.vertices.a, some flatGeo.vertices.b, some flatGeo.vertices.c,
      some flatGeo.vertices.d⟩, SegGeo.fresh, "NACA0000", "NACA0000", some 1, some 1⟩], []⟩]⟩

theorem rectFile_ok : FileOk "/home" (fun _ => true) rectFile := by
  refine ⟨?_, by norm_num [rectFile], by norm_num [rectFile], by norm_num [rectFile], ?_⟩
  · exact ⟨by simp [rectFile], by simp [rectFile]⟩
  · intro w hw
    simp only [rectFile, List.mem_singleton] at hw
    subst hw
    refine ⟨by norm_num, ⟨by simp, by simp⟩, ⟨by simp, by simp⟩, ?_, by simp, ?_⟩
    · intro s hs
      simp only [List.mem_singleton] at hs
      subst hs
      exact ⟨⟨flatGeo.vertices, rfl, rfl, rfl, rfl⟩, fresh_geoOk, by simp, by simp,
        ⟨_, .inr ⟨by decide, rfl⟩, rfl⟩, ⟨_, .inr ⟨by decide, rfl⟩, rfl⟩⟩
    · intro _
      refine ⟨_, List.mem_singleton.2 rfl, flatGeo.vertices, ⟨rfl, rfl, rfl, rfl⟩, ?_⟩
      intro h
      have := h.1
      norm_num [flatGeo] at this

theorem rectFile_layout : ∀ w ∈ rectFile.wings, WingLayoutOk w := by
  intro w hw
  simp only [rectFile, List.mem_singleton] at hw
  subst hw
  refine ⟨?_, ?_, ?_⟩
  · intro u x hx y hy hxy
    simp only [FileWing.requested, List.map_nil, List.not_mem_nil, false_and, exists_false,
      Set.mem_union, Set.mem_insert_iff, Set.mem_singleton_iff, Set.mem_ofPred_eq, or_false] at hx hy
    rcases hx with rfl | rfl <;> rcases hy with rfl | rfl <;>
    first | (norm_num at hxy; done) | norm_num
  · simp only [FileWing.requested, List.map_nil]
    exact ⟨by simp, by simp, by simp, by simp, by simp, by simp, by simp⟩
  · intro h
    exact absurd rfl h

/-- One wing, one segment, one panel on each side, of any shape. -/
noncomputable def onePanelOf (span : ℝ) (interp : ℝ × ℝ → ℝ × ℝ → ℝ → ℝ) (dist : ℝ → ℝ → ℝ → ℝ → ℝ) : PAircraft ℝ :=
  ⟨[⟨"W", 2, [⟨"S", span, some 1, some 1, interp, dist, initStrips⟩], []⟩]⟩

section
variable (span : ℝ) (interp : ℝ × ℝ → ℝ × ℝ → ℝ → ℝ) (dist : ℝ → ℝ → ℝ → ℝ → ℝ)

theorem onePanelOf_panelled :
    prePanelling (onePanelOf span interp dist) = .ok (onePanelOf span interp dist) := by
  have h2 : mapE PSegment.addSpanLines
      [(⟨"S", span, some 1, some 1, interp, dist, initStrips⟩ : PSegment ℝ)] =
      .ok [⟨"S", span, some 1, some 1, interp, dist, initStrips⟩] := by
    simp [mapE, PSegment.addSpanLines, spanLines, addLines, initStrips]
  unfold prePanelling onePanelOf
  simp only [mapE, PWing.mapSegments, placeControls]
  simp only [mapE] at h2
  simp only [h2]

theorem onePanelOf_ok : (onePanelOf span interp dist).Unpanelled ∧
    (onePanelOf span interp dist).NumC 0 := by
  refine ⟨?_, ?_⟩
  · intro w hw s hs
    simp only [onePanelOf, List.mem_singleton] at hw
    subst hw
    simp only [List.mem_singleton] at hs
    subst hs
    rfl
  · intro w hw
    simp only [onePanelOf, List.mem_singleton] at hw
    subst hw
    simp

/-- The only subarea of the aircraft. -/
noncomputable def subOf : SubTuple ℝ :=
  ((0, ⟨"segment", Quad.init 0 0 1 1, none⟩), (0, Strip.init 0 1 1 0),
    (0, ⟨"S", span, some 1, some 1, interp, dist, initStrips⟩),
    (0, ⟨"W", 2, [⟨"S", span, some 1, some 1, interp, dist, initStrips⟩], []⟩))

theorem onePanelOf_subareas :
    allSubareas (onePanelOf span interp dist) = [subOf span interp dist] := rfl

theorem onePanelOf_book : ∃ b, genBook (onePanelOf span interp dist) = .ok b ∧
    b.entries = [⟨⟨0, 0, 0, 0⟩, "W", 0, 1, 1, false⟩, ⟨⟨0, 0, 0, 0⟩, "W", 1, 2, 1, true⟩] ∧
    b.numP = 2 := by
  have h1 : chordPanels (subOf span interp dist).2.2.2.2 (subOf span interp dist).2.2.1.2
      (subOf span interp dist).1.2 = .ok 1 := by
    unfold chordPanels subOf
    simp only [if_true]
    congr 1
    rw [Int.ceil_eq_iff]
    norm_num [Quad.relLength, Quad.init]
  have hsy : (subOf span interp dist).2.2.2.2.symmetry = 2 := rfl
  have hb : ∃ b, genBook (onePanelOf span interp dist) = .ok b := by
    unfold genBook
    rw [onePanelOf_subareas]
    simp only [countFrom, countStep, h1, hsy, ne_eq, OfNat.ofNat_ne_zero, not_false_eq_true, if_true]
    exact ⟨_, rfl⟩
  obtain ⟨b, hb⟩ := hb
  refine ⟨b, hb, ?_⟩
  unfold genBook at hb
  rw [onePanelOf_subareas] at hb
  simp only [countFrom, countStep, h1, hsy, ne_eq, OfNat.ofNat_ne_zero, not_false_eq_true,
    if_true] at hb
  cases hb
  exact ⟨rfl, rfl⟩

theorem onePanelOf_autopanels (c s : ℤ) :
    setAutopanels c s (onePanelOf span interp dist) = .ok (onePanelOf span interp dist) := by
  unfold setAutopanels onePanelOf
  simp only [mapE, PWing.setAutopanels, PSegment.setAutopanels, reduceCtorEq, if_false, List.map_nil]

end

/-- A run over one flat panel on each side finishes, also if the numbers of panels are set by the program. -/
theorem onePanel_finishes_auto {env : RunEnv} (hd : Lapack env.dgesv) (he : 0 < env.eps)
    (hr : env.doRot = true) (hg : env.lat.geo 0 0 = flatGeo)
    (hc : ∀ m k eta xsi, env.lat.camber m k eta xsi = 0) (span : ℝ)
    (interp : ℝ × ℝ → ℝ × ℝ → ℝ → ℝ) (dist : ℝ → ℝ → ℝ → ℝ → ℝ) {ac : PAircraft ℝ}
    (hauto : setAutopanels env.autoC env.autoS ac = .ok (onePanelOf span interp dist))
    {st : FlightSt ℝ} (hn : st.num ≠ 0) (s : ℕ → FlowState) (hs : ∀ i < st.num, (s i).beta = 0 ∧
      st.aero.entry "airspeed" i = .ok (.fin (s i).airspeed) ∧
      st.aero.entry "density" i = .ok (.fin (s i).rho) ∧
      st.aero.entry "alpha" i = .ok (.fin (s i).alpha) ∧
      st.aero.entry "beta" i = .ok (.fin (s i).beta) ∧
      st.aero.entry "rate_P" i = .ok (.fin (s i).p) ∧
      st.aero.entry "rate_Q" i = .ok (.fin (s i).q) ∧
      st.aero.entry "rate_R" i = .ok (.fin (s i).r)) :
    ∃ out, standardRun env ac st = .ok out := by
  rw [C93_finishes_iff env hd]
  refine ⟨hn, onePanelOf span interp dist, ⟨_, hauto, onePanelOf_panelled _ _ _⟩, ?_⟩
  intro i hi
  obtain ⟨b0, e1, e2, e3, e4, e5, e6, e7⟩ := hs i hi
  obtain ⟨hu, hN⟩ := onePanelOf_ok span interp dist
  have hpan := onePanelOf_panelled span interp dist
  have hgeo : ∀ t ∈ allSubareas (onePanelOf span interp dist),
      env.lat.geo t.2.2.2.1 t.2.2.1.1 = flatGeo := by
    intro t ht
    rw [onePanelOf_subareas, List.mem_singleton] at ht
    subst ht
    exact hg
  obtain ⟨l, hl⟩ := C76_lattice_generated _ _ hu hpan hN env.lat true (s i).alpha (s i).beta (by
    intro t ht _
    rw [hgeo t ht]
    exact .inr (.inl rfl))
  obtain ⟨b, hb, he', hp⟩ := onePanelOf_book span interp dist
  obtain ⟨-, k1, -⟩ := genLattice_ok hl
  rw [hb] at k1
  cases k1
  have h2 : l.num = 2 := by unfold LatticeData.num; rw [hp]; rfl
  have hF := flat_lattice hu hpan hN hgeo hc (by
    intro t ht
    rw [onePanelOf_subareas, List.mem_singleton] at ht
    subst ht
    exact ⟨rfl, rfl⟩) hl
  rw [he'] at hF
  obtain ⟨P, hP, A, R, hA, hR, h⟩ := flat_analyse he (by rw [hr]; exact hl) h2 (by norm_num)
    (y := ![0, -2/25]) (by
      intro k; fin_cases k <;> simp) (by
    intro k
    rw [b0] at hF
    fin_cases k
    · exact hF _ (List.mem_cons_self ..) rfl 0 rfl
    · exact hF _ (List.mem_cons_of_mem _ (List.mem_singleton.2 rfl)) rfl 1 rfl)
  obtain ⟨g1, g2, -⟩ := gammaOf_lapack hd A (vlmBoundary (s i) env.refs P)
  refine ⟨⟨s i, l, P, A, gammaOf env A (vlmBoundary (s i) env.refs P), R⟩,
    e1, e2, e3, e4, e5, e6, e7, by rw [hr]; exact hl, by rw [h2]; norm_num, ?_, hA, g1, g2, hR⟩
  intro k
  show l.panel k = some (P k)
  rw [hP]
  rw [b0] at hF
  have hk : (k : ℕ) < 2 := lt_of_lt_of_eq k.2 h2
  obtain ⟨k, hk'⟩ := k
  simp only at hk
  obtain rfl | rfl : k = 0 ∨ k = 1 := by omega
  · exact hF _ (List.mem_cons_self ..) rfl 0 rfl
  · exact hF _ (List.mem_cons_of_mem _ (List.mem_singleton.2 rfl)) rfl 1 rfl

theorem onePanel_finishes {env : RunEnv} (hd : Lapack env.dgesv) (he : 0 < env.eps)
    (hr : env.doRot = true) (hg : env.lat.geo 0 0 = flatGeo)
    (hc : ∀ m k eta xsi, env.lat.camber m k eta xsi = 0) (span : ℝ)
    (interp : ℝ × ℝ → ℝ × ℝ → ℝ → ℝ) (dist : ℝ → ℝ → ℝ → ℝ → ℝ) {st : FlightSt ℝ} (hn : st.num ≠ 0)
    (s : ℕ → FlowState) (hs : ∀ i < st.num, (s i).beta = 0 ∧
      st.aero.entry "airspeed" i = .ok (.fin (s i).airspeed) ∧
      st.aero.entry "density" i = .ok (.fin (s i).rho) ∧
      st.aero.entry "alpha" i = .ok (.fin (s i).alpha) ∧
      st.aero.entry "beta" i = .ok (.fin (s i).beta) ∧
      st.aero.entry "rate_P" i = .ok (.fin (s i).p) ∧
      st.aero.entry "rate_Q" i = .ok (.fin (s i).q) ∧
      st.aero.entry "rate_R" i = .ok (.fin (s i).r)) :
    ∃ out, standardRun env (onePanelOf span interp dist) st = .ok out :=
  onePanel_finishes_auto hd he hr hg hc span interp dist (onePanelOf_autopanels _ _ _ _ _) hn s hs

theorem oneState_entries {atm : Atm ℝ} {V rho alpha beta : ℝ} {st : FlightSt ℝ}
    (h : updateFromDict atm Store.fresh (oneState V rho alpha beta) = .ok st) :
    st.num = 1 ∧ st.aero.entry "airspeed" 0 = .ok (.fin V) ∧
    st.aero.entry "density" 0 = .ok (.fin rho) ∧ st.aero.entry "alpha" 0 = .ok (.fin alpha) ∧
    st.aero.entry "beta" 0 = .ok (.fin beta) ∧ st.aero.entry "rate_P" 0 = .ok (.fin 0) ∧
    st.aero.entry "rate_Q" 0 = .ok (.fin 0) ∧ st.aero.entry "rate_R" 0 = .ok (.fin 0) := by
  obtain ⟨hl, F⟩ := (accepted angle_limits atm _ (oneState_nodup V rho alpha beta)).2 st h
  have ho : ∀ p ∈ stateAllParams, p ≠ "airspeed" → p ≠ "density" → ∀ x : ℝ,
      (p, Arg.scalar (.num (.fin x))) ∈ oneState V rho alpha beta →
      st.aero.entry p 0 = .ok (.fin x) := by
    intro p hp h1 h2 x hx
    unfold Store.entry
    rw [(F.other p hp h1 h2).1 _ ⟨_, hx, rfl⟩]
    rfl
  refine ⟨(hl _ (List.mem_cons_self ..)).symm, ?_, ?_,
    ho _ (by decide) (by decide) (by decide) _ (by simp [oneState]),
    ho _ (by decide) (by decide) (by decide) _ (by simp [oneState]),
    ho _ (by decide) (by decide) (by decide) _ (by simp [oneState]),
    ho _ (by decide) (by decide) (by decide) _ (by simp [oneState]),
    ho _ (by decide) (by decide) (by decide) _ (by simp [oneState])⟩
  · unfold Store.entry
    rw [F.airspeed _ ⟨.scalar (.num (.fin V)), by simp [oneState], rfl⟩
      ⟨.scalar (.num (.fin V)), by simp [oneState], by simp [Arg.toList, Val.isNum]⟩]
    rfl
  · unfold Store.entry
    rw [F.density _ ⟨.scalar (.num (.fin rho)), by simp [oneState], rfl⟩
      ⟨.scalar (.num (.fin rho)), by simp [oneState], by simp [Arg.toList, Val.isNum]⟩]
    rfl

theorem forall₂_singleton_left {α β : Type*} {R : α → β → Prop} {x : α} {l : List β}
    (h : List.Forall₂ R [x] l) : ∃ y, l = [y] ∧ R x y := by
  cases h with
  | cons h1 h2 =>
    cases h2
    exact ⟨_, rfl, h1⟩

/-- The run of the project with the flat wing finishes. -/
theorem rect_finishes : ∃ out, runProject exampleWorld (exampleProject rectFile) = .ok out := by
  obtain ⟨x, hx, -, -, hst⟩ := (example_ok rectFile_ok rectFile_layout
    ⟨_, List.mem_singleton.2 rfl, by simp⟩).load
  obtain ⟨f, sd, h1, h2, -, -, h5, hr⟩ := loaded_reads (example_native rectFile) hx
  have h1' : some rectFile = some f := h1
  cases h1'
  obtain ⟨w, hw, hwr⟩ := forall₂_singleton_left hr.wings
  obtain ⟨s, hs, hsr⟩ := forall₂_singleton_left hwr.segments
  have hstrips : s.strips = initStrips := by
    have hw' : x.aircraft.wings.map LoadedWing.toP = [w] := hw
    have : w ∈ x.aircraft.wings.map LoadedWing.toP := by rw [hw']; simp
    obtain ⟨w0, -, rfl⟩ := List.mem_map.1 this
    have : s ∈ w0.segments.map LoadedSegment.toP := by
      have hs' : w0.segments.map LoadedSegment.toP = [s] := hs
      rw [hs']; simp
    obtain ⟨s0, -, rfl⟩ := List.mem_map.1 this
    rfl
  have hac : x.aircraft.toP = onePanelOf s.span s.interp s.dist := by
    have e1 : x.aircraft.toP = ⟨[w]⟩ := by
      rw [← hw]
    have e2 : w = ⟨"W", 2, [s], []⟩ := by
      have a1 := hwr.uid
      have a2 := hwr.symmetry
      have a3 := hwr.controls
      cases w
      simp only at a1 a2 a3 hs
      subst a1 a2 a3 hs
      rfl
    have e3 : s = ⟨"S", s.span, some 1, some 1, s.interp, s.dist, initStrips⟩ := by
      have a1 := hsr.uid
      have a2 := hsr.numC
      have a3 := hsr.numS
      cases s
      simp only at a1 a2 a3 hstrips
      subst a1 a2 a3 hstrips
      rfl
    rw [e1, e2]
    unfold onePanelOf
    rw [← e3]
  obtain ⟨n1, q1, q2, q3, q4, q5, q6, q7⟩ := oneState_entries hst
  obtain ⟨g1, g2, -⟩ := hr.geometry 0 _ rfl 0 _ rfl
  obtain ⟨u1, u2⟩ := hr.undeformed (by simp [IfGiven, exampleSettings]) 0 0
  have hgeo : (x.env exampleWorld (exampleProject rectFile)).lat.geo 0 0 = flatGeo := by
    have hv := noSpan_given g1 (show AllGiven _ flatGeo.vertices from ⟨rfl, rfl, rfl, rfl⟩)
    generalize (x.env exampleWorld (exampleProject rectFile)).lat.geo 0 0 = g at *
    cases g
    simp only at hv g2 u1 u2
    subst hv g2 u1 u2
    rfl
  have heps : 0 < (x.env exampleWorld (exampleProject rectFile)).eps := by
    obtain ⟨y, hy, -, h0⟩ := hr.epsilon
    rw [hy, h0 (by simp [exampleSettings])]
    norm_num
  obtain ⟨out, hout⟩ := onePanel_finishes (env := x.env exampleWorld (exampleProject rectFile))
    exactDgesv_lapack heps (hr.rotate.2 (by simp [exampleSettings])) hgeo (by
      intro m k eta xsi
      show (match x.aircraft.wings[m]?.bind fun w => w.segments[k]? with
        | some s => exampleWorld.camber s.airfoilInner s.airfoilOuter eta xsi
        | none => 0) = (0 : ℝ)
      split <;> rfl) s.span s.interp s.dist (st := x.state) (by rw [n1]; norm_num)
    (fun _ => ⟨10, 1, 5, 0, 0, 0, 0⟩) (by
      intro i hi
      obtain rfl : i = 0 := by omega
      exact ⟨rfl, q1, q2, q3, q4, q5, q6, q7⟩)
  refine ⟨out, ?_⟩
  unfold runProject
  rw [hx]
  simp only
  rw [hac]
  exact hout

/-- Example for C101: the run with the flat wing returns the values of the analysis of the only
flight state; nothing is saved. -/
example : ∃ (out : RunOut) (env : RunEnv) (an : Analysis),
    runProject exampleWorld (exampleProject rectFile) = .ok out ∧
    env.autoC = 4 ∧ env.saveGlobal = false ∧ an.s.alpha = 5 ∧
    out.value "Fz" 0 = some (.fin an.R.ftot.z) := by
  obtain ⟨out, h⟩ := rect_finishes
  obtain ⟨f, sd, st, env, ac, ac', -, h2, -, -, h5, h6, -, -, h9⟩ :=
    C101_results_of_files _ exactDgesv_lapack _ _ _ _ (example_native rectFile) out h
  have h2' : some (oneState 10 1 5 0) = some sd := h2
  cases h2'
  obtain ⟨n1, -, -, q3, -⟩ := oneState_entries h5
  obtain ⟨an, ha, hv⟩ := h9 0 (by omega)
  refine ⟨out, env, an, h, h6.panelsC.2 (by simp [exampleSettings]),
    h6.saveGlobal.2 (by simp [exampleSettings]), ?_,
    hv ("Fz", fun a => .fin a.R.ftot.z) (by simp [runColumns])⟩
  have := ha.alpha
  rw [q3] at this
  simp only [Except.ok.injEq, Flt.fin.injEq] at this
  exact this.symm

end Verif
