import Verif.Props.Fin
import Verif.Props.JsonProgram

/-!
# Properties C102, C136 and C153: new projects and projects of JSON data are always analysed
-/

namespace Verif

theorem template_sideBySide : templateAircraft.SideBySide (fun _ => none) := by
  have hw : ∀ {w}, w ∈ templateAircraft.wings → ∀ s ∈ w.segments, ∀ v, AllGiven s.vertices v →
      v = ⟨⟨0, 0, 0⟩, ⟨0, 5, 0⟩, ⟨2, 5, 0⟩, ⟨2, 0, 0⟩⟩ := by
    intro w hw s hs v hv
    simp only [templateAircraft, List.mem_singleton] at hw
    subst hw
    simp only [List.mem_singleton] at hs
    subst hs
    exact noSpan_given hv ⟨rfl, rfl, rfl, rfl⟩
  refine ⟨fun _ _ => ⟨rfl, rfl⟩, ?_, ?_, ?_⟩
  · intro w h1 s h2 v h3
    rw [hw h1 s h2 v h3]
    constructor <;> norm_num
  · intro w h1 _
    refine ⟨?_, ?_⟩
    · simp only [templateAircraft, List.mem_singleton] at h1
      subst h1
      rfl
    · intro w' h1 s h2 v h3
      rw [hw h1 s h2 v h3]
  · intro m m' k k' w w' s s' v v' h1 h2 h3 h4 _ _
    left
    have l1 := (List.getElem?_eq_some_iff.1 h1).1
    have l2 := (List.getElem?_eq_some_iff.1 h2).1
    have e1 := List.mem_of_getElem? h1
    have e2 := List.mem_of_getElem? h2
    have l3 := (List.getElem?_eq_some_iff.1 h3).1
    have l4 := (List.getElem?_eq_some_iff.1 h4).1
    simp only [templateAircraft, List.mem_singleton, List.length_singleton] at e1 e2 l1 l2
    subst e1 e2
    simp only [List.length_singleton] at l3 l4
    omega

theorem setupState_level {atm : Atm ℝ}
    (h : ∀ z rho c, atm (.fin z) = some (rho, c) → rho ≠ .nonfin ∧ c ≠ .nonfin) :
    StatesLevel atm setupState := by
  refine ⟨⟨?_, ?_, h⟩, ?_⟩
  · intro x hx v hv
    simp only [setupState, List.mem_cons, List.not_mem_nil, or_false] at hx
    rcases hx with rfl | rfl | rfl | rfl | rfl | rfl | rfl | rfl | rfl <;> simp [Arg.toList] at hv <;>
      subst hv <;> simp
  · intro p hp a ha v hv
    simp only [List.mem_cons, List.not_mem_nil, or_false] at hp
    simp only [setupState, List.mem_cons, List.not_mem_nil, or_false, Prod.mk.injEq] at ha
    rcases hp with rfl | rfl | rfl | rfl | rfl <;> simp at ha <;> subst ha <;> simp [Arg.toList] at hv <;>
      subst hv <;> rfl
  · intro a ha v hv
    simp [setupState] at ha
    subst ha
    simpa [Arg.toList] using hv

/-- **C102**: the analysis of the template finishes, with finite velocities and forces.  Its flap reaches from
20 to 80 percent of the span and from 70 percent of the chord to the trailing edge; the reference values are
area 10, span 5 and chord 2. -/
theorem C102_template_finishes (W : World) (hW : Lapack W.dgesv) (root : String)
    (ha : W.airfoilOk "NACA0000" = true) (hsuf : W.suffix "template_aircraft.json" = ".json")
    (hup : W.upper "template.json" ≠ "__CPACS")
    (hatm : ∀ z rho c, W.atm (.fin z) = some (rho, c) → rho ≠ .nonfin ∧ c ≠ .nonfin) :
    ∃ folder P x out, setupWkdir W root none none = (some folder, .made) ∧
      folder.project root "template.json" = some P ∧ loadProject W P = .ok x ∧
      x.aircraft.refs.area = 10 ∧ x.aircraft.refs.span = 5 ∧ x.aircraft.refs.chord = 2 ∧
      (∃ w c, x.aircraft.wings = [w] ∧ w.controls = [c] ∧
        c.data.etaInner = 1/5 ∧ c.data.etaOuter = 4/5 ∧ c.data.xsiInner = 7/10 ∧ c.data.xsiOuter = 7/10 ∧
        c.data.hingeInner = 7/10 ∧ c.data.hingeOuter = 7/10) ∧
      runProject W P = .ok out := by
  obtain ⟨P, hP, p1, p2, p3, p4⟩ := setup_project root "template.json" "template_aircraft.json"
    "template.json" templateAircraft ⟨[], [], []⟩
  have hok := setup_ok (W := W) p2 p3 p4 hsuf hup (template_ok P.root _ ha) template_layout
    ⟨_, List.mem_singleton.2 rfl, by simp⟩
  obtain ⟨x, hx, -, hac, hst⟩ := hok.load
  obtain ⟨out, hout⟩ := C151_always_analysed W hW P _ _ _ _ _ hok (fun _ => none)
    (.inl ⟨by simp [IfGiven, newSettings, PyVal.IsEmpty], fun _ => rfl⟩) template_sideBySide
    (setupState_level hatm)
  obtain ⟨-, hr, hw, -⟩ := C92_content _ _ _ _ hac
  obtain ⟨w, hw1, hwf⟩ := forall₂_singleton_left hw
  obtain ⟨c, hc1, -, hcd⟩ := forall₂_singleton_left hwf.controls
  refine ⟨_, P, x, out, rfl, hP, hx, ?_, ?_, ?_, ⟨w, c, hw1, hc1, ?_⟩, hout⟩
  · rw [hr]; rfl
  · rw [hr]; rfl
  · rw [hr]; rfl
  · rw [hcd]
    norm_num [ControlDef.completed]

/-- Example: the exact solver. -/
example : ∃ folder P x out, setupWkdir setupWorld "/home" none none = (some folder, .made) ∧
    folder.project "/home" "template.json" = some P ∧ loadProject setupWorld P = .ok x ∧
    runProject setupWorld P = .ok out := by
  obtain ⟨folder, P, x, out, h1, h2, h3, -, -, -, -, h⟩ := C102_template_finishes setupWorld exactDgesv_lapack
    "/home" rfl rfl (by simp [setupWorld, exampleWorld]) (by simp [setupWorld, exampleWorld])
  exact ⟨folder, P, x, out, h1, h2, h3, h⟩

theorem forall₂_getElem? {α β : Type*} {R : α → β → Prop} {l : List α} {l' : List β}
    (h : List.Forall₂ R l l') {i : ℕ} {y : β} (hy : l'[i]? = some y) : ∃ x, l[i]? = some x ∧ R x y := by
  rw [List.forall₂_iff_get] at h
  obtain ⟨hi, rfl⟩ := List.getElem?_eq_some_iff.1 hy
  exact ⟨_, List.getElem?_eq_getElem (h.1 ▸ hi), h.2 i (h.1 ▸ hi) hi⟩

/-- Saving a loaded aircraft keeps its layout. -/
theorem saved_conventional {root : String} {airfoilOk : String → Bool} {f : FileAircraft} {ac : LoadedAircraft}
    (h : loadAircraft root airfoilOk f = .ok ac) (hb : f.Conventional fun _ => none) :
    (saveAircraft ac).Conventional fun _ => none := by
  obtain ⟨-, -, hw, -⟩ := C92_content _ _ _ _ h
  have wing : ∀ {m : ℕ} {w : FileWing}, (saveAircraft ac).wings[m]? = some w → ∃ e w0, f.wings[m]? = some e ∧
      w = saveWing w0 ∧ WingFrom root e w0 := by
    intro m w hm
    simp only [saveAircraft, List.getElem?_map, Option.map_eq_some_iff] at hm
    obtain ⟨w0, hm, rfl⟩ := hm
    obtain ⟨e, he, hf⟩ := forall₂_getElem? hw hm
    exact ⟨e, w0, he, rfl, hf⟩
  have segm : ∀ {m k : ℕ} {w : FileWing} {s : FileSegment} {v : Corners (V3 ℝ)},
      (saveAircraft ac).wings[m]? = some w → w.segments[k]? = some s → AllGiven s.vertices v →
      ∃ e t, f.wings[m]? = some e ∧ e.segments[k]? = some t ∧ AllGiven t.vertices v ∧
        w.symmetry = e.symmetry := by
    intro m k w s v hm hk hv
    obtain ⟨e, w0, he, rfl, hf⟩ := wing hm
    simp only [saveWing, List.getElem?_map, Option.map_eq_some_iff] at hk
    obtain ⟨s0, hk, rfl⟩ := hk
    obtain ⟨t, ht, hfs⟩ := forall₂_getElem? hf.segments hk
    have : v = s0.gen.vertices := noSpan_given hv ⟨rfl, rfl, rfl, rfl⟩
    subst this
    exact ⟨e, t, he, ht, hfs.vertices, hf.symmetry⟩
  refine ⟨fun _ _ => ⟨rfl, rfl⟩, ?_, ?_, ?_, ?_⟩
  · intro w h1 s h2 v h3
    obtain ⟨m, h1⟩ := List.mem_iff_getElem?.1 h1
    obtain ⟨k, h2⟩ := List.mem_iff_getElem?.1 h2
    obtain ⟨e, t, q1, q2, q3, q4⟩ := segm h1 h2 h3
    rw [q4]
    exact hb.kind e (List.mem_of_getElem? q1) t (List.mem_of_getElem? q2) v q3
  · intro w h1 s h2 v h3
    obtain ⟨m, h1⟩ := List.mem_iff_getElem?.1 h1
    obtain ⟨k, h2⟩ := List.mem_iff_getElem?.1 h2
    obtain ⟨e, t, q1, q2, q3, q4⟩ := segm h1 h2 h3
    exact hb.small e (List.mem_of_getElem? q1) t (List.mem_of_getElem? q2) v q3
  · intro w h1 h0
    obtain ⟨m, h1⟩ := List.mem_iff_getElem?.1 h1
    obtain ⟨e, w0, q1, rfl, hf⟩ := wing h1
    have hsym : (saveWing w0).symmetry = e.symmetry := hf.symmetry
    rw [hsym] at h0 ⊢
    obtain ⟨r1, r2⟩ := hb.mirrored e (List.mem_of_getElem? q1) h0
    refine ⟨r1, ?_⟩
    intro w' h1 s h2 v h3
    obtain ⟨m, h1⟩ := List.mem_iff_getElem?.1 h1
    obtain ⟨k, h2⟩ := List.mem_iff_getElem?.1 h2
    obtain ⟨e, t, q1, q2, q3, q4⟩ := segm h1 h2 h3
    exact r2 e (List.mem_of_getElem? q1) t (List.mem_of_getElem? q2) v q3
  · intro m m' k k' w w' s s' v v' h1 h2 h3 h4 h5 h6
    obtain ⟨e, t, q1, q2, q3, -⟩ := segm h1 h3 h5
    obtain ⟨e', t', r1, r2, r3, -⟩ := segm h2 h4 h6
    exact hb.apart m m' k k' e e' t t' v v' q1 r1 q2 r2 q3 r3

/-- **C102**: a new project made from an aircraft file with wings, tailplanes and fins that do not meet (see
C153) can be analysed. -/
theorem C102_from_file_finishes (W : World) (hW : Lapack W.dgesv) (root : String)
    (hr : ['/'] <+: root.toList) (path n : Name) (hn : JsonFile path n)
    (hsuf : W.suffix (String.ofList (n ++ ".json".toList)) = ".json")
    (hup : W.upper (String.ofList (n ++ ".json".toList)) ≠ "__CPACS")
    (hatm : ∀ z rho c, W.atm (.fin z) = some (rho, c) → rho ≠ .nonfin ∧ c ≠ .nonfin)
    (f : FileAircraft) (ac : LoadedAircraft) (h : loadAircraft root W.airfoilOk f = .ok ac)
    (hsv : ∀ w ∈ ac.wings, ∀ s ∈ w.segments, Survives root s) (hlay : ∀ w ∈ f.wings, WingLayoutOk w)
    (hseg : ∃ w ∈ f.wings, w.segments ≠ []) (hb : f.Conventional fun _ => none) :
    ∃ folder P out, setupWkdir W root (some (path, some f)) none = (some folder, .made) ∧
      folder.project root (String.ofList (n ++ ".json".toList)) = some P ∧ runProject W P = .ok out := by
  obtain ⟨e1, e2, e3⟩ := hn.names
  set file := String.ofList (n ++ ".json".toList) with hfile
  obtain ⟨P, hP, p1, p2, p3, p4⟩ := setup_project root file file file (saveAircraft ac)
    ⟨[], writeFile file f [], []⟩
  have hiff := C57_reload_iff root W.airfoilOk f ac hr h
  obtain ⟨hw, -⟩ := saved_wings h
  obtain ⟨out, hout⟩ := C153_always_analysed W hW P _ file file (saveAircraft ac) setupState
    (setup_ok p2 p3 p4 hsuf hup (by rw [p1]; exact (C92_accepted_iff _ _ _).1 ⟨ac, hiff.2 hsv⟩)
      (by
        intro w hw'
        obtain ⟨w0, hw0, rfl⟩ := List.mem_map.1 hw'
        obtain ⟨e, he, hf, -⟩ := forall₂_mem_right hw hw0
        exact saved_layout hf (hlay e he))
      (by
        obtain ⟨e, he, hes⟩ := hseg
        obtain ⟨w0, hw0, hf, hm⟩ := forall₂_mem_left hw he
        refine ⟨_, hm, ?_⟩
        intro hx
        have := hf.segments.length_eq
        have h0 : w0.segments = [] := List.map_eq_nil_iff.1 hx
        rw [h0] at this
        exact hes (List.length_eq_zero_iff.1 this)))
    (fun _ => none) (.inl ⟨by simp [IfGiven, newSettings, PyVal.IsEmpty], fun _ => rfl⟩)
    (saved_conventional h hb) (setupState_level hatm).toStatesFinite
  refine ⟨_, P, out, ?_, hP, hout⟩
  unfold setupWkdir
  simp only [e1, e2, e3]
  have : (writeFile file f []).lookup file = some f := by simp [writeFile]
  simp only [this, h]

theorem FileAircraft.SideBySide.conventional {f : FileAircraft} {D : String → Option (DefField ℝ)}
    (h : f.SideBySide D) (hs : ∀ w ∈ f.wings, ∀ s ∈ w.segments, ∀ v, AllGiven s.vertices v → v.Small) :
    f.Conventional D := by
  refine ⟨h.rigid, fun w h1 s h2 v h3 => .inl (h.above w h1 s h2 v h3), hs,
    fun w h1 h0 => ⟨(h.mirrored w h1 h0).1, fun w' h1' s h2 v h3 _ => (h.mirrored w h1 h0).2 w' h1' s h2 v h3⟩, ?_⟩
  intro m m' k k' w w' s s' v v' h1 h2 h3 h4 h5 h6
  rcases h.apart m m' k k' w w' s s' v v' h1 h2 h3 h4 h5 h6 with hh | hh
  · exact .inl hh
  · exact .inr (.inl ⟨h.above w (List.mem_of_getElem? h1) s (List.mem_of_getElem? h3) v h5,
      h.above w' (List.mem_of_getElem? h2) s' (List.mem_of_getElem? h4) v' h6, hh⟩)

theorem flapFile_conventional : flapFile.Conventional fun _ => none := by
  refine flapFile_sideBySide.conventional ?_
  intro w hw s hs v hv p hp
  simp only [flapFile, List.mem_singleton] at hw
  subst hw
  simp only [List.mem_singleton] at hs
  subst hs
  have : v = taperedSeg := noSpan_given hv ⟨rfl, rfl, rfl, rfl⟩
  subst this
  simp only [Corners.list, taperedSeg, List.mem_cons, List.not_mem_nil, or_false] at hp
  rcases hp with rfl | rfl | rfl | rfl <;> simp only [abs_le] <;> norm_num

theorem template_conventional : templateAircraft.Conventional fun _ => none := by
  refine template_sideBySide.conventional ?_
  intro w hw s hs v hv p hp
  simp only [templateAircraft, List.mem_singleton] at hw
  subst hw
  simp only [List.mem_singleton] at hs
  subst hs
  have : v = ⟨⟨0, 0, 0⟩, ⟨0, 5, 0⟩, ⟨2, 5, 0⟩, ⟨2, 0, 0⟩⟩ := noSpan_given hv ⟨rfl, rfl, rfl, rfl⟩
  subst this
  simp only [Corners.list, List.mem_cons, List.not_mem_nil, or_false] at hp
  rcases hp with rfl | rfl | rfl | rfl <;> simp only [abs_le] <;> norm_num

/-- Example: a project made from the file of an aircraft with a flap. -/
example : ∃ folder P out, setupWkdir setupWorld "/home" (some ("db/plane.json".toList, some flapFile)) none =
      (some folder, .made) ∧ folder.project "/home" "plane.json" = some P ∧
    runProject setupWorld P = .ok out := by
  obtain ⟨ac, hac⟩ := (C92_accepted_iff "/home" (fun _ => true) flapFile).2 flapFile_ok
  exact C102_from_file_finishes setupWorld exactDgesv_lapack "/home" (by decide)
    "db/plane.json".toList "plane".toList ⟨by decide, ⟨'p', by decide, by decide⟩⟩ rfl
    (by
      show (if "plane.json" = "__cpacs" then "__CPACS" else "plane.json") ≠ "__CPACS"
      decide) (by simp [setupWorld, exampleWorld]) flapFile ac hac (flap_survives hac) flapFile_layout
    ⟨_, List.mem_singleton.2 rfl, by simp⟩ flapFile_conventional

/-- **C136.** The analysis of the template project as it is written finishes. -/
theorem C136_template_finishes (W : JsonWorld) (hW : Lapack W.dgesv) (root : String)
    (ha : W.airfoilOk "NACA0000" = true) (hsuf : W.suffix "template_aircraft.json" = ".json")
    (hup : W.upper "template.json" ≠ "__CPACS")
    (hatm : ∀ z rho c, W.atm (.fin z) = some (rho, c) → rho ≠ .nonfin ∧ c ≠ .nonfin) :
    ∃ folder J out, setupWkdirJson W root none none = (some folder, .made) ∧
      folder.project root "template.json" = some J ∧ runJsonProject W J = .ok out := by
  obtain ⟨folder, P, x, out, h1, h2, h3, -, -, -, -, h⟩ := C102_template_finishes W.toWorld hW root ha hsuf hup hatm
  obtain ⟨J, hJ, hD⟩ := template_described W root h1 h2
  refine ⟨_, J, out, rfl, hJ, ?_⟩
  rw [(C135_run W J).1 P x hD h3]
  exact h

/-- **C153**: the same for a project of JSON data: if they describe a project in order with wings, tailplanes and
fins that do not meet, it is analysed in all its flight states. -/
theorem C153_json (W : JsonWorld) (hW : Lapack W.dgesv) (J : JsonProject) (P : Project) (hJ : J.Describes W P)
    (d : PyDict) (a b : String) (f : FileAircraft) (sd : List (String × Arg ℝ))
    (h : ProjectOk W.toWorld P d a b f sd) (D : String → Option (DefField ℝ)) (hdef : FieldsOf P d f D)
    (hb : f.Conventional D) (hs : StatesFinite W.atm sd) : ∃ out, runJsonProject W J = .ok out := by
  obtain ⟨x, hx, -⟩ := h.load
  rw [(C135_run W J).1 P x hJ hx]
  exact C153_always_analysed W.toWorld hW P d a b f sd h D hdef hb hs

/-- Surroundings in which no string is read as a number. -/
noncomputable def setupJsonWorld : JsonWorld :=
  { toWorld := setupWorld, env := ⟨.typeError, true, false, fun _ => none⟩, parse := fun _ => none }

/-- Example for C153 and C136: the template project as JSON data. -/
example : ∃ folder J P out, setupWkdirJson setupJsonWorld "/home" none none = (some folder, .made) ∧
    folder.project "/home" "template.json" = some J ∧ J.Describes setupJsonWorld P ∧
    runJsonProject setupJsonWorld J = .ok out := by
  obtain ⟨P, hP, p1, p2, p3, p4⟩ := setup_project "/home" "template.json" "template_aircraft.json"
    "template.json" templateAircraft ⟨[], [], []⟩
  have hup : setupWorld.upper "template.json" ≠ "__CPACS" := by simp [setupWorld, exampleWorld]
  have hok := setup_ok (W := setupWorld) p2 p3 p4 rfl hup (template_ok P.root _ rfl) template_layout
    ⟨_, List.mem_singleton.2 rfl, by simp⟩
  obtain ⟨J, hJ, hD⟩ := template_described setupJsonWorld "/home" rfl hP
  obtain ⟨out, h⟩ := C153_json setupJsonWorld exactDgesv_lapack J P hD _ _ _ _ _ hok (fun _ => none)
    (.inl ⟨by simp [IfGiven, newSettings, PyVal.IsEmpty], fun _ => rfl⟩) template_conventional
    (setupState_level (by simp [setupJsonWorld, setupWorld, exampleWorld])).toStatesFinite
  exact ⟨_, J, P, out, rfl, hJ, hD, h⟩

end Verif
