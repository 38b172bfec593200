import Verif.Props.SurfaceFiles
import Verif.Props.UpsideDown

/-!
# Property C141: symmetric aircraft files

C83 and C96 for projects.
-/

set_option linter.unnecessarySeqFocus false

namespace Verif

open V3

/-! ## Specification -/

/-- Neither the inner nor the outer airfoil has camber. -/
def FileSegment.Uncambered (W : World) (root : String) (s : FileSegment) : Prop :=
  ∀ inner outer, AirfoilAt root s.airfoilInner inner → AirfoilAt root s.airfoilOuter outer →
    ∀ eta xsi, W.camber inner outer eta xsi = 0

/-- Inner and outer chord have the same direction. -/
def FileSegment.Untwisted (s : FileSegment) : Prop :=
  ∀ v, AllGiven s.vertices v → ∃ k : ℝ, 0 < k ∧ v.c - v.b = k • (v.d - v.a)

/-- The deformation fields that apply in a project: none without a deformation file, otherwise those of
the file by name. -/
def FieldsOf (P : Project) (d : PyDict) (f : FileAircraft) (D : String → Option (DefField ℝ)) : Prop :=
  (IfGiven d "deformation" PyVal.IsEmpty ∧ ∀ u, D u = none) ∨
  ∃ v fields, ("deformation", v) ∈ d ∧ ¬ v.IsEmpty ∧ P.deformation v = some fields ∧ DeformationOk P d f ∧
    ∀ u, D u = fields.lookup u

/-- The wing entry describes a wing and its mirror image in the x-z plane, with the same deflections on both
sides, and deformed like mirror images if at all; if normals are turned, segments with camber are neither
twisted nor deformed. -/
structure FileWing.BothSides (W : World) (root : String) (turned : Prop) (D : String → Option (DefField ℝ))
    (w : FileWing) : Prop where
  symmetry : w.symmetry = 2
  controls : ∀ k ∈ w.controls, k.data.deflectionMirror = .none ∨
    k.data.deflectionMirror = k.data.deflection
  shape : ∀ p : V3 ℝ, displaced (D (mirrorName w.uid)) ⟨p.x, -p.y, p.z⟩ =
    ⟨(displaced (D w.uid) p).x, -(displaced (D w.uid) p).y, (displaced (D w.uid) p).z⟩
  camber : turned → ∀ s ∈ w.segments, s.Uncambered W root ∨ D w.uid = none ∧ s.Untwisted

/-- The wing entry describes a fin: all corners are in the x-z plane and stay there, and there is neither
deflection nor camber. -/
structure FileWing.Fin (W : World) (root : String) (D : String → Option (DefField ℝ)) (w : FileWing) :
    Prop where
  symmetry : w.symmetry = 0
  corners : ∀ s ∈ w.segments, ∀ v, AllGiven s.vertices v → v.a.y = 0 ∧ v.b.y = 0 ∧ v.c.y = 0 ∧ v.d.y = 0
  shape : ∀ p : V3 ℝ, p.y = 0 → (displaced (D w.uid) p).y = 0
  controls : ∀ k ∈ w.controls, k.data.deflection = .num (.fin 0)
  camber : ∀ s ∈ w.segments, s.Uncambered W root

/-- The aircraft file describes a symmetric aircraft. -/
structure FileAircraft.Symmetric (W : World) (root : String) (turned : Prop)
    (D : String → Option (DefField ℝ)) (f : FileAircraft) : Prop where
  wings : ∀ w ∈ f.wings, w.BothSides W root turned D ∨ w.Fin W root D
  gravity : f.refs.gcenter.y = 0
  rotation : f.refs.rcenter.y = 0

/-! ## From the files to the panelled aircraft -/

theorem mapSegments_rest {f : List (PSegment ℝ) → Except PyErr (List (PSegment ℝ))} {w w' : PWing ℝ}
    (h : w.mapSegments f = .ok w') : w'.uid = w.uid ∧ w'.symmetry = w.symmetry := by
  unfold PWing.mapSegments at h
  split at h
  · cases h
  · cases h
    exact ⟨rfl, rfl⟩

theorem panelWing_rest {autoC autoS : ℤ} {w w' : PWing ℝ} (h : panelWing autoC autoS w = .ok w') :
    w'.uid = w.uid ∧ w'.symmetry = w.symmetry := by
  unfold panelWing at h
  cases h1 : w.setAutopanels autoC autoS with
  | error e => rw [h1] at h; cases h
  | ok w1 =>
    rw [h1] at h
    dsimp only at h
    cases h2 : w1.mapSegments (placeControls w1.controls) with
    | error e => rw [h2] at h; cases h
    | ok w2 =>
      rw [h2] at h
      dsimp only at h
      have e1 : w1.uid = w.uid ∧ w1.symmetry = w.symmetry := by
        unfold PWing.setAutopanels at h1
        cases h4 : mapE (PSegment.setAutopanels w.span autoC autoS) w.segments with
        | error e => rw [h4] at h1; cases h1
        | ok segs =>
          rw [h4] at h1
          cases h1
          exact ⟨rfl, rfl⟩
      have e2 := mapSegments_rest h2
      have e3 := mapSegments_rest h
      exact ⟨e3.1.trans (e2.1.trans e1.1), e3.2.trans (e2.2.trans e1.2)⟩

/-- Edges of a subarea between points of the chords of its strip. -/
theorem subarea_chords {g : GeoEnv ℝ} {s : Strip ℝ} {q : Quad ℝ} {v : Corners (V3 ℝ)}
    (h : subareaVertices g s q false = .ok v) :
    v.d - v.a = (q.xsiD - q.xsiA) • ((stripCorners g s).d - (stripCorners g s).a) ∧
    v.c - v.b = (q.xsiC - q.xsiB) • ((stripCorners g s).c - (stripCorners g s).b) ∧
    ((stripCorners g s).a.y = 0 → (stripCorners g s).b.y = 0 → (stripCorners g s).c.y = 0 →
      (stripCorners g s).d.y = 0 → v.a.y = 0 ∧ v.b.y = 0 ∧ v.c.y = 0 ∧ v.d.y = 0) := by
  unfold subareaVertices at h
  rw [absVertices_eq] at h
  simp only [Bool.false_eq_true, if_false] at h
  cases h
  refine ⟨?_, ?_, fun h1 h2 h3 h4 => ?_⟩
  · ext <;> simp <;> ring
  · ext <;> simp <;> ring
  · simp [h1, h2, h3, h4]

/-- Deflections on a loaded wing, if there are any. -/
theorem deflection_cases (ac : LoadedAircraft) (hn : (ac.wings.map (·.uid)).Nodup) {w : LoadedWing}
    (hw : w ∈ ac.wings) (k : String) : ac.deflection w.uid k = (none, none) ∨ ∃ c ∈ w.controls,
      ac.deflection w.uid k = (c.data.deflection.angle, c.data.deflectionMirror.angle) := by
  unfold LoadedAircraft.deflection
  split
  · exact .inl rfl
  · rename_i w' hw'
    obtain rfl : w' = w := by
      have e := List.find?_some hw'
      simp only [beq_iff_eq] at e
      exact List.inj_on_of_nodup_map hn (List.mem_of_find?_eq_some hw') hw e
    split
    · exact .inl rfl
    · rename_i c hc
      exact .inr ⟨c, List.mem_of_find?_eq_some hc, rfl⟩

/-- A symmetric aircraft file gives a symmetric aircraft. -/
theorem file_symmetric {W : World} {P : Project} {d : PyDict} {a b : String}
    (hn : NativeProject W P d a b) {x : Loaded} (hx : loadProject W P = .ok x) {f : FileAircraft}
    (hf : P.aircraft a = some f) {D : String → Option (DefField ℝ)} (hdef : FieldsOf P d f D)
    (hnum : x.aircraft.toP.GivenNumC (x.env W P).autoC)
    (h : f.Symmetric W P.root (("_do_normal_rotations", PyVal.bool false) ∉ d) D) :
    (∀ ac', Panelled (x.env W P) x.aircraft.toP ac' → SymmetricAircraft (x.env W P) ac') ∧
      (x.env W P).refs.Symmetric := by
  have hl := loaded_aircraft hn hx hf
  obtain ⟨f', sd, h1, -, -, -, -, hr⟩ := loaded_reads hn hx
  rw [hf] at h1
  cases h1
  constructor
  swap
  · rw [hr.refs]
    exact ⟨h.gravity, h.rotation⟩
  obtain ⟨-, -, hw, -⟩ := C92_content _ _ _ _ hl
  intro ac' hp t ht
  obtain ⟨⟨l, q⟩, ⟨k, sd⟩, ⟨j, s'⟩, i, w'⟩ := t
  obtain ⟨t1, t2, t3, t4⟩ := ((C60_all_subareas ac').1 i j k l w' s' sd q).1 ht
  obtain ⟨ac1, p1, p2⟩ := id hp
  have hpw := mapE_ok (panelled_iff.1 hp)
  have li' : i < ac'.wings.length := (List.getElem?_eq_some_iff.1 t1).1
  have l1 := hpw.length_eq
  have l0 : x.aircraft.toP.wings.length = x.aircraft.wings.length := List.length_map _
  have l2 := hw.length_eq
  have hi0 : i < x.aircraft.wings.length := by omega
  have hif : i < f.wings.length := by omega
  have e1 := hpw.get (i := i) (by omega) li'
  have e1' : ac'.wings[i] = w' := (List.getElem?_eq_some_iff.1 t1).2
  have e2 : x.aircraft.toP.wings[i]'(by omega) = x.aircraft.wings[i].toP := List.getElem_map _
  simp only [List.get_eq_getElem, e1', e2] at e1
  have k1 := hw.get (i := i) hif hi0
  simp only [List.get_eq_getElem] at k1
  obtain ⟨r1, r2⟩ := panelWing_rest e1
  have hwi : x.aircraft.toP.wings[i]? = some x.aircraft.wings[i].toP := by
    rw [List.getElem?_eq_getElem (by omega), e2]
  obtain ⟨w0, s0, j1, j2⟩ := hp.segment t1 t2
  rw [hwi] at j1
  cases j1
  have lj : j < x.aircraft.wings[i].toP.segments.length := (List.getElem?_eq_some_iff.1 j2).1
  have lj' : j < x.aircraft.wings[i].segments.length := by
    have : x.aircraft.wings[i].toP.segments.length = x.aircraft.wings[i].segments.length :=
      List.length_map _
    omega
  have l3 := k1.segments.length_eq
  have hjf : j < f.wings[i].segments.length := by omega
  obtain ⟨g1, g2, inner, outer, g3, g4, g5⟩ := hr.geometry i f.wings[i] (List.getElem?_eq_getElem hif) j
    f.wings[i].segments[j] (List.getElem?_eq_getElem hjf)
  have hmw : f.wings[i] ∈ f.wings := List.getElem_mem _
  have hms : f.wings[i].segments[j] ∈ f.wings[i].segments := List.getElem_mem _
  obtain ⟨hund1, hund2⟩ : ((x.env W P).lat.geo i j).defField = D f.wings[i].uid ∧
      ((x.env W P).lat.geo i j).defFieldMirror = D (mirrorName f.wings[i].uid) := by
    rcases hdef with ⟨hd1, hd2⟩ | ⟨v, fields, hd1, hd2, hd3, hd4, hd5⟩
    · rw [hd2, hd2]
      exact hr.undeformed hd1 i j
    · rw [hd5, hd5]
      exact hr.deformed v fields hd1 hd2 hd3 hd4 i _ (List.getElem?_eq_getElem hif) j
  have hsym : w'.symmetry = f.wings[i].symmetry := by
    rw [r2]
    exact k1.symmetry
  have huid : w'.uid = x.aircraft.wings[i].uid := r1
  have hdefl := deflection_cases x.aircraft (loaded_names hl) (List.getElem_mem hi0)
  have hcam : f.wings[i].segments[j].Uncambered W P.root → ∀ eta xsi,
      (x.env W P).lat.camber i j eta xsi = 0 := by
    intro hu eta xsi
    rw [g5]
    exact hu inner outer g3 g4 eta xsi
  rcases h.wings _ hmw with hb | hb
  · constructor
    · refine .inl ⟨hsym.trans hb.symmetry, g2.trans hb.symmetry, ?_, ?_⟩
      · intro p
        show displaced ((x.env W P).lat.geo i j).defFieldMirror
          (reflect (symNormal ((x.env W P).lat.geo i j).symmetry) p) =
          reflect (symNormal ((x.env W P).lat.geo i j).symmetry) (displaced _ p)
        rw [hund1, hund2, g2.trans hb.symmetry, reflect_two, reflect_two]
        exact hb.shape p
      · intro c hc
        show (x.aircraft.deflection w'.uid c.uid).1 = (x.aircraft.deflection w'.uid c.uid).2
        rw [huid]
        rcases hdefl c.uid with e | ⟨c', hc', e⟩
        · rw [e]
        · rw [e]
          obtain ⟨k0, hk0, -, hk2⟩ := forall₂_mem_right k1.controls hc'
          rw [hk2]
          unfold ControlDef.completed
          rw [hb.symmetry]
          simp only [ne_eq, OfNat.ofNat_ne_zero, not_false_eq_true, and_true]
          split_ifs with h0
          · rfl
          · rcases hb.controls k0 hk0 with h1 | h1
            · exact absurd h1 h0
            · rw [h1]
    · intro hrot
      have ht : ("_do_normal_rotations", PyVal.bool false) ∉ d := by
        intro hm
        rw [hr.rotate.1 false hm] at hrot
        cases hrot
      rcases hb.camber ht _ hms with hu | ⟨hD, hu⟩
      · exact .inl (hcam hu)
      · refine .inr ?_
        intro v hv
        obtain ⟨f1, f2⟩ := autopanels_facts (loaded_unpanelled x.aircraft) hnum p1
        obtain ⟨n1, n2⟩ := C04_aircraft_chord_lines ac1 ac' f1 p2 w' (List.mem_of_getElem? t1) s'
          (List.mem_of_getElem? t2) sd (List.mem_of_getElem? t3)
        obtain ⟨κ, hκ, hpar⟩ := hu _ g1
        obtain ⟨e3, e4, -⟩ := subarea_chords hv
        have key : ∀ e, segPoint ((x.env W P).lat.geo i j).vertices e 1 -
            segPoint ((x.env W P).lat.geo i j).vertices e 0 = (1 + e * (κ - 1)) •
              (((x.env W P).lat.geo i j).vertices.d - ((x.env W P).lat.geo i j).vertices.a) := by
          intro e
          generalize ((x.env W P).lat.geo i j).vertices = v at hpar
          have hx := congrArg V3.x hpar
          have hy := congrArg V3.y hpar
          have hz := congrArg V3.z hpar
          simp only [V3.sub_x, V3.sub_y, V3.sub_z, V3.smul_x, V3.smul_y, V3.smul_z] at hx hy hz
          unfold segPoint
          refine V3.ext ?_ ?_ ?_ <;> simp only [V3.add_x, V3.add_y, V3.add_z, V3.sub_x, V3.sub_y, V3.sub_z,
            V3.smul_x, V3.smul_y, V3.smul_z]
          · linear_combination e * hx
          · linear_combination e * hy
          · linear_combination e * hz
        rw [hD] at hund1
        simp only [stripCorners, hund1, displaced, ← n1, ← n2, key] at e3 e4
        have hsm : ∀ (p q : ℝ) (u : V3 ℝ), p • q • u = (p * q) • u := by
          intro p q u
          ext <;> simp <;> ring
        exact ⟨_, _, _, e3.trans (hsm _ _ _), e4.trans (hsm _ _ _)⟩
  · refine ⟨.inr ⟨hsym.trans hb.symmetry, ?_, ?_, hcam (hb.camber _ hms)⟩, fun _ =>
      .inl (hcam (hb.camber _ hms))⟩
    · intro v hv
      obtain ⟨c1, c2, c3, c4⟩ := hb.corners _ hms _ g1
      have hseg : ∀ e z, (segPoint ((x.env W P).lat.geo i j).vertices e z).y = 0 := by
        intro e z
        unfold segPoint
        simp [c1, c2, c3, c4]
      refine (subarea_chords hv).2.2 ?_ ?_ ?_ ?_ <;>
        (simp only [stripCorners, hund1]; exact hb.shape _ (hseg _ _))
    · intro c hc
      show (x.aircraft.deflection w'.uid c.uid).1 ∈ _
      rw [huid]
      rcases hdefl c.uid with e | ⟨c', hc', e⟩
      · rw [e]
        simp
      · rw [e]
        obtain ⟨k0, hk0, -, hk2⟩ := forall₂_mem_right k1.controls hc'
        rw [hk2]
        unfold ControlDef.completed
        simp [hb.controls k0 hk0, Val.angle]

/-! ## Projects -/

theorem native_autoC {W : World} {P : Project} {d : PyDict} {a b : String} (hn : NativeProject W P d a b)
    {x : Loaded} (hx : loadProject W P = .ok x) (hC : IfGiven d "vlm_autopanels_c" PyVal.IsPositive) :
    0 ≤ (x.env W P).autoC := by
  cases hset : loadSettings W.suffix (.dict d) with
  | error e =>
    unfold loadProject at hx
    rw [hn.settings, hset] at hx
    cases hx
  | ok s =>
  obtain ⟨k1, k2, -⟩ := C98_content W.suffix d hn.keys s hset
  have : 1 ≤ s.int "vlm_autopanels_c" := int_positive (fun v hv => k1 _ _ (by decide) hv)
    (k2 ("vlm_autopanels_c", .int 4) (by simp [settingsLeftOut])) hC
  obtain ⟨-, -, -, -, e⟩ := loadProject_native hn hset
  rw [e] at hx
  have hs : x.settings = s := by
    split at hx
    · cases hx
    · split at hx
      · cases hx
      · split at hx
        · cases hx
        · split at hx
          · cases hx
          · split at hx
            · cases hx
            · cases hx
              rfl
  show 0 ≤ x.settings.int "vlm_autopanels_c"
  rw [hs]
  omega

/-- A zero in the state file is a zero in the flight state. -/
theorem zero_entry_at {atm : Atm ℝ} {sd : List (String × Arg ℝ)} {st : FlightSt ℝ} (F : Final atm sd st)
    {p : String} (h1 : p ∈ stateAllParams) (h2 : p ≠ "airspeed") (h3 : p ≠ "density") {i : ℕ}
    (hs : ∀ l, (p, l) ∈ sd → ∀ v, l.toList[i]? = some v → v = .num (.fin 0)) {y : ℝ}
    (hy : st.aero.entry p i = .ok (.fin y)) : y = 0 := by
  obtain ⟨o1, o2⟩ := F.other p h1 h2 h3
  unfold Store.entry at hy
  by_cases hex : ∃ l, Has sd p l
  · obtain ⟨l, hl⟩ := hex
    rw [o1 l hl] at hy
    simp only at hy
    obtain ⟨q, q1, rfl⟩ := hl
    rw [List.getElem?_map] at hy
    cases hg : q.toList[i]? with
    | none => rw [hg] at hy; cases hy
    | some v =>
      rw [hg] at hy
      have hv := hs q q1 v hg
      subst hv
      simp only [Option.map_some, Except.ok.injEq] at hy
      have : (Val.num (Flt.fin (0 : ℝ))).conv.flt = .fin 0 := rfl
      rw [this] at hy
      exact (Flt.fin.inj hy).symm
  · rw [o2 (fun l hl => hex ⟨l, hl⟩)] at hy
    cases hy

/-- **C141**: let the aircraft file describe a symmetric aircraft: every wing has a mirror image in the x-z
plane, the same deflections on both sides and is deformed like a mirror image if at all, or is a flat fin in
that plane without deflections.  For every flight state given without sideslip, roll and yaw rate, side
force, rolling and yawing moment are zero, and so are their coefficients.  Missing: wings with camber that
are twisted, in the file or by deformation (the claim fails for these, see C74). -/
theorem C141_symmetric_flight_partial (W : World) (hW : Lapack W.dgesv) (P : Project) (d : PyDict)
    (a b : String) (hn : NativeProject W P d a b)
    (hC : IfGiven d "vlm_autopanels_c" PyVal.IsPositive) (f : FileAircraft) (hf : P.aircraft a = some f)
    (D : String → Option (DefField ℝ)) (hdef : FieldsOf P d f D)
    (hs : f.Symmetric W P.root (("_do_normal_rotations", PyVal.bool false) ∉ d) D)
    (sd : List (String × Arg ℝ)) (hsd : P.state b = some sd) (hnd : (sd.map Prod.fst).Nodup)
    (out : RunOut) (h : runProject W P = .ok out) :
    ∃ st, updateFromDict W.atm Store.fresh sd = .ok st ∧ ∀ i < st.num,
      (∀ p ∈ ["beta", "rate_P", "rate_R"], ∀ l, (p, l) ∈ sd → ∀ v, l.toList[i]? = some v →
        v = .num (.fin 0)) →
      (∀ c ∈ ["Fy", "FC", "Mx", "Mz"], out.value c i = some (.fin 0)) ∧
      (f.refs.area ≠ 0 → f.refs.span ≠ 0 → f.refs.chord ≠ 0 →
        ∀ c ∈ ["Cy", "CC", "Cl", "Cn"], out.value c i = some (.fin 0)) := by
  unfold runProject at h
  cases hx : loadProject W P with
  | error e => rw [hx] at h; cases h
  | ok x =>
  rw [hx] at h
  simp only at h
  obtain ⟨f', sd', h1, h2, -, -, h5, hr⟩ := loaded_reads hn hx
  rw [hf] at h1
  cases h1
  rw [hsd] at h2
  cases h2
  obtain ⟨-, F⟩ := (accepted angle_limits W.atm sd hnd).2 _ h5
  have hnum := loaded_numC (loaded_aircraft hn hx hf) (native_autoC hn hx hC)
  obtain ⟨s1, s2⟩ := file_symmetric hn hx hf hdef hnum hs
  obtain ⟨-, ac', -, han⟩ := (C93_finishes_iff _ hW _ _).1 ⟨out, h⟩
  refine ⟨x.state, h5, fun i hi hz => ?_⟩
  obtain ⟨an, ha⟩ := han i hi
  have hzero : ∀ p ∈ ["beta", "rate_P", "rate_R"], ∀ y, x.state.aero.entry p i = .ok (.fin y) →
      y = 0 := by
    intro p hp y hy
    have hall : p ∈ stateAllParams ∧ p ≠ "airspeed" ∧ p ≠ "density" := by
      simp only [List.mem_cons, List.not_mem_nil, or_false] at hp
      rcases hp with rfl | rfl | rfl <;> decide
    exact zero_entry_at F hall.1 hall.2.1 hall.2.2 (hz p hp) hy
  have e1 := ha.beta
  have e2 := ha.rateP
  have e3 := ha.rateR
  rw [hzero _ (by simp) _ e1] at e1
  rw [hzero _ (by simp) _ e2] at e2
  rw [hzero _ (by simp) _ e3] at e3
  obtain ⟨r1, r2⟩ := C83_symmetric_run_partial (x.env W P) hW x.aircraft.toP (loaded_unpanelled _) hnum s1
    s2 x.state out h i hi ⟨e1, e2, e3⟩
  have key : ∀ c, (∃ l, out.table c = some l ∧ l[i]? = some (.fin 0)) → out.value c i = some (.fin 0) := by
    rintro c ⟨l, l1, l2⟩
    unfold RunOut.value
    rw [l1]
    exact l2
  refine ⟨fun c hc => key c (r1 c hc), fun n1 n2 n3 c hc => key c (r2 ?_ c hc)⟩
  rw [hr.refs]
  exact ⟨n1, n2, n3⟩

/-- **C141** (mirrored states): let the aircraft file describe a symmetric aircraft.  With the signs of all
sideslip angles, roll and yaw rates reversed in the state file, the project can still be run; side force,
rolling and yawing moment and their coefficients are reversed, all other results are the same.  Missing: as
in `C141_symmetric_flight_partial`. -/
theorem C141_mirrored_states_partial (W : World) (hW : Lapack W.dgesv) (P P2 : Project) (d : PyDict)
    (a b : String) (hn : NativeProject W P d a b) (hP : P.OtherState P2)
    (hC : IfGiven d "vlm_autopanels_c" PyVal.IsPositive) (f : FileAircraft) (hf : P.aircraft a = some f)
    (D : String → Option (DefField ℝ)) (hdef : FieldsOf P d f D)
    (hs : f.Symmetric W P.root (("_do_normal_rotations", PyVal.bool false) ∉ d) D)
    (sd : List (String × Arg ℝ)) (hsd : P.state b = some sd) (hnd : (sd.map Prod.fst).Nodup)
    (hsd2 : P2.state b = some (reversedState ["beta", "rate_P", "rate_R"] sd))
    (out : RunOut) (h : runProject W P = .ok out) :
    ∃ out' st, runProject W P2 = .ok out' ∧ updateFromDict W.atm Store.fresh sd = .ok st ∧ ∀ i < st.num,
      (∀ c ∈ ["Fx", "Fz", "FD", "FL", "My", "Cx", "Cz", "CD", "CL", "Cm"],
        ∃ x, out.value c i = some x ∧ out'.value c i = some x) ∧
      ∀ c ∈ ["Fy", "FC", "Mx", "Mz", "Cy", "CC", "Cl", "Cn"],
        ∃ x, out.value c i = some x ∧ out'.value c i = some x.neg := by
  unfold runProject at h
  cases hx : loadProject W P with
  | error e => rw [hx] at h; cases h
  | ok x =>
  rw [hx] at h
  simp only at h
  obtain ⟨f', sd', h1, h2, -, -, h5, hr⟩ := loaded_reads hn hx
  rw [hf] at h1
  cases h1
  rw [hsd] at h2
  cases h2
  obtain ⟨st2, k1, k2, k3, k4⟩ := reversed_read (keys := ["beta", "rate_P", "rate_R"]) (by decide) hnd h5
  have hx2 := loadProject_otherState hn hP hx hsd2 k1
  have hnum := loaded_numC (loaded_aircraft hn hx hf) (native_autoC hn hx hC)
  obtain ⟨s1, s2⟩ := file_symmetric hn hx hf hdef hnum hs
  obtain ⟨out', g1, g2⟩ := C96_mirrored_states_partial (x.env W P) hW x.aircraft.toP (loaded_unpanelled _)
    hnum s1 s2 x.state st2 k2 (fun i _ => ⟨fun p hp => k3 p hp i, fun p hp => by
      simp only [List.mem_cons, List.not_mem_nil, or_false] at hp
      rcases hp with rfl | rfl | rfl | rfl <;> exact k4 _ (by decide) (by decide) i⟩) out h
  refine ⟨out', x.state, ?_, h5, g2⟩
  unfold runProject
  rw [hx2]
  simp only
  rw [← g1]
  unfold Loaded.env
  simp only [hP.base]

/-! ## Examples -/

/-- A flight state with a roll rate. -/
def rollingState (p : ℝ) : List (String × Arg ℝ) :=
  [("airspeed", .scalar (.num (.fin 10))), ("density", .scalar (.num (.fin 1))),
   ("alpha", .scalar (.num (.fin 5))), ("beta", .scalar (.num (.fin 0))),
   ("rate_P", .scalar (.num (.fin p))), ("rate_Q", .scalar (.num (.fin 0))),
   ("rate_R", .scalar (.num (.fin 0)))]

theorem rollingState_nodup (p : ℝ) : ((rollingState p).map Prod.fst).Nodup := by
  show ["airspeed", "density", "alpha", "beta", "rate_P", "rate_Q", "rate_R"].Nodup
  decide

theorem rollingState_acceptable (atm : Atm ℝ) (q : ℝ) : Acceptable atm (rollingState q) := by
  have notGiven : ∀ p, p ∉ ["airspeed", "density", "alpha", "beta", "rate_P", "rate_Q", "rate_R"] →
      ¬ Given (rollingState q) p := by
    rintro p hp ⟨a, ha, -⟩
    apply hp
    exact List.mem_map_of_mem (f := Prod.fst) ha
  refine ⟨⟨1, ?_⟩, Or.inl ⟨⟨.scalar (.num (.fin 10)), by simp [rollingState], ?_⟩,
    ⟨.scalar (.num (.fin 1)), by simp [rollingState], ?_⟩, notGiven _ (by decide),
    notGiven _ (by decide)⟩, ?_, fun g => absurd g (notGiven _ (by decide)),
    ⟨_, by simp [rollingState]; rfl⟩, ⟨_, by simp [rollingState]; rfl⟩⟩
  · intro x hx
    simp only [rollingState, List.mem_cons, List.not_mem_nil, or_false] at hx
    rcases hx with rfl | rfl | rfl | rfl | rfl | rfl | rfl <;> rfl
  · simp [Arg.toList, Val.isNum]
  · simp [Arg.toList, Val.isNum]
  · intro p _ a ha v hv
    simp only [rollingState, List.mem_cons, List.not_mem_nil, or_false, Prod.mk.injEq] at ha
    rcases ha with ⟨-, rfl⟩ | ⟨-, rfl⟩ | ⟨-, rfl⟩ | ⟨-, rfl⟩ | ⟨-, rfl⟩ | ⟨-, rfl⟩ | ⟨-, rfl⟩ <;>
    · simp only [Arg.toList, List.mem_singleton] at hv
      subst hv
      exact trivial

theorem rollingState_entries {atm : Atm ℝ} {q : ℝ} {st : FlightSt ℝ}
    (h : updateFromDict atm Store.fresh (rollingState q) = .ok st) :
    st.num = 1 ∧ st.aero.entry "airspeed" 0 = .ok (.fin 10) ∧
    st.aero.entry "density" 0 = .ok (.fin 1) ∧ st.aero.entry "alpha" 0 = .ok (.fin 5) ∧
    st.aero.entry "beta" 0 = .ok (.fin 0) ∧ st.aero.entry "rate_P" 0 = .ok (.fin q) ∧
    st.aero.entry "rate_Q" 0 = .ok (.fin 0) ∧ st.aero.entry "rate_R" 0 = .ok (.fin 0) := by
  obtain ⟨hl, F⟩ := (accepted angle_limits atm _ (rollingState_nodup q)).2 st h
  have ho : ∀ p ∈ stateAllParams, p ≠ "airspeed" → p ≠ "density" → ∀ x : ℝ,
      (p, Arg.scalar (.num (.fin x))) ∈ rollingState q → st.aero.entry p 0 = .ok (.fin x) := by
    intro p hp h1 h2 x hx
    unfold Store.entry
    rw [(F.other p hp h1 h2).1 _ ⟨_, hx, rfl⟩]
    rfl
  refine ⟨(hl _ (List.mem_cons_self ..)).symm, ?_, ?_,
    ho _ (by decide) (by decide) (by decide) _ (by simp [rollingState]),
    ho _ (by decide) (by decide) (by decide) _ (by simp [rollingState]),
    ho _ (by decide) (by decide) (by decide) _ (by simp [rollingState]),
    ho _ (by decide) (by decide) (by decide) _ (by simp [rollingState]),
    ho _ (by decide) (by decide) (by decide) _ (by simp [rollingState])⟩
  · unfold Store.entry
    rw [F.airspeed _ ⟨.scalar (.num (.fin 10)), by simp [rollingState], rfl⟩
      ⟨.scalar (.num (.fin 10)), by simp [rollingState], by simp [Arg.toList, Val.isNum]⟩]
    rfl
  · unfold Store.entry
    rw [F.density _ ⟨.scalar (.num (.fin 1)), by simp [rollingState], rfl⟩
      ⟨.scalar (.num (.fin 1)), by simp [rollingState], by simp [Arg.toList, Val.isNum]⟩]
    rfl

/-- The project with the flat wing and a roll rate. -/
noncomputable def rollingProject (q : ℝ) : Project :=
  { exampleProject rectFile with
    state := fun b => if b = "cruise.json" then some (rollingState q) else none }

theorem rolling_native (q : ℝ) :
    NativeProject exampleWorld (rollingProject q) exampleSettings "plane.json" "cruise.json" :=
  ⟨rfl, by decide, by simp [exampleSettings], rfl, by simp [exampleSettings], by
    show (if "cruise.json" = "__cpacs" then "__CPACS" else "cruise.json") ≠ "__CPACS"
    decide⟩

theorem rolling_ok (q : ℝ) : ProjectOk exampleWorld (rollingProject q) exampleSettings "plane.json"
    "cruise.json" rectFile (rollingState q) where
  native := rolling_native q
  settings := example_settings
  panelsC := by simp [IfGiven, exampleSettings]
  panelsS := by simp [IfGiven, exampleSettings]
  aircraft := rfl
  file := rectFile_ok
  layout := rectFile_layout
  segment := ⟨_, List.mem_singleton.2 rfl, by simp⟩
  state := rfl
  states := ⟨rollingState_nodup _, rollingState_acceptable _ _, by simp [rollingState],
    _, List.mem_cons_self .., by simp [Arg.toList]⟩
  deformation := by simp [DeformationOk, IfGiven, exampleSettings]

theorem rolling_finishes (q : ℝ) :
    ∃ out, runProject exampleWorld (rollingProject q) = .ok out := by
  obtain ⟨x, hx, -, -, hst⟩ := (rolling_ok q).load
  obtain ⟨f, sd, h1, h2, -, -, h5, hr⟩ := loaded_reads (rolling_native q) hx
  have h1' : some rectFile = some f := h1
  cases h1'
  obtain ⟨w, hw, hwr⟩ := forall₂_singleton_left hr.wings
  obtain ⟨s, hs, hsr⟩ := forall₂_singleton_left hwr.segments
  have hstrips : s.strips = initStrips := by
    have hw' : x.aircraft.wings.map LoadedWing.toP = [w] := hw
    have : w ∈ x.aircraft.wings.map LoadedWing.toP := by rw [hw']; simp
    obtain ⟨w0, -, rfl⟩ := List.mem_map.1 this
    have : s ∈ w0.segments.map LoadedSegment.toP := by
      have hs' : w0.segments.map LoadedSegment.toP = [s] := hs
      rw [hs']; simp
    obtain ⟨s0, -, rfl⟩ := List.mem_map.1 this
    rfl
  have hac : x.aircraft.toP = onePanelOf s.span s.interp s.dist := by
    have e1 : x.aircraft.toP = ⟨[w]⟩ := by
      rw [← hw]
    have e2 : w = ⟨"W", 2, [s], []⟩ := by
      have a1 := hwr.uid
      have a2 := hwr.symmetry
      have a3 := hwr.controls
      cases w
      simp only at a1 a2 a3 hs
      subst a1 a2 a3 hs
      rfl
    have e3 : s = ⟨"S", s.span, some 1, some 1, s.interp, s.dist, initStrips⟩ := by
      have a1 := hsr.uid
      have a2 := hsr.numC
      have a3 := hsr.numS
      cases s
      simp only at a1 a2 a3 hstrips
      subst a1 a2 a3 hstrips
      rfl
    rw [e1, e2]
    unfold onePanelOf
    rw [← e3]
  obtain ⟨n1, q1, q2, q3, q4, q5, q6, q7⟩ := rollingState_entries hst
  obtain ⟨g1, g2, -⟩ := hr.geometry 0 _ rfl 0 _ rfl
  obtain ⟨u1, u2⟩ := hr.undeformed (by simp [IfGiven, exampleSettings]) 0 0
  have hgeo : (x.env exampleWorld (rollingProject q)).lat.geo 0 0 = flatGeo := by
    have hv := noSpan_given g1 (show AllGiven _ flatGeo.vertices from ⟨rfl, rfl, rfl, rfl⟩)
    generalize (x.env exampleWorld (rollingProject q)).lat.geo 0 0 = g at *
    cases g
    simp only at hv g2 u1 u2
    subst hv g2 u1 u2
    rfl
  have heps : 0 < (x.env exampleWorld (rollingProject q)).eps := by
    obtain ⟨y, hy, -, h0⟩ := hr.epsilon
    rw [hy, h0 (by simp [exampleSettings])]
    norm_num
  obtain ⟨out, hout⟩ := onePanel_finishes (env := x.env exampleWorld (rollingProject q))
    exactDgesv_lapack heps (hr.rotate.2 (by simp [exampleSettings])) hgeo (by
      intro m k eta xsi
      show (match x.aircraft.wings[m]?.bind fun w => w.segments[k]? with
        | some s => exampleWorld.camber s.airfoilInner s.airfoilOuter eta xsi
        | none => 0) = (0 : ℝ)
      split <;> rfl) s.span s.interp s.dist (st := x.state) (by rw [n1]; norm_num)
    (fun _ => ⟨10, 1, 5, 0, q, 0, 0⟩) (by
      intro i hi
      obtain rfl : i = 0 := by omega
      exact ⟨rfl, q1, q2, q3, q4, q5, q6, q7⟩)
  refine ⟨out, ?_⟩
  unfold runProject
  rw [hx]
  simp only
  rw [hac]
  exact hout

theorem rectFile_symmetric (turned : Prop) :
    rectFile.Symmetric exampleWorld "/home" turned fun _ => none := by
  refine ⟨fun w hw => .inl ?_, rfl, rfl⟩
  simp only [rectFile, List.mem_singleton] at hw
  subst hw
  exact ⟨rfl, (fun k hk => by cases hk), fun _ => rfl, fun _ s _ => .inl fun _ _ _ _ _ _ => rfl⟩

/-- Example for C141: the flat wing in symmetric flight has no rolling moment and no side force. -/
example : ∃ out, runProject exampleWorld (exampleProject rectFile) = .ok out ∧
    out.value "Mx" 0 = some (.fin 0) ∧ out.value "Cy" 0 = some (.fin 0) := by
  obtain ⟨out, h⟩ := rect_finishes
  obtain ⟨st, h1, h2⟩ := C141_symmetric_flight_partial exampleWorld exactDgesv_lapack
    (exampleProject rectFile) exampleSettings "plane.json" "cruise.json" (example_native _)
    (by simp [IfGiven, exampleSettings]) rectFile rfl (fun _ => none)
    (.inl ⟨by simp [IfGiven, exampleSettings], fun _ => rfl⟩) (rectFile_symmetric _) _ rfl (oneState_nodup _ _ _ _) out h
  obtain ⟨n1, -⟩ := oneState_entries h1
  obtain ⟨g1, g2⟩ := h2 0 (by omega) (by
    intro p hp l hl v hv
    simp only [List.mem_cons, List.not_mem_nil, or_false] at hp
    rcases hp with rfl | rfl | rfl <;>
    · simp only [oneState, List.mem_cons, Prod.mk.injEq, List.not_mem_nil, or_false, String.reduceEq,
        false_and, or_self, false_or, true_and] at hl
      subst hl
      simpa [Arg.toList, eq_comm] using hv)
  exact ⟨out, h, g1 "Mx" (by simp), g2 (by norm_num [rectFile]) (by norm_num [rectFile])
    (by norm_num [rectFile]) "Cy" (by simp)⟩

/-- Example for C141: rolling the flat wing to the left and to the right gives opposite rolling moments. -/
example : ∃ out out' x, runProject exampleWorld (rollingProject 1) = .ok out ∧
    runProject exampleWorld (rollingProject (-1)) = .ok out' ∧ out.value "Mx" 0 = some x ∧
    out'.value "Mx" 0 = some x.neg := by
  obtain ⟨out, h⟩ := rolling_finishes 1
  obtain ⟨out', st, h', h1, h2⟩ := C141_mirrored_states_partial exampleWorld exactDgesv_lapack
    (rollingProject 1) (rollingProject (-1)) exampleSettings "plane.json" "cruise.json" (rolling_native 1)
    ⟨rfl, rfl, rfl, rfl, rfl⟩ (by simp [IfGiven, exampleSettings]) rectFile rfl (fun _ => none)
    (.inl ⟨by simp [IfGiven, exampleSettings], fun _ => rfl⟩) (rectFile_symmetric _) _ rfl (rollingState_nodup _) (by
      show some (rollingState (-1)) = _
      simp [rollingState, reversedState, Arg.opposite, Val.opposite, Flt.neg]) out h
  obtain ⟨n1, -⟩ := rollingState_entries h1
  obtain ⟨x, x1, x2⟩ := (h2 0 (by omega)).2 "Mx" (by simp)
  exact ⟨out, out', x, h, h', x1, x2⟩

end Verif
