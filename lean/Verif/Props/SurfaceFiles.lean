import Verif.Props.SurfaceCases
import Verif.Props.WingOrderProject
import Verif.Props.NoLoads

/-!
# Property C138: only the surfaces in the aircraft file matter

C125 to C128 for projects: aircraft files that describe the same surfaces in different ways give the
same results.
-/

set_option linter.unnecessarySeqFocus false

namespace Verif

open V3

/-! ## Specification -/

/-- The second project differs from the first in its aircraft files only. -/
structure Project.OtherAircraft (P P2 : Project) : Prop where
  base : P2.base = P.base
  root : P2.root = P.root
  settings : P2.settings = P.settings
  state : P2.state = P.state

/-- The corners given in an entry. -/
def FileSegment.corners (s : FileSegment) : Corners (V3 ℝ) :=
  ⟨s.vertices.a.getD 0, s.vertices.b.getD 0, s.vertices.c.getD 0, s.vertices.d.getD 0⟩

/-- Length of the leading edge in the y-z plane. -/
noncomputable def FileSegment.width (s : FileSegment) : ℝ :=
  Real.sqrt ((s.corners.b.y - s.corners.a.y) ^ 2 + (s.corners.b.z - s.corners.a.z) ^ 2)

/-- Number of spanwise panels: as given or in proportion to the width. -/
noncomputable def FileWing.panelsS (autoS : ℤ) (w : FileWing) (s : FileSegment) : Option ℤ :=
  match s.numS with
  | some n => some n
  | none => if (w.segments.map FileSegment.width).sum = 0 then none else
    some ⌈s.width / (w.segments.map FileSegment.width).sum * autoS⌉

/-- The surfaces of an entry of a wing: each segment and, with a symmetry flag, its mirror image. -/
noncomputable def FileWing.surfaces (autoC autoS : ℤ) (w : FileWing) : List Surface :=
  w.segments.flatMap fun s =>
    ⟨s.corners.bilinear, w.panelsS autoS s, s.numC.getD autoC⟩ ::
    if w.symmetry = 0 then [] else
      [⟨fun eta xsi => reflect (symNormal w.symmetry) (s.corners.bilinear eta xsi),
        w.panelsS autoS s, s.numC.getD autoC⟩]

/-- An entry of a wing without controls and with airfoils that have no camber. -/
structure FileWing.Plain (W : World) (root : String) (w : FileWing) : Prop where
  controls : w.controls = []
  camber : ∀ s ∈ w.segments, ∀ inner outer, AirfoilAt root s.airfoilInner inner →
    AirfoilAt root s.airfoilOuter outer → ∀ eta xsi, W.camber inner outer eta xsi = 0

/-- Two files that differ in the description of plain wings only: the surfaces are the same. -/
structure FileAircraft.SameSurfaces (W : World) (root : String) (autoC autoS : ℤ)
    (f f2 : FileAircraft) : Prop where
  refs : f2.refs = f.refs
  wings : ∃ plain plain2 rest, f.wings.Perm (plain ++ rest) ∧ f2.wings.Perm (plain2 ++ rest) ∧
    (∀ w ∈ plain, w.Plain W root) ∧ (∀ w ∈ plain2, w.Plain W root) ∧
    ∃ m, (plain2.flatMap (FileWing.surfaces autoC autoS)).Perm m ∧
      List.Forall₂ Surface.Same (plain.flatMap (FileWing.surfaces autoC autoS)) m

/-! ## Loaded wings -/

/-- What an analysis reads of a wing that is not deformed. -/
noncomputable def LoadedWing.data (W : World) (w : LoadedWing) : WingData :=
  ⟨w.toP, fun k => ⟨(w.segments[k]?.map fun s => s.gen.vertices).getD noCorners, w.symmetry, none, none⟩,
    fun k eta xsi => match w.segments[k]? with
      | some s => W.camber s.airfoilInner s.airfoilOuter eta xsi
      | none => 0⟩

theorem undeformed_wingData (W : World) (ac : LoadedAircraft) :
    wingData (ac.lattice W ac.undeformed) ac.toP = ac.wings.map (LoadedWing.data W) := by
  rw [loaded_wingData]
  apply List.map_congr_left
  intro w hw
  unfold LoadedWing.data LoadedWing.geo
  simp only [undeformed_lookup hw, Option.bind_some]
  rfl

theorem FileSegment.corners_given {s : FileSegment} {v : Corners (V3 ℝ)} (h : AllGiven s.vertices v) :
    s.corners = v := by
  obtain ⟨h1, h2, h3, h4⟩ := h
  unfold FileSegment.corners
  rw [h1, h2, h3, h4]
  rfl

theorem foldl_abs {l : List (PSegment ℝ)} (h : ∀ s ∈ l, 0 ≤ s.span) (c : ℝ) :
    l.foldl (fun acc s => acc + |s.span|) c = c + (l.map PSegment.span).sum := by
  induction l generalizing c with
  | nil => simp
  | cons s l ih =>
    rw [List.foldl_cons, ih (fun t ht => h t (List.mem_cons_of_mem _ ht)), List.map_cons, List.sum_cons,
      abs_of_nonneg (h s (by simp))]
    ring

theorem flatMap_enum {α β γ : Type} {R : β → α → Prop} (F : ℕ × α → List γ) (G : β → List γ) :
    ∀ {es : List β} {l : List α} (n : ℕ), List.Forall₂ R es l →
      (∀ i e a, es[i]? = some e → l[i]? = some a → F (n + i, a) = G e) →
      (enumFrom' n l).flatMap F = es.flatMap G
  | [], [], _, _, _ => rfl
  | e :: es, a :: l, n, .cons _ h, hF => by
    have h0 := hF 0 e a rfl rfl
    have ih := flatMap_enum F G (n + 1) h (by
      intro i e' a' h1 h2
      have := hF (i + 1) e' a' (by simpa using h1) (by simpa using h2)
      rw [← this, show n + 1 + i = n + (i + 1) by omega])
    unfold enumFrom'
    rw [List.flatMap_cons, List.flatMap_cons, ih, ← h0]
    rfl

theorem forall₂_at {α β : Type} {R : α → β → Prop} {l : List α} {l' : List β} (h : List.Forall₂ R l l')
    {i : ℕ} {a : α} {b : β} (ha : l[i]? = some a) (hb : l'[i]? = some b) : R a b := by
  induction h generalizing i with
  | nil => simp at ha
  | cons hx _ ih =>
    cases i with
    | zero =>
      simp only [List.getElem?_cons_zero, Option.some.injEq] at ha hb
      subst ha hb
      exact hx
    | succ i => exact ih (by simpa using ha) (by simpa using hb)

theorem loaded_width {root : String} {airfoilOk : String → Bool} {e : FileWing} {w : LoadedWing}
    (hl : loadWing root airfoilOk e = .ok w) {s : FileSegment} {s' : LoadedSegment}
    (hs' : s' ∈ w.segments) (h : SegmentFrom root s s') :
    s'.toP.span = s.width := by
  obtain ⟨h0, h1⟩ := loadedWing_spans hl s' hs'
  unfold FileSegment.width
  rw [FileSegment.corners_given h.vertices, ← h1, Real.sqrt_sq h0]
  rfl

theorem loaded_widths {root : String} {airfoilOk : String → Bool} {e : FileWing} {w : LoadedWing}
    (hl : loadWing root airfoilOk e = .ok w) :
    w.toP.span = (e.segments.map FileSegment.width).sum := by
  have hf := (loadWing_from hl).1.segments
  have key : ∀ {l : List FileSegment} {l' : List LoadedSegment}, (∀ s ∈ l', s ∈ w.segments) →
      List.Forall₂ (SegmentFrom root) l l' →
      (l'.map LoadedSegment.toP).map PSegment.span = l.map FileSegment.width := by
    intro l l' hm h
    induction h with
    | nil => rfl
    | cons hx _ ih =>
      rw [List.map_cons, List.map_cons, List.map_cons, loaded_width hl (hm _ (by simp)) hx,
        ih fun s hs => hm s (List.mem_cons_of_mem _ hs)]
  unfold PWing.span
  rw [foldl_abs, zero_add]
  · rw [← key (fun _ h => h) hf]
    rfl
  · intro s hs
    obtain ⟨s0, hs0, rfl⟩ := List.mem_map.1 hs
    exact (loadedWing_spans hl s0 hs0).1

theorem loaded_surfaces (W : World) {root : String} {airfoilOk : String → Bool} {e : FileWing}
    {w : LoadedWing} (hl : loadWing root airfoilOk e = .ok w) (autoC autoS : ℤ) :
    (w.data W).surfaces autoC autoS = e.surfaces autoC autoS := by
  have hwf := (loadWing_from hl).1
  have hf : List.Forall₂ (fun s p => ∃ s', s' ∈ w.segments ∧ SegmentFrom root s s' ∧ p = s'.toP)
      e.segments w.toP.segments := by
    show List.Forall₂ _ e.segments (w.segments.map LoadedSegment.toP)
    rw [List.forall₂_map_right_iff]
    rw [List.forall₂_iff_get]
    refine ⟨hwf.segments.length_eq, fun i h1 h2 => ?_⟩
    exact ⟨_, List.get_mem _ _, hwf.segments.get h1 h2, rfl⟩
  refine flatMap_enum _ _ 0 hf ?_
  intro i s p hs hp
  have hp' : (w.segments.map LoadedSegment.toP)[i]? = some p := hp
  rw [List.getElem?_map] at hp'
  obtain ⟨s', hs', rfl⟩ := Option.map_eq_some_iff.1 hp'
  have hsf := forall₂_at hwf.segments hs hs'
  have hpan : spanwisePanels autoS w.toP s'.toP = e.panelsS autoS s := by
    unfold spanwisePanels FileWing.panelsS
    rw [loaded_widths hl, loaded_width hl (List.mem_of_getElem? hs') hsf]
    show (match s'.numS with | some n => some n | none => _) = _
    rw [hsf.numS]
  unfold segmentSurfaces
  have hnc : s'.toP.numC = s.numC := hsf.numC
  have hsym : w.toP.symmetry = e.symmetry := hwf.symmetry
  have hgeo : (w.data W).geo (0 + i) = ⟨s.corners, w.symmetry, none, none⟩ := by
    unfold LoadedWing.data
    simp only [Nat.zero_add, hs', Option.map_some, Option.getD_some]
    rw [FileSegment.corners_given hsf.vertices]
  simp only [hgeo, hnc]
  rw [show (w.data W).wing = w.toP from rfl, hsym, hpan]
  rfl

theorem loaded_plain (W : World) {root : String} {airfoilOk : String → Bool} {e : FileWing}
    {w : LoadedWing} (hl : loadWing root airfoilOk e = .ok w) (hp : e.Plain W root)
    (hok : WingEntryOk root airfoilOk e) : (w.data W).Plain := by
  have hwf := (loadWing_from hl).1
  refine ⟨?_, ?_, ?_, fun _ => rfl⟩
  · show w.toP.controls = []
    rw [hwf.controls_toP]
    unfold FileWing.requested
    rw [hp.controls]
    rfl
  · intro k eta xsi
    show (match w.segments[k]? with
      | some s => W.camber s.airfoilInner s.airfoilOuter eta xsi
      | none => 0) = (0 : ℝ)
    cases h : w.segments[k]? with
    | none => rfl
    | some s' =>
      obtain ⟨s, hs, hsf⟩ := forall₂_mem_right hwf.segments (List.mem_of_getElem? h)
      exact hp.camber s hs _ _ hsf.inner hsf.outer eta xsi
  · show w.symmetry = 0 ∨ SymFlag w.symmetry
    rw [hwf.symmetry]
    have := hok.symmetry
    unfold SymFlag
    omega

/-! ## Loaded aircraft -/

theorem loadAircraft_wings {root : String} {airfoilOk : String → Bool} {f : FileAircraft}
    {ac : LoadedAircraft} (h : loadAircraft root airfoilOk f = .ok ac) :
    mapE (loadWing root airfoilOk) f.wings = .ok ac.wings := by
  unfold loadAircraft at h
  cases h1 : checkNames [] (f.wings.map (·.uid)) with
  | error e => simp [h1] at h
  | ok u =>
  simp only [h1] at h
  split_ifs at h with href
  cases h2 : mapE (loadWing root airfoilOk) f.wings with
  | error e => simp [h2] at h
  | ok ws =>
  simp only [h2, Except.ok.injEq] at h
  rw [← h]

theorem loaded_names {root : String} {airfoilOk : String → Bool} {f : FileAircraft}
    {ac : LoadedAircraft} (h : loadAircraft root airfoilOk f = .ok ac) :
    (ac.wings.map (·.uid)).Nodup := by
  obtain ⟨-, -, hw, -⟩ := C92_content _ _ _ _ h
  have e : ac.wings.map (·.uid) = f.wings.map (·.uid) := by
    generalize ac.wings = l' at hw
    generalize f.wings = l at hw
    induction hw with
    | nil => rfl
    | cons a _ ih => rw [List.map_cons, List.map_cons, ih, a.uid]
  rw [e]
  exact ((C92_accepted_iff _ _ _).1 ⟨_, h⟩).names.2

theorem deflection_plain {ac : LoadedAircraft} {plain rest : List LoadedWing}
    (hp : ac.wings.Perm (plain ++ rest)) (hn : (ac.wings.map (·.uid)).Nodup)
    (hc : ∀ w ∈ plain, w.controls = []) (wing control : String) :
    ac.deflection wing control = match rest.find? fun w => w.uid == wing with
      | none => (none, none)
      | some w =>
        match w.controls.find? fun c => c.uid == control with
        | none => (none, none)
        | some c => (c.data.deflection.angle, c.data.deflectionMirror.angle) := by
  unfold LoadedAircraft.deflection
  cases h : rest.find? fun w => w.uid == wing with
  | some w =>
    have h1 := List.find?_some h
    simp only [beq_iff_eq] at h1
    subst h1
    rw [find_uid hn (hp.mem_iff.2 (List.mem_append_right _ (List.mem_of_find?_eq_some h)))]
    rfl
  | none =>
    cases h2 : ac.wings.find? fun w => w.uid == wing with
    | none => rfl
    | some w =>
      have hm := hp.mem_iff.1 (List.mem_of_find?_eq_some h2)
      rcases List.mem_append.1 hm with hm | hm
      · simp only [hc w hm]
        rfl
      · rw [List.find?_eq_none] at h
        exact absurd (List.find?_some h2) (h w hm)

theorem loaded_same {W : World} {root : String} {f f2 : FileAircraft} {ac ac2 : LoadedAircraft}
    (h : loadAircraft root W.airfoilOk f = .ok ac) (h2 : loadAircraft root W.airfoilOk f2 = .ok ac2)
    {autoC autoS : ℤ} (hs : f.SameSurfaces W root autoC autoS f2) :
    SameSurfaces autoC autoS (ac.lattice W ac.undeformed) (ac2.lattice W ac2.undeformed) ac.toP
      ac2.toP := by
  obtain ⟨-, plain, plain2, rest, p1, p2, c1, c2, m, m1, m2⟩ := hs
  have hok := (C92_accepted_iff _ _ _).1 ⟨_, h⟩
  have hok2 := (C92_accepted_iff _ _ _).1 ⟨_, h2⟩
  set g := okOr (loadWing root W.airfoilOk) ⟨"", 0, [], []⟩ with hg
  obtain ⟨l1, e1⟩ := mapE_okOr ⟨"", 0, [], []⟩ (loadAircraft_wings h)
  obtain ⟨l2, e2⟩ := mapE_okOr ⟨"", 0, [], []⟩ (loadAircraft_wings h2)
  rw [← hg] at l1 e1 l2 e2
  have q1 : ac.wings.Perm (plain.map g ++ rest.map g) := by
    rw [e1, ← List.map_append]
    exact p1.map _
  have q2 : ac2.wings.Perm (plain2.map g ++ rest.map g) := by
    rw [e2, ← List.map_append]
    exact p2.map _
  have a1 : ∀ w ∈ plain, loadWing root W.airfoilOk w = .ok (g w) ∧ WingEntryOk root W.airfoilOk w :=
    fun w hw => have hm := p1.mem_iff.2 (List.mem_append_left _ hw); ⟨l1 w hm, hok.wings w hm⟩
  have a2 : ∀ w ∈ plain2, loadWing root W.airfoilOk w = .ok (g w) ∧ WingEntryOk root W.airfoilOk w :=
    fun w hw => have hm := p2.mem_iff.2 (List.mem_append_left _ hw); ⟨l2 w hm, hok2.wings w hm⟩
  have ctl : ∀ {w : FileWing}, w.Plain W root → loadWing root W.airfoilOk w = .ok (g w) →
      (g w).controls = [] := by
    intro w hp hl
    have := (loadWing_from hl).1.controls.length_eq
    rw [hp.controls] at this
    exact List.eq_nil_of_length_eq_zero this.symm
  have surf : ∀ {l : List FileWing}, (∀ w ∈ l, loadWing root W.airfoilOk w = .ok (g w)) →
      ((l.map g).map (LoadedWing.data W)).flatMap (WingData.surfaces autoC autoS) =
        l.flatMap (FileWing.surfaces autoC autoS) := by
    intro l hl
    induction l with
    | nil => rfl
    | cons w l ih =>
      rw [List.map_cons, List.map_cons, List.flatMap_cons, List.flatMap_cons,
        ih fun x hx => hl x (List.mem_cons_of_mem _ hx), loaded_surfaces W (hl w (by simp))]
  refine ⟨?_, (plain.map g).map (LoadedWing.data W), (plain2.map g).map (LoadedWing.data W),
    (rest.map g).map (LoadedWing.data W), ?_, ?_, ?_, ?_, m, ?_, ?_⟩
  · show ac2.deflection = ac.deflection
    funext wing control
    rw [deflection_plain q1 (loaded_names h), deflection_plain q2 (loaded_names h2)]
    · intro w hw
      obtain ⟨e, he, rfl⟩ := List.mem_map.1 hw
      exact ctl (c2 e he) (a2 e he).1
    · intro w hw
      obtain ⟨e, he, rfl⟩ := List.mem_map.1 hw
      exact ctl (c1 e he) (a1 e he).1
  · rw [undeformed_wingData, ← List.map_append]
    exact q1.map _
  · rw [undeformed_wingData, ← List.map_append]
    exact q2.map _
  · intro x hx
    obtain ⟨w, hw, rfl⟩ := List.mem_map.1 hx
    obtain ⟨e, he, rfl⟩ := List.mem_map.1 hw
    exact loaded_plain W (a1 e he).1 (c1 e he) (a1 e he).2
  · intro x hx
    obtain ⟨w, hw, rfl⟩ := List.mem_map.1 hx
    obtain ⟨e, he, rfl⟩ := List.mem_map.1 hw
    exact loaded_plain W (a2 e he).1 (c2 e he) (a2 e he).2
  · rw [surf fun w hw => (a2 w hw).1]
    exact m1
  · rw [surf fun w hw => (a1 w hw).1]
    exact m2

theorem loaded_unpanelled (ac : LoadedAircraft) : ac.toP.Unpanelled := by
  intro w hw s hs
  obtain ⟨w0, -, rfl⟩ := List.mem_map.1 hw
  obtain ⟨s0, -, rfl⟩ := List.mem_map.1 hs
  rfl

theorem loaded_numC {root : String} {airfoilOk : String → Bool} {f : FileAircraft}
    {ac : LoadedAircraft} (h : loadAircraft root airfoilOk f = .ok ac) {autoC : ℤ} (hC : 0 ≤ autoC) :
    ac.toP.GivenNumC autoC := by
  have hfile := (C92_accepted_iff _ _ _).1 ⟨_, h⟩
  obtain ⟨-, -, hw, -⟩ := C92_content _ _ _ _ h
  refine ⟨hC, ?_⟩
  intro w hw'
  obtain ⟨w0, hw0, rfl⟩ := List.mem_map.1 hw'
  obtain ⟨e, he, hwf⟩ := forall₂_mem_right hw hw0
  constructor
  · intro s' hs' n hn
    obtain ⟨s0, hs0, rfl⟩ := List.mem_map.1 hs'
    obtain ⟨es, hes, hsf⟩ := forall₂_mem_right hwf.segments hs0
    exact (((hfile.wings e he).segments es hes).numC n (by rw [← hsf.numC]; exact hn)).le
  · intro c hc n hn
    rw [hwf.controls_toP] at hc
    obtain ⟨c0, hc0, rfl⟩ := List.mem_map.1 hc
    exact (((hfile.wings e he).controls c0 hc0).2.panels n hn).le

/-! ## Projects -/

theorem FileAircraft.SameSurfaces.symm {W : World} {root : String} {autoC autoS : ℤ} {f f2 : FileAircraft}
    (h : f.SameSurfaces W root autoC autoS f2) : f2.SameSurfaces W root autoC autoS f := by
  obtain ⟨hr, p, p2, r, h1, h2, h3, h4, m, h5, h6⟩ := h
  have h7 : List.Forall₂ Surface.Same m (p.flatMap (FileWing.surfaces autoC autoS)) :=
    h6.flip.imp fun _ _ h => Surface.Same.symm h
  obtain ⟨m', h8, h9⟩ := List.perm_comp_forall₂ h5 h7
  exact ⟨hr.symm, p2, p, r, h2, h1, h4, h3, m', h9.symm, h8⟩

theorem no_deformation {suffix : String → String} {d : PyDict} (hd : (d.map Prod.fst).Nodup)
    {s : SettingsObj} (h : loadSettings suffix (.dict d) = .ok s)
    (hdef : IfGiven d "deformation" PyVal.IsEmpty) (P : Project) (ac : LoadedAircraft) :
    loadDeformationFrom P s ac = .ok ac.undeformed := by
  obtain ⟨k1, k2, -⟩ := C98_content suffix d hd s h
  unfold loadDeformationFrom
  by_cases hg : ∃ v, ("deformation", v) ∈ d
  · obtain ⟨v, hv⟩ := hg
    rw [k1 _ _ (by decide) hv]
    simp only [(truthy_false_iff v).2 (hdef v hv), Bool.false_eq_true, if_false]
  · push Not at hg
    rw [k2 ("deformation", .none) (by simp [settingsLeftOut]) hg]
    rfl

theorem surfaces_run {W : World} (hW : Lapack W.dgesv) {P P2 : Project} {d : PyDict} {a b : String}
    (hn : NativeProject W P d a b) (hP : P.OtherAircraft P2)
    (hdef : IfGiven d "deformation" PyVal.IsEmpty)
    (hC : IfGiven d "vlm_autopanels_c" PyVal.IsPositive) {f f2 : FileAircraft}
    (hf : P.aircraft a = some f) (hf2 : P2.aircraft a = some f2)
    (hok : FileOk P.root W.airfoilOk f2)
    (hs : ∀ autoC autoS, SettingIs d "vlm_autopanels_c" PyVal.int 4 autoC →
      SettingIs d "vlm_autopanels_s" PyVal.int 4 autoS → f.SameSurfaces W P.root autoC autoS f2)
    {out : RunOut} (h : runProject W P = .ok out) :
    ∃ out', runProject W P2 = .ok out' ∧ ∀ x, loadProject W P = .ok x →
      (∃ x2, loadProject W P2 = .ok x2 ∧ x2.state = x.state) ∧
      ∀ i < x.state.num, ∀ c ∈ runColumns, out'.value c.1 i = out.value c.1 i := by
  have hn2 : NativeProject W P2 d a b :=
    ⟨hP.settings.trans hn.settings, hn.keys, hn.aircraft, hn.json, hn.state, hn.notCpacs⟩
  unfold runProject at h
  cases hx : loadProject W P with
  | error e => rw [hx] at h; cases h
  | ok x =>
  rw [hx] at h
  simp only at h
  have hx' := hx
  cases hset : loadSettings W.suffix (.dict d) with
  | error e =>
    unfold loadProject at hx'
    rw [hn.settings, hset] at hx'
    cases hx'
  | ok s =>
  obtain ⟨-, -, -, -, e⟩ := loadProject_native hn hset
  obtain ⟨-, -, -, -, e2⟩ := loadProject_native hn2 hset
  have hl := loaded_aircraft hn hx hf
  obtain ⟨ac2, hl2⟩ := (C92_accepted_iff _ _ _).2 hok
  rw [e, hf] at hx'
  simp only [hl] at hx'
  cases h3 : P.state b with
  | none => rw [h3] at hx'; cases hx'
  | some sd =>
  simp only [h3] at hx'
  cases h4 : updateFromDict W.atm Store.fresh sd with
  | error e => rw [h4] at hx'; cases hx'
  | ok st =>
  simp only [h4, no_deformation hn.keys hset hdef, Except.ok.injEq] at hx'
  have hx2 : loadProject W P2 = .ok ⟨s, false, ac2, st, ac2.undeformed⟩ := by
    rw [e2, hf2]
    simp only [hP.root, hl2, hP.state, h3, h4, no_deformation hn.keys hset hdef]
  obtain ⟨f', sd', h1', -, -, -, -, hr⟩ := loaded_reads hn hx
  have hsame := hs _ _ hr.panelsC hr.panelsS
  have hC' : 0 ≤ (x.env W P).autoC := by
    obtain ⟨k1, k2, -⟩ := C98_content W.suffix d hn.keys s hset
    rw [← hx']
    have : 1 ≤ s.int "vlm_autopanels_c" := int_positive (fun v hv => k1 _ _ (by decide) hv)
      (k2 ("vlm_autopanels_c", .int 4) (by simp [settingsLeftOut])) hC
    show 0 ≤ s.int "vlm_autopanels_c"
    omega
  obtain ⟨out', g1, g2⟩ := C125_surfaces (x.env W P) hW (ac2.lattice W ac2.undeformed) x.aircraft.toP
    ac2.toP (loaded_unpanelled _) (loaded_unpanelled _) (loaded_numC hl hC') (loaded_numC hl2 hC') (by
      have := loaded_same hl hl2 hsame
      show SameSurfaces _ _ (x.aircraft.lattice W x.defs) _ _ _
      rw [show x.defs = x.aircraft.undeformed by rw [← hx']]
      exact this) x.state out h
  refine ⟨out', ?_, fun y hy => ?_⟩
  · unfold runProject
    rw [hx2]
    simp only
    rw [← g1]
    have hrefs : ac2.refs = x.aircraft.refs := by
      rw [(C92_content _ _ _ _ hl2).2.1, (C92_content _ _ _ _ hl).2.1, hsame.refs]
    rw [show st = x.state by rw [← hx']]
    unfold Loaded.env
    simp only [hP.base, hrefs]
    rw [← hx']
  · cases hy
    exact ⟨⟨_, hx2, by rw [← hx']⟩, g2⟩

/-- **C138**: if two aircraft files describe the same surfaces — up to the side from which a segment is
described, the choice between symmetry flag and second wing, the grouping of segments to wings and all
names — then both projects can be run or none, and all forces, moments and coefficients are the same. -/
theorem C138_surfaces (W : World) (hW : Lapack W.dgesv) (P P2 : Project) (d : PyDict) (a b : String)
    (hn : NativeProject W P d a b) (hP : P.OtherAircraft P2)
    (hdef : IfGiven d "deformation" PyVal.IsEmpty)
    (hC : IfGiven d "vlm_autopanels_c" PyVal.IsPositive) (f f2 : FileAircraft)
    (hf : P.aircraft a = some f) (hf2 : P2.aircraft a = some f2)
    (hok : FileOk P.root W.airfoilOk f) (hok2 : FileOk P.root W.airfoilOk f2)
    (hs : ∀ autoC autoS, SettingIs d "vlm_autopanels_c" PyVal.int 4 autoC →
      SettingIs d "vlm_autopanels_s" PyVal.int 4 autoS → f.SameSurfaces W P.root autoC autoS f2) :
    ((∃ out, runProject W P2 = .ok out) ↔ ∃ out, runProject W P = .ok out) ∧
    ∀ out out', runProject W P = .ok out → runProject W P2 = .ok out' →
      ∀ x, loadProject W P = .ok x → ∀ i < x.state.num, ∀ c ∈ runColumns,
        out'.value c.1 i = out.value c.1 i := by
  have hn2 : NativeProject W P2 d a b :=
    ⟨hP.settings.trans hn.settings, hn.keys, hn.aircraft, hn.json, hn.state, hn.notCpacs⟩
  refine ⟨⟨?_, ?_⟩, ?_⟩
  · rintro ⟨out, h⟩
    obtain ⟨out', h', -⟩ := surfaces_run hW hn2
      ⟨hP.base.symm, hP.root.symm, hP.settings.symm, hP.state.symm⟩ hdef hC hf2 hf
      (by rw [hP.root]; exact hok) (fun c s h1 h2 => by rw [hP.root]; exact (hs c s h1 h2).symm) h
    exact ⟨out', h'⟩
  · rintro ⟨out, h⟩
    obtain ⟨out', h', -⟩ := surfaces_run hW hn hP hdef hC hf hf2 hok2 hs h
    exact ⟨out', h'⟩
  · intro out out' h h' x hx
    obtain ⟨out2, h2, hv⟩ := surfaces_run hW hn hP hdef hC hf hf2 hok2 hs h
    rw [h'] at h2
    cases h2
    exact (hv x hx).2

/-! ## Three ways to describe the same surfaces -/

/-- The segment with other corners. -/
def FileSegment.moved (g : V3 ℝ → V3 ℝ) (s : FileSegment) : FileSegment :=
  { s with vertices := ⟨s.vertices.a.map g, s.vertices.b.map g, s.vertices.c.map g, s.vertices.d.map g⟩ }

/-- The segment described from the other side: inner and outer corners exchanged. -/
def FileSegment.turned (s : FileSegment) : FileSegment := { s with vertices := s.vertices.swap }

/-- The mirror image of a wing as a wing of its own: the corners are the reflected ones. -/
noncomputable def FileWing.otherHalf (uid : String) (w : FileWing) : FileWing :=
  ⟨uid, 0, w.segments.map (FileSegment.moved (reflect (symNormal w.symmetry))), []⟩

theorem moved_corners (n : V3 ℝ) (s : FileSegment) :
    (s.moved (reflect n)).corners = s.corners.map' (reflect n) := by
  have key : ∀ o : Option (V3 ℝ), (o.map (reflect n)).getD 0 = reflect n (o.getD 0) := by
    intro o
    cases o with
    | some p => rfl
    | none =>
      show (0 : V3 ℝ) = reflect n 0
      unfold reflect
      refine V3.ext ?_ ?_ ?_ <;> simp [V3.dot]
  unfold FileSegment.corners FileSegment.moved Corners.map'
  simp only [key]

theorem moved_width {k : ℕ} (s : FileSegment) :
    (s.moved (reflect (symNormal k))).width = s.width := by
  unfold FileSegment.width
  rw [moved_corners]
  unfold Corners.map' reflect symNormal
  congr 1
  split_ifs <;> simp [V3.dot] <;> ring

theorem turned_corners (s : FileSegment) : s.turned.corners = s.corners.swap := rfl

theorem turned_width (s : FileSegment) : s.turned.width = s.width := by
  unfold FileSegment.width
  rw [turned_corners]
  unfold Corners.swap
  congr 1
  ring

theorem panelsS_moved (autoS : ℤ) (w : FileWing) (uid : String) (s : FileSegment) :
    (w.otherHalf uid).panelsS autoS (s.moved (reflect (symNormal w.symmetry))) = w.panelsS autoS s := by
  unfold FileWing.panelsS FileWing.otherHalf
  simp only [List.map_map, moved_width]
  rw [show FileSegment.width ∘ FileSegment.moved (reflect (symNormal w.symmetry)) = FileSegment.width from
    funext moved_width]
  rfl

theorem surfaces_halves (autoC autoS : ℤ) (w : FileWing) (uid : String) (hk : w.symmetry ≠ 0) :
    ([{ w with symmetry := 0 }, w.otherHalf uid].flatMap (FileWing.surfaces autoC autoS)).Perm
      (w.surfaces autoC autoS) := by
  have e1 : ({ w with symmetry := 0 } : FileWing).surfaces autoC autoS = w.segments.flatMap fun s =>
      [⟨s.corners.bilinear, w.panelsS autoS s, s.numC.getD autoC⟩] := rfl
  have e2 : (w.otherHalf uid).surfaces autoC autoS = w.segments.flatMap fun s =>
      [⟨fun eta xsi => reflect (symNormal w.symmetry) (s.corners.bilinear eta xsi), w.panelsS autoS s,
        s.numC.getD autoC⟩] := by
    show (w.segments.map _).flatMap _ = _
    rw [List.flatMap_map]
    congr 1
    funext s
    rw [panelsS_moved, moved_corners]
    show [_] = [_]
    congr 2
    funext eta xsi
    exact reflect_bilinear _ _ _ _
  rw [List.flatMap_cons, List.flatMap_cons, List.flatMap_nil, List.append_nil, e1, e2]
  refine (List.flatMap_append_perm _ _ _).trans ?_
  unfold FileWing.surfaces
  simp only [if_neg hk]
  exact .refl _

/-- The second file is accepted if its new parts are. -/
theorem FileOk.parts {root : String} {airfoilOk : String → Bool} {f f2 : FileAircraft}
    (h : FileOk root airfoilOk f) (hr : f2.refs = f.refs) {w : FileWing} {parts rest : List FileWing}
    (h1 : f.wings.Perm (w :: rest)) (h2 : f2.wings.Perm (parts ++ rest))
    (hn : NamesOk (parts.map (·.uid) ++ rest.map (·.uid)))
    (hp : ∀ x ∈ parts, WingEntryOk root airfoilOk x) : FileOk root airfoilOk f2 := by
  refine ⟨?_, by rw [hr]; exact h.area, by rw [hr]; exact h.span, by rw [hr]; exact h.chord, ?_⟩
  · have p := h2.map (·.uid)
    rw [List.map_append] at p
    exact ⟨fun hm => hn.1 (p.mem_iff.1 hm), p.nodup_iff.2 hn.2⟩
  · intro x hx
    rcases List.mem_append.1 (h2.mem_iff.1 hx) with hx | hx
    · exact hp x hx
    · exact h.wings x (h1.mem_iff.2 (List.mem_cons_of_mem _ hx))

theorem fresh_names {f : FileAircraft} {root : String} {airfoilOk : String → Bool}
    (h : FileOk root airfoilOk f) {w : FileWing} {rest : List FileWing} (h1 : f.wings.Perm (w :: rest))
    {uid : String} (h0 : uid ≠ "") (hu : ∀ x ∈ f.wings, x.uid ≠ uid) :
    NamesOk ([w.uid, uid] ++ rest.map (·.uid)) := by
  have p := h1.map (·.uid)
  have n1 := h.names.1
  have n2 := h.names.2
  rw [p.mem_iff] at n1
  rw [p.nodup_iff] at n2
  have hm : uid ∉ f.wings.map (·.uid) := by
    intro hm
    obtain ⟨x, hx, e⟩ := List.mem_map.1 hm
    exact hu x hx e
  rw [p.mem_iff] at hm
  simp only [List.map_cons, List.mem_cons, not_or, List.nodup_cons] at n1 n2 hm
  refine ⟨?_, ?_⟩
  · simp only [List.cons_append, List.nil_append, List.mem_cons, not_or]
    exact ⟨n1.1, h0.symm, n1.2⟩
  · simp only [List.cons_append, List.nil_append, List.nodup_cons, List.mem_cons, not_or]
    exact ⟨⟨fun e => hm.1 e.symm, n2.1⟩, hm.2, n2.2⟩

theorem allGiven_map {v : Corners (Option (V3 ℝ))} {p : Corners (V3 ℝ)} (g : V3 ℝ → V3 ℝ)
    (h : AllGiven v p) : AllGiven ⟨v.a.map g, v.b.map g, v.c.map g, v.d.map g⟩ (p.map' g) := by
  obtain ⟨h1, h2, h3, h4⟩ := h
  unfold AllGiven
  rw [h1, h2, h3, h4]
  exact ⟨rfl, rfl, rfl, rfl⟩

theorem noSpan_reflect (k : ℕ) (p : Corners (V3 ℝ)) :
    NoSpan (p.map' (reflect (symNormal k))) → NoSpan p := by
  unfold NoSpan Corners.map' reflect symNormal
  split_ifs <;> simp [V3.dot] <;> intro h1 h2 <;> constructor <;> linarith

theorem otherHalf_ok {root : String} {airfoilOk : String → Bool} {w : FileWing}
    (h : WingEntryOk root airfoilOk w) (uid : String) : WingEntryOk root airfoilOk (w.otherHalf uid) := by
  refine ⟨by simp [FileWing.otherHalf], ?_, ⟨by simp [FileWing.otherHalf], by simp [FileWing.otherHalf]⟩,
    ?_, by simp [FileWing.otherHalf], ?_⟩
  · have := h.segmentNames
    unfold FileWing.otherHalf
    simp only [List.map_map]
    exact this
  · intro s hs
    obtain ⟨s0, hs0, rfl⟩ := List.mem_map.1 hs
    obtain ⟨⟨p, hp⟩, h2, h3, h4, h5, h6⟩ := h.segments s0 hs0
    exact ⟨⟨_, allGiven_map _ hp⟩, h2, h3, h4, h5, h6⟩
  · intro hne
    have hne' : w.segments ≠ [] := by
      intro e
      apply hne
      unfold FileWing.otherHalf
      rw [e]
      rfl
    obtain ⟨s, hs, p, hp, hns⟩ := h.span hne'
    exact ⟨_, List.mem_map_of_mem hs, _, allGiven_map _ hp, fun hx => hns (noSpan_reflect _ _ hx)⟩

/-- **C138** (symmetry flag): a wing with a symmetry flag can be replaced by the wing without it and a
second wing with reflected corners and any new name: the second file is accepted, both projects can be
run or none, and all results are the same. -/
theorem C138_symmetry_flag (W : World) (hW : Lapack W.dgesv) (P P2 : Project) (d : PyDict) (a b : String)
    (hn : NativeProject W P d a b) (hP : P.OtherAircraft P2)
    (hdef : IfGiven d "deformation" PyVal.IsEmpty)
    (hC : IfGiven d "vlm_autopanels_c" PyVal.IsPositive) (f f2 : FileAircraft)
    (hf : P.aircraft a = some f) (hf2 : P2.aircraft a = some f2)
    (hok : FileOk P.root W.airfoilOk f) (hr : f2.refs = f.refs) (w : FileWing) (rest : List FileWing)
    (uid : String) (hw : w.Plain W P.root) (hk : w.symmetry ≠ 0) (h0 : uid ≠ "")
    (hu : ∀ x ∈ f.wings, x.uid ≠ uid) (h1 : f.wings.Perm (w :: rest))
    (h2 : f2.wings.Perm ({ w with symmetry := 0 } :: w.otherHalf uid :: rest)) :
    FileOk P.root W.airfoilOk f2 ∧
    ((∃ out, runProject W P2 = .ok out) ↔ ∃ out, runProject W P = .ok out) ∧
    ∀ out out', runProject W P = .ok out → runProject W P2 = .ok out' →
      ∀ x, loadProject W P = .ok x → ∀ i < x.state.num, ∀ c ∈ runColumns,
        out'.value c.1 i = out.value c.1 i := by
  have hwok := hok.wings w (h1.mem_iff.2 (by simp))
  have hhalf : WingEntryOk P.root W.airfoilOk { w with symmetry := 0 } :=
    ⟨by simp, hwok.segmentNames, hwok.controlNames, hwok.segments,
      fun c hc => absurd (show c ∈ w.controls from hc) (by rw [hw.controls]; simp), hwok.span⟩
  have hok2 : FileOk P.root W.airfoilOk f2 := by
    refine hok.parts hr (parts := [{ w with symmetry := 0 }, w.otherHalf uid]) h1 h2
      (fresh_names hok h1 h0 hu) ?_
    intro x hx
    simp only [List.mem_cons, List.not_mem_nil, or_false] at hx
    rcases hx with rfl | rfl
    · exact hhalf
    · exact otherHalf_ok hwok uid
  refine ⟨hok2, C138_surfaces W hW P P2 d a b hn hP hdef hC f f2 hf hf2 hok hok2 ?_⟩
  intro autoC autoS _ _
  refine ⟨hr, [w], [{ w with symmetry := 0 }, w.otherHalf uid], rest, h1, h2, ?_, ?_, _,
    (surfaces_halves autoC autoS w uid hk), ?_⟩
  · intro x hx
    rw [List.mem_singleton] at hx
    subst hx
    exact hw
  · intro x hx
    simp only [List.mem_cons, List.not_mem_nil, or_false] at hx
    rcases hx with rfl | rfl
    · exact ⟨hw.controls, hw.camber⟩
    · refine ⟨rfl, ?_⟩
      intro s hs
      obtain ⟨s0, hs0, rfl⟩ := List.mem_map.1 hs
      exact hw.camber s0 hs0
  · rw [List.flatMap_singleton]
    exact forall₂_same_refl _

theorem panelsS_same {autoS : ℤ} {w w2 : FileWing} {s s2 : FileSegment}
    (hw : w2.segments.map FileSegment.width = w.segments.map FileSegment.width) (hn : s2.numS = s.numS)
    (hs : s2.width = s.width) : w2.panelsS autoS s2 = w.panelsS autoS s := by
  unfold FileWing.panelsS
  rw [hw, hn, hs]

/-- **C138** (sides): segments of a plain wing with at most 100 spanwise panels can be described from
either side: the second file is accepted, both projects can be run or none, and all results are the
same. -/
theorem C138_segment_side (W : World) (hW : Lapack W.dgesv) (P P2 : Project) (d : PyDict) (a b : String)
    (hn : NativeProject W P d a b) (hP : P.OtherAircraft P2)
    (hdef : IfGiven d "deformation" PyVal.IsEmpty)
    (hC : IfGiven d "vlm_autopanels_c" PyVal.IsPositive) (f f2 : FileAircraft)
    (hf : P.aircraft a = some f) (hf2 : P2.aircraft a = some f2)
    (hok : FileOk P.root W.airfoilOk f) (hr : f2.refs = f.refs) (w : FileWing) (rest : List FileWing)
    (segs : List FileSegment) (hw : w.Plain W P.root)
    (hseg : List.Forall₂ (fun s s2 => s2 = s ∨ s2 = s.turned ∧ ∀ autoS n,
      SettingIs d "vlm_autopanels_s" PyVal.int 4 autoS → w.panelsS autoS s = some n → n ≤ 100)
      w.segments segs)
    (h1 : f.wings.Perm (w :: rest)) (h2 : f2.wings.Perm ({ w with segments := segs } :: rest)) :
    FileOk P.root W.airfoilOk f2 ∧
    ((∃ out, runProject W P2 = .ok out) ↔ ∃ out, runProject W P = .ok out) ∧
    ∀ out out', runProject W P = .ok out → runProject W P2 = .ok out' →
      ∀ x, loadProject W P = .ok x → ∀ i < x.state.num, ∀ c ∈ runColumns,
        out'.value c.1 i = out.value c.1 i := by
  have hwok := hok.wings w (h1.mem_iff.2 (by simp))
  have names : segs.map (·.uid) = w.segments.map (·.uid) := by
    clear h2
    generalize w.segments = l at hseg
    induction hseg with
    | nil => rfl
    | cons hx _ ih =>
      rw [List.map_cons, List.map_cons, ih]
      rcases hx with rfl | ⟨rfl, -⟩ <;> rfl
  have widths : segs.map FileSegment.width = w.segments.map FileSegment.width := by
    clear h2 names
    generalize w.segments = l at hseg
    induction hseg with
    | nil => rfl
    | cons hx _ ih =>
      rw [List.map_cons, List.map_cons, ih]
      rcases hx with rfl | ⟨rfl, -⟩
      · rfl
      · rw [turned_width]
  have turn : ∀ {v : Corners (Option (V3 ℝ))} {p : Corners (V3 ℝ)}, AllGiven v p →
      AllGiven v.swap p.swap := fun h => ⟨h.2.1, h.1, h.2.2.2, h.2.2.1⟩
  have hw2 : WingEntryOk P.root W.airfoilOk { w with segments := segs } := by
    refine ⟨hwok.symmetry, by rw [names]; exact hwok.segmentNames, hwok.controlNames, ?_, hwok.controls,
      ?_⟩
    · intro s2 hs2
      obtain ⟨s, hs, hx⟩ := forall₂_mem_right hseg hs2
      rcases hx with rfl | ⟨rfl, -⟩
      · exact hwok.segments _ hs
      · obtain ⟨⟨p, hp⟩, k2, k3, k4, k5, k6⟩ := hwok.segments _ hs
        exact ⟨⟨_, turn hp⟩, k2, k3, k4, k5, k6⟩
    · intro hne
      have hne' : w.segments ≠ [] := by
        intro e
        rw [e] at hseg
        cases hseg
        exact hne rfl
      obtain ⟨s, hs, p, hp, hns⟩ := hwok.span hne'
      obtain ⟨s2, hs2, hx⟩ := forall₂_mem_left hseg hs
      rcases hx with rfl | ⟨rfl, -⟩
      · exact ⟨_, hs2, p, hp, hns⟩
      · exact ⟨_, hs2, _, turn hp, fun hx => hns ⟨hx.1.symm, hx.2.symm⟩⟩
  have hok2 : FileOk P.root W.airfoilOk f2 := by
    refine hok.parts hr (parts := [{ w with segments := segs }]) h1 h2 ?_ ?_
    · have p := h1.map (·.uid)
      exact ⟨fun hm => hok.names.1 (p.mem_iff.2 hm), p.nodup_iff.1 hok.names.2⟩
    · intro x hx
      rw [List.mem_singleton] at hx
      subst hx
      exact hw2
  refine ⟨hok2, C138_surfaces W hW P P2 d a b hn hP hdef hC f f2 hf hf2 hok hok2 ?_⟩
  intro autoC autoS _ hS
  refine ⟨hr, [w], [{ w with segments := segs }], rest, h1, h2, ?_, ?_, _, .refl _, ?_⟩
  · intro x hx
    rw [List.mem_singleton] at hx
    subst hx
    exact hw
  · intro x hx
    rw [List.mem_singleton] at hx
    subst hx
    refine ⟨hw.controls, ?_⟩
    intro s2 hs2
    obtain ⟨s, hs, hx⟩ := forall₂_mem_right hseg hs2
    rcases hx with rfl | ⟨rfl, -⟩
    · exact hw.camber _ hs
    · exact hw.camber s hs
  · rw [List.flatMap_singleton, List.flatMap_singleton]
    have key : ∀ {l l2 : List FileSegment}, List.Forall₂ (fun s s2 => s2 = s ∨ s2 = s.turned ∧ ∀ n,
        w.panelsS autoS s = some n → n ≤ 100) l l2 →
        List.Forall₂ Surface.Same
          (l.flatMap fun s => ⟨s.corners.bilinear, w.panelsS autoS s, s.numC.getD autoC⟩ ::
            if w.symmetry = 0 then [] else
              [⟨fun eta xsi => reflect (symNormal w.symmetry) (s.corners.bilinear eta xsi),
                w.panelsS autoS s, s.numC.getD autoC⟩])
          (l2.flatMap fun s => ⟨s.corners.bilinear,
              ({ w with segments := segs } : FileWing).panelsS autoS s, s.numC.getD autoC⟩ ::
            if w.symmetry = 0 then [] else
              [⟨fun eta xsi => reflect (symNormal w.symmetry) (s.corners.bilinear eta xsi),
                ({ w with segments := segs } : FileWing).panelsS autoS s, s.numC.getD autoC⟩]) := by
      intro l l2 hl
      induction hl with
      | nil => exact .nil
      | @cons s s2 l l2 hx _ ih =>
        rw [List.flatMap_cons, List.flatMap_cons]
        refine List.rel_append ?_ ih
        rcases hx with rfl | ⟨rfl, hx⟩
        · rw [panelsS_same (w := w) (w2 := { w with segments := segs }) (s := s2) (s2 := s2) widths rfl rfl]
          exact forall₂_same_refl _
        · rw [panelsS_same (w := w) (w2 := { w with segments := segs }) (s := s) (s2 := s.turned) widths rfl
            (turned_width s), turned_corners]
          have e : s.corners.swap.bilinear = fun eta xsi => s.corners.bilinear (1 - eta) xsi := by
            funext eta xsi
            exact swap_bilinear _ _ _
          rw [e]
          refine .cons (Or.inr ⟨rfl, hx⟩) ?_
          split_ifs
          · exact .nil
          · exact .cons (Or.inr ⟨rfl, hx⟩) .nil
    exact key (hseg.imp fun s s2 hx => hx.imp id fun hx => ⟨hx.1, fun n => hx.2 autoS n hS⟩)

theorem given_panels {autoS : ℤ} {w w2 : FileWing} {s : FileSegment} (h : s.numS ≠ none) :
    w2.panelsS autoS s = w.panelsS autoS s := by
  unfold FileWing.panelsS
  cases hs : s.numS with
  | none => exact absurd hs h
  | some n => rfl

theorem surfaces_part {autoC autoS : ℤ} {w : FileWing} (uid : String) {l : List FileSegment}
    (h : ∀ s ∈ l, s.numS ≠ none) :
    (⟨uid, w.symmetry, l, []⟩ : FileWing).surfaces autoC autoS = l.flatMap fun s =>
      ⟨s.corners.bilinear, w.panelsS autoS s, s.numC.getD autoC⟩ ::
      if w.symmetry = 0 then [] else
        [⟨fun eta xsi => reflect (symNormal w.symmetry) (s.corners.bilinear eta xsi),
          w.panelsS autoS s, s.numC.getD autoC⟩] := by
  unfold FileWing.surfaces
  refine List.flatMap_congr fun s hs => ?_
  rw [given_panels (w := w) (h s hs)]

/-- **C138** (cut): a plain wing with given numbers of spanwise panels can be cut into two wings between
any of its segments, if the leading edge of both parts has an extent: the second file is accepted, both
projects can be run or none, and all results are the same. -/
theorem C138_wing_cut (W : World) (hW : Lapack W.dgesv) (P P2 : Project) (d : PyDict) (a b : String)
    (hn : NativeProject W P d a b) (hP : P.OtherAircraft P2)
    (hdef : IfGiven d "deformation" PyVal.IsEmpty)
    (hC : IfGiven d "vlm_autopanels_c" PyVal.IsPositive) (f f2 : FileAircraft)
    (hf : P.aircraft a = some f) (hf2 : P2.aircraft a = some f2)
    (hok : FileOk P.root W.airfoilOk f) (hr : f2.refs = f.refs) (w : FileWing) (rest : List FileWing)
    (uid : String) (l1 l2 : List FileSegment) (hw : w.Plain W P.root) (h0 : uid ≠ "")
    (hu : ∀ x ∈ f.wings, x.uid ≠ uid) (hl : w.segments = l1 ++ l2)
    (hnum : ∀ s ∈ w.segments, s.numS ≠ none)
    (he1 : ∃ s ∈ l1, ∃ p, AllGiven s.vertices p ∧ ¬ NoSpan p)
    (he2 : ∃ s ∈ l2, ∃ p, AllGiven s.vertices p ∧ ¬ NoSpan p)
    (h1 : f.wings.Perm (w :: rest))
    (h2 : f2.wings.Perm (⟨w.uid, w.symmetry, l1, []⟩ :: ⟨uid, w.symmetry, l2, []⟩ :: rest)) :
    FileOk P.root W.airfoilOk f2 ∧
    ((∃ out, runProject W P2 = .ok out) ↔ ∃ out, runProject W P = .ok out) ∧
    ∀ out out', runProject W P = .ok out → runProject W P2 = .ok out' →
      ∀ x, loadProject W P = .ok x → ∀ i < x.state.num, ∀ c ∈ runColumns,
        out'.value c.1 i = out.value c.1 i := by
  have hwok := hok.wings w (h1.mem_iff.2 (by simp))
  have m1 : ∀ s ∈ l1, s ∈ w.segments := fun s hs => by rw [hl]; exact List.mem_append_left _ hs
  have m2 : ∀ s ∈ l2, s ∈ w.segments := fun s hs => by rw [hl]; exact List.mem_append_right _ hs
  have hnames := hwok.segmentNames
  rw [hl, List.map_append] at hnames
  have part : ∀ (u : String) (l : List FileSegment), (∀ s ∈ l, s ∈ w.segments) →
      NamesOk (l.map (·.uid)) → (∃ s ∈ l, ∃ p, AllGiven s.vertices p ∧ ¬ NoSpan p) →
      WingEntryOk P.root W.airfoilOk ⟨u, w.symmetry, l, []⟩ := fun u l hm hnm he =>
    ⟨hwok.symmetry, hnm, ⟨by simp, by simp⟩, fun s hs => hwok.segments s (hm s hs), by simp, fun _ => he⟩
  have hok2 : FileOk P.root W.airfoilOk f2 := by
    refine hok.parts hr (parts := [⟨w.uid, w.symmetry, l1, []⟩, ⟨uid, w.symmetry, l2, []⟩]) h1 h2
      (fresh_names hok h1 h0 hu) ?_
    intro x hx
    simp only [List.mem_cons, List.not_mem_nil, or_false] at hx
    rcases hx with rfl | rfl
    · exact part _ _ m1 ⟨fun h => hnames.1 (List.mem_append_left _ h), hnames.2.of_append_left⟩ he1
    · exact part _ _ m2 ⟨fun h => hnames.1 (List.mem_append_right _ h), hnames.2.of_append_right⟩ he2
  refine ⟨hok2, C138_surfaces W hW P P2 d a b hn hP hdef hC f f2 hf hf2 hok hok2 ?_⟩
  intro autoC autoS _ _
  refine ⟨hr, [w], [⟨w.uid, w.symmetry, l1, []⟩, ⟨uid, w.symmetry, l2, []⟩], rest, h1, h2, ?_, ?_, _,
    .refl _, ?_⟩
  · intro x hx
    rw [List.mem_singleton] at hx
    subst hx
    exact hw
  · intro x hx
    simp only [List.mem_cons, List.not_mem_nil, or_false] at hx
    rcases hx with rfl | rfl
    · exact ⟨rfl, fun s hs => hw.camber s (m1 s hs)⟩
    · exact ⟨rfl, fun s hs => hw.camber s (m2 s hs)⟩
  · have e : w.surfaces autoC autoS = (l1 ++ l2).flatMap fun s =>
        ⟨s.corners.bilinear, w.panelsS autoS s, s.numC.getD autoC⟩ ::
        if w.symmetry = 0 then [] else
          [⟨fun eta xsi => reflect (symNormal w.symmetry) (s.corners.bilinear eta xsi),
            w.panelsS autoS s, s.numC.getD autoC⟩] := by
      rw [← hl]
      rfl
    rw [List.flatMap_singleton, List.flatMap_cons, List.flatMap_singleton, e, List.flatMap_append,
      surfaces_part (w := w) _ (fun s hs => hnum s (m1 s hs)),
      surfaces_part (w := w) _ (fun s hs => hnum s (m2 s hs))]
    exact forall₂_same_refl _

/-! ## Examples -/

theorem example_plain (w : FileWing) (h : w.controls = []) : w.Plain exampleWorld "/home" :=
  ⟨h, fun _ _ _ _ _ _ _ _ => rfl⟩

/-- The wing of the example file. -/
noncomputable def rectEntry : FileWing :=
  ⟨"W", 2, [⟨"S", ⟨some flatGeo.vertices.a, some flatGeo.vertices.b, some flatGeo.vertices.c,
    some flatGeo.vertices.d⟩, SegGeo.fresh, "NACA0000", "NACA0000", some 1, some 1⟩], []⟩

/-- Example for **C138** (symmetry flag): the rectangular wing as two wings. -/
example : ∃ out out', runProject exampleWorld (exampleProject rectFile) = .ok out ∧
    runProject exampleWorld (exampleProject { rectFile with
      wings := [{ rectEntry with symmetry := 0 }, rectEntry.otherHalf "L"] }) = .ok out' ∧
    ∀ x, loadProject exampleWorld (exampleProject rectFile) = .ok x → ∀ i < x.state.num,
      out'.value "FL" i = out.value "FL" i := by
  obtain ⟨out, h⟩ := rect_finishes
  obtain ⟨-, h1, h2⟩ := C138_symmetry_flag exampleWorld exactDgesv_lapack (exampleProject rectFile)
    (exampleProject { rectFile with
      wings := [{ rectEntry with symmetry := 0 }, rectEntry.otherHalf "L"] }) exampleSettings "plane.json"
    "cruise.json" (example_native _) ⟨rfl, rfl, rfl, rfl⟩ (by simp [IfGiven, exampleSettings])
    (by simp [IfGiven, exampleSettings]) rectFile _ rfl rfl rectFile_ok rfl rectEntry [] "L"
    (example_plain _ rfl) (by simp [rectEntry]) (by decide) (by simp [rectFile]) (.refl _) (.refl _)
  obtain ⟨out', h'⟩ := h1.2 ⟨out, h⟩
  exact ⟨out, out', h, h', fun x hx i hi => h2 out out' h h' x hx i hi
    ("FL", fun a => .fin a.R.wind.z) (by simp [runColumns])⟩

/-- Example for **C138** (sides): the rectangular wing described from the tip. -/
example : ∃ out out', runProject exampleWorld (exampleProject rectFile) = .ok out ∧
    runProject exampleWorld (exampleProject { rectFile with
      wings := [{ rectEntry with segments := rectEntry.segments.map FileSegment.turned }] }) = .ok out' ∧
    ∀ x, loadProject exampleWorld (exampleProject rectFile) = .ok x → ∀ i < x.state.num,
      out'.value "FL" i = out.value "FL" i := by
  obtain ⟨out, h⟩ := rect_finishes
  obtain ⟨-, h1, h2⟩ := C138_segment_side exampleWorld exactDgesv_lapack (exampleProject rectFile)
    (exampleProject { rectFile with
      wings := [{ rectEntry with segments := rectEntry.segments.map FileSegment.turned }] })
    exampleSettings "plane.json" "cruise.json" (example_native _) ⟨rfl, rfl, rfl, rfl⟩
    (by simp [IfGiven, exampleSettings]) (by simp [IfGiven, exampleSettings]) rectFile _ rfl rfl
    rectFile_ok rfl rectEntry [] _ (example_plain _ rfl) (by
      refine .cons (Or.inr ⟨rfl, ?_⟩) .nil
      intro autoS n _ hn
      simp only [FileWing.panelsS, Option.some.injEq] at hn
      omega) (.refl _) (.refl _)
  obtain ⟨out', h'⟩ := h1.2 ⟨out, h⟩
  exact ⟨out, out', h, h', fun x hx i hi => h2 out out' h h' x hx i hi
    ("FL", fun a => .fin a.R.wind.z) (by simp [runColumns])⟩

/-- A flat segment of one panel. -/
noncomputable def flatEntry (uid : String) (y0 : ℝ) : FileSegment :=
  ⟨uid, ⟨some (flatCorners y0).a, some (flatCorners y0).b, some (flatCorners y0).c,
    some (flatCorners y0).d⟩, SegGeo.fresh, "NACA0000", "NACA0000", some 1, some 1⟩

theorem flatEntry_span (uid : String) (y0 : ℝ) :
    ∃ p, AllGiven (flatEntry uid y0).vertices p ∧ ¬ NoSpan p := by
  refine ⟨flatCorners y0, ⟨rfl, rfl, rfl, rfl⟩, ?_⟩
  intro h
  have := h.1
  simp [flatCorners] at this

theorem flatEntry_ok (uid : String) (y0 : ℝ) :
    SegmentEntryOk "/home" (fun _ => true) (flatEntry uid y0) := by
  have hn : ¬ "airfoils".toList <+: "NACA0000".toList := by decide
  exact ⟨⟨flatCorners y0, rfl, rfl, rfl, rfl⟩, fresh_geoOk, by simp [flatEntry], by simp [flatEntry],
    ⟨_, .inr ⟨hn, rfl⟩, rfl⟩, ⟨_, .inr ⟨hn, rfl⟩, rfl⟩⟩

/-- One wing with two segments. -/
noncomputable def joinedEntry : FileWing := ⟨"W", 0, [flatEntry "R" 0, flatEntry "L" (-2/25)], []⟩

noncomputable def joinedFile : FileAircraft := ⟨"plane", ⟨1, 1, 1, 0, 0, none⟩, [joinedEntry]⟩

/-- The segments as two wings. -/
noncomputable def cutFile : FileAircraft := ⟨"plane", ⟨1, 1, 1, 0, 0, none⟩,
  [⟨"W", 0, [flatEntry "R" 0], []⟩, ⟨"V", 0, [flatEntry "L" (-2/25)], []⟩]⟩

theorem joinedFile_ok : FileOk "/home" (fun _ => true) joinedFile := by
  refine ⟨⟨by simp [joinedFile, joinedEntry], by simp [joinedFile]⟩,
    by norm_num [joinedFile], by norm_num [joinedFile], by norm_num [joinedFile], ?_⟩
  intro w hw
  simp only [joinedFile, List.mem_singleton] at hw
  subst hw
  refine ⟨by norm_num [joinedEntry], ⟨by simp [joinedEntry, flatEntry], by simp [joinedEntry, flatEntry]⟩,
    ⟨by simp [joinedEntry], by simp [joinedEntry]⟩, ?_, by simp [joinedEntry], ?_⟩
  · intro s hs
    simp only [joinedEntry, List.mem_cons, List.not_mem_nil, or_false] at hs
    rcases hs with rfl | rfl <;> exact flatEntry_ok _ _
  · intro _
    exact ⟨_, List.mem_cons_self .., flatEntry_span _ _⟩

/-- Examples for **C138** and **C138** (cut): the aircraft with two wings, with other names, and with one
wing instead of two. -/
example : ∃ out out' out'', runProject exampleWorld (exampleProject halvesFile) = .ok out ∧
    runProject exampleWorld (exampleProject cutFile) = .ok out' ∧
    runProject exampleWorld (exampleProject joinedFile) = .ok out'' ∧
    joinedFile.wings.length = 1 ∧ cutFile.wings.length = 2 ∧
    ∀ x, loadProject exampleWorld (exampleProject joinedFile) = .ok x → ∀ i < x.state.num,
      out'.value "FL" i = out''.value "FL" i := by
  obtain ⟨out, h⟩ := halvesFile_run
  obtain ⟨hok, h1, h2⟩ := C138_wing_cut exampleWorld exactDgesv_lapack (exampleProject joinedFile)
    (exampleProject cutFile) exampleSettings "plane.json" "cruise.json" (example_native _)
    ⟨rfl, rfl, rfl, rfl⟩ (by simp [IfGiven, exampleSettings]) (by simp [IfGiven, exampleSettings])
    joinedFile cutFile rfl rfl joinedFile_ok rfl joinedEntry [] "V" [flatEntry "R" 0]
    [flatEntry "L" (-2/25)] (example_plain _ rfl) (by decide) (by simp [joinedFile, joinedEntry]) rfl
    (by
      intro s hs
      simp only [joinedEntry, List.mem_cons, List.not_mem_nil, or_false] at hs
      rcases hs with rfl | rfl <;> simp [flatEntry])
    ⟨_, List.mem_singleton.2 rfl, flatEntry_span _ _⟩ ⟨_, List.mem_singleton.2 rfl, flatEntry_span _ _⟩
    (.refl _) (.refl _)
  obtain ⟨h3, -⟩ := C138_surfaces exampleWorld exactDgesv_lapack (exampleProject halvesFile)
    (exampleProject cutFile) exampleSettings "plane.json" "cruise.json" (example_native _)
    ⟨rfl, rfl, rfl, rfl⟩ (by simp [IfGiven, exampleSettings]) (by simp [IfGiven, exampleSettings])
    halvesFile cutFile rfl rfl halvesFile_ok hok (by
      intro autoC autoS _ _
      refine ⟨rfl, halvesFile.wings, cutFile.wings, [], by simp, by simp, ?_, ?_, _, .refl _, ?_⟩
      · intro w hw
        simp only [halvesFile, List.mem_cons, List.not_mem_nil, or_false] at hw
        rcases hw with rfl | rfl <;> exact example_plain _ rfl
      · intro w hw
        simp only [cutFile, List.mem_cons, List.not_mem_nil, or_false] at hw
        rcases hw with rfl | rfl <;> exact example_plain _ rfl
      · exact forall₂_same_refl _)
  obtain ⟨out', h'⟩ := h3.2 ⟨out, h⟩
  obtain ⟨out'', h''⟩ := h1.1 ⟨out', h'⟩
  exact ⟨out, out', out'', h, h', h'', rfl, rfl, fun x hx i hi => h2 out'' out' h'' h' x hx i hi
    ("FL", fun a => .fin a.R.wind.z) (by simp [runColumns])⟩

end Verif
