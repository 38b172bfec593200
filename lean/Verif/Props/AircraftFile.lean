import Verif.Props.FileIO

/-!
# Property C57: aircraft files
-/

set_option linter.unusedSectionVars false

namespace Verif

/-! ## Specification -/

/-- A chord runs backwards: its x-component is not negative, and it has some extent in the x-y
plane. -/
def Backward (e : V3 ℝ) : Prop := 0 ≤ e.x ∧ ¬ (e.x = 0 ∧ e.y = 0)

/-- An airfoil file whose path mentions `blade.` lies directly in the directory `airfoils` of the
project. -/
def BladeInProject (root path : String) : Prop :=
  "blade.".toList <:+: path.toList → path = root ++ "/airfoils/" ++ basename path

/-- The segments of a loaded aircraft which survive saving and loading. -/
def Survives (root : String) (s : LoadedSegment) : Prop :=
  Backward (s.gen.vertices.d - s.gen.vertices.a) ∧
  Backward (s.gen.vertices.c - s.gen.vertices.b) ∧
  BladeInProject root s.airfoilInner ∧ BladeInProject root s.airfoilOuter

/-- The property as stated. -/
def SaveLoad : Prop :=
  ∀ (root : String) (airfoilOk : String → Bool) (f : FileAircraft) (ac : LoadedAircraft),
    ['/'] <+: root.toList →
    loadAircraft root airfoilOk f = .ok ac → loadAircraft root airfoilOk (saveAircraft ac) = .ok ac

/-! ## Geometry data in range -/

theorem degrees_le {x : ℝ} (b : ℝ) : degrees x ≤ b * (180 / Real.pi) ↔ x ≤ b := by
  have : 0 < 180 / Real.pi := div_pos (by norm_num) Real.pi_pos
  exact mul_le_mul_iff_of_pos_right this

theorem le_degrees {x : ℝ} (b : ℝ) : b * (180 / Real.pi) ≤ degrees x ↔ b ≤ x := by
  have : 0 < 180 / Real.pi := div_pos (by norm_num) Real.pi_pos
  exact mul_le_mul_iff_of_pos_right this

theorem ninety : (90 : ℝ) = Real.pi / 2 * (180 / Real.pi) := by
  have := Real.pi_pos
  field_simp; norm_num

theorem oneEighty : (180 : ℝ) = Real.pi * (180 / Real.pi) := by
  have := Real.pi_pos
  field_simp

theorem degrees_90 (x : ℝ) : (-90 ≤ degrees x ∧ degrees x ≤ 90) ↔ |x| ≤ Real.pi / 2 := by
  rw [abs_le, ninety, degrees_le, ← neg_mul, le_degrees]

theorem neg_degrees_90 (x : ℝ) : (-90 ≤ -degrees x ∧ -degrees x ≤ 90) ↔ |x| ≤ Real.pi / 2 := by
  rw [← degrees_90]
  constructor <;> rintro ⟨h1, h2⟩ <;> constructor <;> linarith

theorem degrees_180 (x : ℝ) : (-180 ≤ degrees x ∧ degrees x ≤ 180) ↔ |x| ≤ Real.pi := by
  rw [abs_le]
  conv_lhs => rw [oneEighty]
  rw [degrees_le, ← neg_mul, le_degrees]

theorem chordData_none (e : V3 ℝ) : chordData e = none ↔ e.x = 0 ∧ e.y = 0 := by
  have hp : 0 ≤ e.x * e.x + e.y * e.y := add_nonneg (mul_self_nonneg _) (mul_self_nonneg _)
  simp only [chordData]
  split_ifs with h
  · rw [Real.sqrt_eq_zero hp] at h
    refine ⟨fun _ => ?_, fun _ => rfl⟩
    have h1 := mul_self_nonneg e.x
    have h2 := mul_self_nonneg e.y
    exact ⟨mul_self_eq_zero.1 (by linarith), mul_self_eq_zero.1 (by linarith)⟩
  · refine ⟨fun hn => by simp at hn, ?_⟩
    rintro ⟨hx, hy⟩
    exact absurd (by rw [hx, hy]; simp) h

/-- The angles of a chord are accepted again exactly if the chord runs backwards. -/
theorem angles_ok (e : V3 ℝ) :
    (inRange (-90) 90 (some (optFlt ChordData.alpha (chordData e))) ∧
      inRange (-90) 90 (some (optFlt ChordData.beta (chordData e)))) ↔ Backward e := by
  by_cases h0 : e.x = 0 ∧ e.y = 0
  · rw [(chordData_none e).2 h0]
    simp [optFlt, inRange, Backward, h0.1, h0.2]
  · have hr : √(e.x * e.x + e.y * e.y) ≠ 0 := by
      intro hr
      exact h0 ((chordData_none e).1 (by simp only [chordData]; rw [if_pos hr]))
    simp only [chordData]
    rw [if_neg hr]
    have hc : √(e.x * e.x + e.y * e.y) * (e.x / √(e.x * e.x + e.y * e.y)) = e.x := by
      rw [mul_comm, div_mul_cancel₀ _ hr]
    simp only [optFlt, inRange, hc]
    rw [neg_degrees_90, neg_degrees_90]
    have harc : |Real.arcsin (e.y / √(e.x * e.x + e.y * e.y))| ≤ Real.pi / 2 :=
      abs_le.2 ⟨Real.neg_pi_div_two_le_arcsin _, Real.arcsin_le_pi_div_two _⟩
    have harg : |atan2 e.z e.x| ≤ Real.pi / 2 ↔ 0 ≤ e.x := Complex.abs_arg_le_pi_div_two_iff
    rw [harg]
    exact ⟨fun h => ⟨h.1, h0⟩, fun h => ⟨h.1, harc⟩⟩

theorem derived_schema (v : Corners (V3 ℝ)) (g : SegGeo) (hi : inRange 0 1 g.innerAxis)
    (ho : inRange 0 1 g.outerAxis) :
    (derivedGeo v g).schema ↔ Backward (v.d - v.a) ∧ Backward (v.c - v.b) := by
  have hs : inRange (-90) 90 (derivedGeo v g).sweep := by
    simp only [derivedGeo, inRange]
    rw [degrees_90]
    exact Complex.abs_arg_le_pi_div_two_iff.2 (Real.sqrt_nonneg _)
  constructor
  · rintro ⟨h1, h2, h3, h4, _⟩
    exact ⟨(angles_ok _).1 ⟨h1, h3⟩, (angles_ok _).1 ⟨h2, h4⟩⟩
  · rintro ⟨h1, h2⟩
    obtain ⟨a1, b1⟩ := (angles_ok _).2 h1
    obtain ⟨a2, b2⟩ := (angles_ok _).2 h2
    refine ⟨a1, a2, b1, b2, hi, ho, hs, ?_⟩
    have n1 : chordData (v.d - v.a) ≠ none := fun h => h1.2 ((chordData_none _).1 h)
    have n2 : chordData (v.c - v.b) ≠ none := fun h => h2.2 ((chordData_none _).1 h)
    obtain ⟨k1, hk1⟩ := Option.ne_none_iff_exists'.1 n1
    obtain ⟨k2, hk2⟩ := Option.ne_none_iff_exists'.1 n2
    simp only [derivedGeo, hk1, hk2, dihedralOf, inRange]
    rw [degrees_180]
    exact Complex.abs_arg_le_pi _

/-! ## Parts of the file -/

theorem loadAirfoil_ok {root v : String} (hr : ['/'] <+: root.toList) :
    loadAirfoil root (saveAirfoil (loadAirfoil root v)) = loadAirfoil root v ↔
      BladeInProject root (loadAirfoil root v) := by
  have hx : "airfoils".toList.isPrefixOf (loadAirfoil root v).toList = false := by
    unfold loadAirfoil
    split_ifs with h
    · obtain ⟨t, ht⟩ := hr
      rw [← Bool.not_eq_true, List.isPrefixOf_iff_prefix]
      simp only [String.toList_append, ← ht]
      intro hp
      have : 'a' = '/' := by
        obtain ⟨u, hu⟩ := hp
        have := congrArg List.head? hu
        simp at this
      exact absurd this (by decide)
    · exact Bool.not_eq_true _ ▸ h
  generalize loadAirfoil root v = x at hx
  unfold BladeInProject
  by_cases hb : "blade.".toList <:+: x.toList
  · have e1 : saveAirfoil x = "airfoils/" ++ basename x := by
      unfold saveAirfoil mentionsBlade
      rw [if_pos (by simpa using hb)]
    have e2 : "airfoils".toList.isPrefixOf ("airfoils/" ++ basename x).toList = true := by
      rw [List.isPrefixOf_iff_prefix, String.toList_append]
      exact List.IsPrefix.trans (by decide : "airfoils".toList <+: "airfoils/".toList)
        (List.prefix_append _ _)
    rw [e1]
    unfold loadAirfoil
    rw [if_pos e2]
    have e3 : root ++ "/" ++ ("airfoils/" ++ basename x) = root ++ "/airfoils/" ++ basename x := by
      apply String.toList_inj.1
      simp [String.toList_append]
    rw [e3]
    exact ⟨fun h _ => h.symm, fun h => (h hb).symm⟩
  · have e1 : saveAirfoil x = x := by
      unfold saveAirfoil mentionsBlade
      rw [if_neg (by simpa using hb)]
    rw [e1]
    have e2 : loadAirfoil root x = x := by
      unfold loadAirfoil
      rw [hx]
      simp
    rw [e2]
    exact ⟨fun _ h => absurd h hb, fun _ => rfl⟩

theorem setDevice_of_ok {c d : ControlDef ℝ} {s : String} (hs : c.deviceType = some s)
    (h : c.setDeviceType (.str s) = .ok d) : d = c := by
  rcases (C52_device_type c d _).1 h with ⟨h1, rfl⟩ | ⟨h1, rfl⟩ <;>
    · injection h1 with h1
      subst h1
      cases c
      simp only at hs ⊢
      rw [hs]

theorem usable_completed {c : ControlDef ℝ} {sym : ℕ} (h : c.Usable sym) :
    (c.completed sym).Usable sym ∧ (c.completed sym).completed sym = c.completed sym := by
  constructor
  · refine ⟨h.panels, h.etaInner, h.etaOuter, h.xsiInner, h.xsiOuter, h.hingeInner, h.hingeOuter,
      h.device, h.extent, h.deflection, ?_⟩
    intro hs hm
    unfold ControlDef.completed at hm ⊢
    simp only at hm ⊢
    split_ifs at hm ⊢ with hc
    · exact h.deflection
    · exact h.mirror hs hm
  · unfold ControlDef.completed
    simp only
    congr 1
    split_ifs with h1 h2
    · rfl
    · rfl
    · rfl

/-- A control that has been loaded is loaded again as it is. -/
theorem loadControl_again {sym : ℕ} {c c' : FileControl} (h : loadControl sym c = .ok c') :
    loadControl sym c' = .ok c' := by
  unfold loadControl at h
  cases hd : c.data.deviceType with
  | none => simp [hd] at h
  | some s =>
    simp only [hd] at h
    cases hset : c.data.setDeviceType (.str s) with
    | error e => simp [hset] at h
    | ok d =>
      have := setDevice_of_ok hd hset
      subst this
      simp only [hset] at h
      cases hc : c.data.check sym with
      | error e => simp [hc] at h
      | ok d' =>
        simp only [hc, Except.ok.injEq] at h
        subst h
        obtain ⟨hu, rfl⟩ := (C52_check _ _ _).1 hc
        obtain ⟨hu', hcc⟩ := usable_completed hu
        unfold loadControl
        have hd' : (c.data.completed sym).deviceType = some s := hd
        simp only [hd']
        have hset' : (c.data.completed sym).setDeviceType (.str s) = .ok (c.data.completed sym) := by
          refine (C52_device_type _ _ _).2 ?_
          rcases (C52_device_type _ _ _).1 hset with ⟨h1, _⟩ | ⟨h1, _⟩ <;>
            · injection h1 with h1
              subst h1
              simp only [PyVal.str.injEq, true_and, false_and, or_false, false_or,
                String.reduceEq]
              unfold ControlDef.completed
              simp only [hd]
        rw [hset']
        simp only
        rw [(C52_check _ _ _).2 ⟨hu', hcc.symm⟩]

theorem positions_length {K : Type*} [Field K] [LinearOrder K] {total : K} : ∀ {pos : K}
    {spans : List K} {ps}, positionsFrom total pos spans = .ok ps → ps.length = spans.length
  | pos, [], ps, h => by simp only [positionsFrom, Except.ok.injEq] at h; subst h; rfl
  | pos, s :: rest, ps, h => by
    unfold positionsFrom at h
    split_ifs at h
    simp only at h
    cases hr : positionsFrom total (pos + s) rest with
    | error e => simp [hr] at h
    | ok qs =>
      simp only [hr, Except.ok.injEq] at h
      subst h
      simp [positions_length hr]

/-- What holds for a loaded segment. -/
structure GoodSegment (root : String) (airfoilOk : String → Bool) (s : LoadedSegment) : Prop where
  geometry : ∃ g, s.gen.geometry = derivedGeo s.gen.vertices g ∧ inRange 0 1 g.innerAxis ∧
    inRange 0 1 g.outerAxis ∧ (∃ x, g.innerAxis = some x) ∧ (∃ x, g.outerAxis = some x)
  panels : panelsOk s.numC = true ∧ panelsOk s.numS = true
  inner : airfoilOk s.airfoilInner = true ∧ ∃ v, s.airfoilInner = loadAirfoil root v
  outer : airfoilOk s.airfoilOuter = true ∧ ∃ v, s.airfoilOuter = loadAirfoil root v

theorem good_of_load {root : String} {airfoilOk : String → Bool} {s : FileSegment}
    {x : FileSegment × GenSegment} (h : loadSegment root airfoilOk s = .ok x) (p : ℝ × ℝ) :
    GoodSegment root airfoilOk (LoadedSegment.of (x, p)) ∧ x.1.uid = s.uid := by
  unfold loadSegment at h
  simp only at h
  cases hg : generateSegment s.vertices s.geometry with
  | error e => simp only [hg] at h; split_ifs at h
  | ok g =>
    simp only [hg] at h
    split_ifs at h with hp ha
    simp only [Except.ok.injEq] at h
    subst h
    obtain ⟨hall, hgeo⟩ := generate_ok hg
    have hsch := ((C67_four_vertices _ _).1 ⟨g, hg⟩).2
    simp only [Bool.not_eq_true', Bool.not_eq_false, Bool.and_eq_true] at hp ha
    exact ⟨⟨⟨_, hgeo, hsch.2.2.2.2.1, hsch.2.2.2.2.2.1, ⟨_, rfl⟩, ⟨_, rfl⟩⟩, hp,
      ⟨ha.1, _, rfl⟩, ⟨ha.2, _, rfl⟩⟩, rfl⟩

/-- Entry of a loaded segment with airfoil paths as the loader makes them. -/
def reEntry (s : LoadedSegment) : FileSegment :=
  { saveSegment s with airfoilInner := s.airfoilInner, airfoilOuter := s.airfoilOuter }

theorem withAxes_of_some {g : SegGeo} (h1 : ∃ x, g.innerAxis = some x)
    (h2 : ∃ x, g.outerAxis = some x) : g.withAxes = g := by
  obtain ⟨x, hx⟩ := h1
  obtain ⟨y, hy⟩ := h2
  cases g
  simp only at hx hy
  subst hx hy
  rfl

theorem derivedGeo_again (v : Corners (V3 ℝ)) (g : SegGeo) :
    derivedGeo v (derivedGeo v g) = derivedGeo v g := rfl

theorem generate_again {v : Corners (V3 ℝ)} {g : SegGeo} (hi : inRange 0 1 g.innerAxis)
    (ho : inRange 0 1 g.outerAxis) (h1 : ∃ x, g.innerAxis = some x)
    (h2 : ∃ x, g.outerAxis = some x) (s : GenSegment) :
    generateSegment ⟨some v.a, some v.b, some v.c, some v.d⟩ (derivedGeo v g) = .ok s ↔
      (Backward (v.d - v.a) ∧ Backward (v.c - v.b)) ∧ s = ⟨v, derivedGeo v g⟩ := by
  have haxes : (derivedGeo v g).withAxes = derivedGeo v g := withAxes_of_some h1 h2
  constructor
  · intro h
    have hs := ((C67_four_vertices _ _).1 ⟨s, h⟩).2
    rw [haxes] at hs
    refine ⟨(derived_schema v g hi ho).1 hs, ?_⟩
    obtain ⟨⟨e1, e2, e3, e4⟩, hgeo⟩ := generate_ok h
    simp only [Option.some.injEq] at e1 e2 e3 e4
    have hv : s.vertices = v := by
      ext1 <;> simp only [e1, e2, e3, e4]
    rw [haxes, hv] at hgeo
    cases s
    simp only at hv hgeo
    rw [hv, hgeo]
    rfl
  · rintro ⟨hb, rfl⟩
    have hs : (derivedGeo v g).withAxes.schema := by
      rw [haxes]; exact (derived_schema v g hi ho).2 hb
    rw [generateSegment_eq _ _ hs]
    simp only [npVertex, NpVertex.coords, haxes]
    rfl

theorem loadSegment_again {root : String} {airfoilOk : String → Bool} {s : LoadedSegment}
    (hr : ['/'] <+: root.toList) (hg : GoodSegment root airfoilOk s) :
    (Survives root s → loadSegment root airfoilOk (saveSegment s) = .ok (reEntry s, s.gen)) ∧
    (∀ x p, loadSegment root airfoilOk (saveSegment s) = .ok x → LoadedSegment.of (x, p) = s →
      Survives root s) := by
  obtain ⟨⟨g, hgeo, hi, ho, h1, h2⟩, ⟨p1, p2⟩, ⟨i1, vi, hvi⟩, ⟨o1, vo, hvo⟩⟩ := hg
  have ki : loadAirfoil root (saveAirfoil s.airfoilInner) = s.airfoilInner ↔
      BladeInProject root s.airfoilInner := by rw [hvi]; exact loadAirfoil_ok hr
  have ko : loadAirfoil root (saveAirfoil s.airfoilOuter) = s.airfoilOuter ↔
      BladeInProject root s.airfoilOuter := by rw [hvo]; exact loadAirfoil_ok hr
  have hgen := generate_again (v := s.gen.vertices) hi ho h1 h2
  rw [← hgeo] at hgen
  unfold loadSegment saveSegment
  simp only [p1, p2, Bool.and_self, Bool.not_true, Bool.false_eq_true, if_false]
  constructor
  · rintro ⟨b1, b2, b3, b4⟩
    have : generateSegment ⟨some s.gen.vertices.a, some s.gen.vertices.b, some s.gen.vertices.c,
        some s.gen.vertices.d⟩ s.gen.geometry = .ok s.gen := (hgen _).2 ⟨⟨b1, b2⟩, rfl⟩
    simp only [this, ki.2 b3, ko.2 b4, i1, o1, Bool.and_self, Bool.not_true, Bool.false_eq_true,
      if_false]
    rfl
  · intro x p hx hof
    cases hgs : generateSegment ⟨some s.gen.vertices.a, some s.gen.vertices.b,
        some s.gen.vertices.c, some s.gen.vertices.d⟩ s.gen.geometry with
    | error e => simp [hgs] at hx
    | ok gs =>
      simp only [hgs] at hx
      split_ifs at hx
      simp only [Except.ok.injEq] at hx
      subst hx
      obtain ⟨⟨b1, b2⟩, _⟩ := (hgen gs).1 hgs
      refine ⟨b1, b2, ki.1 ?_, ko.1 ?_⟩
      · exact congrArg LoadedSegment.airfoilInner hof
      · exact congrArg LoadedSegment.airfoilOuter hof

/-! ## Wings -/

/-- What holds for a loaded wing. -/
structure GoodWing (root : String) (airfoilOk : String → Bool) (w : LoadedWing) : Prop where
  symmetry : w.symmetry ∈ [0, 1, 2, 3]
  segNames : checkNames [] (w.segments.map (·.uid)) = .ok ()
  ctrlNames : checkNames [] (w.controls.map (·.uid)) = .ok ()
  controls : ∀ c ∈ w.controls, loadControl w.symmetry c = .ok c
  segments : ∀ s ∈ w.segments, GoodSegment root airfoilOk s
  positions : positions (w.segments.map fun s => fltVal s.gen.geometry.span) =
    .ok (w.segments.map (·.position))

theorem zip_of {gs : List (FileSegment × GenSegment)} {ps : List (ℝ × ℝ)}
    (h : gs.length = ps.length) :
    ((gs.zip ps).map LoadedSegment.of).map (·.position) = ps ∧
    ((gs.zip ps).map LoadedSegment.of).map (fun s => fltVal s.gen.geometry.span) =
      gs.map (fun g => fltVal g.2.geometry.span) ∧
    ((gs.zip ps).map LoadedSegment.of).map (·.uid) = gs.map (fun g => g.1.uid) := by
  refine ⟨?_, ?_, ?_⟩
  · rw [List.map_map]
    exact List.map_snd_zip h.ge
  · rw [List.map_map]
    have e : gs = (gs.zip ps).map Prod.fst := (List.map_fst_zip h.le).symm
    conv_rhs => rw [e]
    rw [List.map_map]
    rfl
  · rw [List.map_map]
    have e : gs = (gs.zip ps).map Prod.fst := (List.map_fst_zip h.le).symm
    conv_rhs => rw [e]
    rw [List.map_map]
    rfl

theorem goodWing {root : String} {airfoilOk : String → Bool} {f : FileWing} {w : LoadedWing}
    (h : loadWing root airfoilOk f = .ok w) : GoodWing root airfoilOk w ∧ w.uid = f.uid := by
  unfold loadWing at h
  split_ifs at h with hs
  cases h1 : checkNames [] (f.segments.map (·.uid)) with
  | error e => simp [h1] at h
  | ok u1 =>
  cases h2 : checkNames [] (f.controls.map (·.uid)) with
  | error e => simp [h1, h2] at h
  | ok u2 =>
  simp only [h1, h2] at h
  cases h3 : mapE (loadControl f.symmetry) f.controls with
  | error e => simp [h3] at h
  | ok cs =>
  cases h4 : mapE (loadSegment root airfoilOk) f.segments with
  | error e => simp [h3, h4] at h
  | ok gs =>
  simp only [h3, h4] at h
  cases h5 : positions (gs.map fun g => fltVal g.2.geometry.span) with
  | error e => simp [h5] at h
  | ok ps =>
  simp only [h5, Except.ok.injEq] at h
  subst h
  have hl : gs.length = ps.length := by
    have := positions_length h5
    simpa using this.symm
  obtain ⟨z1, z2, z3⟩ := zip_of hl
  have f4 := mapE_ok h4
  have f3 := mapE_ok h3
  have huid : gs.map (fun g => g.1.uid) = f.segments.map (·.uid) := by
    clear h4 h5 hl z1 z2 z3 h1
    generalize f.segments = l at f4
    induction f4 with
    | nil => rfl
    | cons hx _ ih => simp only [List.map_cons, (good_of_load hx (0, 0)).2, ih]
  have hcuid : cs.map (·.uid) = f.controls.map (·.uid) := by
    clear h3 h2
    generalize f.controls = l at f3
    induction f3 with
    | nil => rfl
    | cons hx _ ih =>
      simp only [List.map_cons, ih]
      congr 1
      unfold loadControl at hx
      split at hx
      · cases hx
      · split at hx
        · cases hx
        · simp only [Except.ok.injEq] at hx; rw [← hx]
  refine ⟨⟨by simpa using hs, ?_, ?_, ?_, ?_, ?_⟩, rfl⟩
  · simp only [z3, huid, h1]
  · simp only [hcuid, h2]
  · intro c hc
    obtain ⟨a, _, ha⟩ := forall₂_mem_right f3 hc
    exact loadControl_again ha
  · intro s hs
    obtain ⟨⟨g, p⟩, hgp, rfl⟩ := List.mem_map.1 hs
    obtain ⟨a, _, ha⟩ := forall₂_mem_right f4 (List.of_mem_zip hgp).1
    exact (good_of_load ha p).1
  · simp only [z1, z2, h5]

theorem save_uids (segs : List LoadedSegment) :
    (segs.map saveSegment).map (·.uid) = segs.map (·.uid) := by
  rw [List.map_map]; rfl

theorem zip_map_of : ∀ segs : List LoadedSegment,
    ((segs.map fun s => (reEntry s, s.gen)).zip (segs.map (·.position))).map LoadedSegment.of = segs
  | [] => rfl
  | s :: rest => by
    simp only [List.map_cons, List.zip_cons_cons, zip_map_of rest]
    rfl

theorem survives_of_zip {root : String} {airfoilOk : String → Bool} (hr : ['/'] <+: root.toList) :
    ∀ {segs : List LoadedSegment} {gs : List (FileSegment × GenSegment)} {ps : List (ℝ × ℝ)},
      (∀ s ∈ segs, GoodSegment root airfoilOk s) →
      List.Forall₂ (fun a b => loadSegment root airfoilOk a = .ok b) (segs.map saveSegment) gs →
      (gs.zip ps).map LoadedSegment.of = segs → ∀ s ∈ segs, Survives root s
  | [], _, _, _, _, _, s, hs => by simp at hs
  | t :: rest, gs, ps, hg, hf, hz, s, hs => by
    cases hf with
    | @cons _ g _ gs' hx hrest =>
      cases ps with
      | nil => simp at hz
      | cons p ps' =>
        simp only [List.zip_cons_cons, List.map_cons, List.cons.injEq] at hz
        rcases List.mem_cons.1 hs with rfl | hs'
        · exact (loadSegment_again hr (hg _ List.mem_cons_self)).2 g p hx hz.1
        · exact survives_of_zip hr (fun a ha => hg a (List.mem_cons_of_mem _ ha)) hrest hz.2 s hs'

theorem loadWing_again {root : String} {airfoilOk : String → Bool} {w : LoadedWing}
    (hr : ['/'] <+: root.toList) (hg : GoodWing root airfoilOk w) :
    loadWing root airfoilOk (saveWing w) = .ok w ↔ ∀ s ∈ w.segments, Survives root s := by
  have hc : mapE (loadControl w.symmetry) w.controls = .ok w.controls := by
    have := mapE_map (f := loadControl w.symmetry) (g := id) hg.controls
    rwa [List.map_id] at this
  have hsym : ¬ w.symmetry ∉ [0, 1, 2, 3] := not_not.2 hg.symmetry
  unfold loadWing saveWing
  simp only [save_uids, hg.segNames, hg.ctrlNames, hc]
  rw [if_neg hsym]
  constructor
  · intro h
    cases h4 : mapE (loadSegment root airfoilOk) (w.segments.map saveSegment) with
    | error e => simp [h4] at h
    | ok gs =>
      simp only [h4] at h
      cases h5 : positions (gs.map fun g => fltVal g.2.geometry.span) with
      | error e => simp [h5] at h
      | ok ps =>
        simp only [h5, Except.ok.injEq] at h
        have := congrArg LoadedWing.segments h
        exact survives_of_zip hr hg.segments (mapE_ok h4) this
  · intro h
    have h4 : mapE (loadSegment root airfoilOk) (w.segments.map saveSegment) =
        .ok (w.segments.map fun s => (reEntry s, s.gen)) := by
      refine mapE_eq_ok ?_
      rw [List.forall₂_map_left_iff, List.forall₂_map_right_iff, List.forall₂_same]
      exact fun s hs => (loadSegment_again hr (hg.segments s hs)).1 (h s hs)
    simp only [h4]
    have h5 : positions ((w.segments.map fun s => (reEntry s, s.gen)).map
        fun g => fltVal g.2.geometry.span) = .ok (w.segments.map (·.position)) := by
      rw [List.map_map]; exact hg.positions
    simp only [h5, zip_map_of]

/-! ## The property -/

/-- **C57.** A loaded aircraft comes back unchanged when it is saved and loaded again exactly if
all section chords run backwards and all files mentioning `blade.` lie in the directory
`airfoils`. -/
theorem C57_reload_iff (root : String) (airfoilOk : String → Bool) (f : FileAircraft)
    (ac : LoadedAircraft) (hr : ['/'] <+: root.toList)
    (h : loadAircraft root airfoilOk f = .ok ac) :
    loadAircraft root airfoilOk (saveAircraft ac) = .ok ac ↔
      ∀ w ∈ ac.wings, ∀ s ∈ w.segments, Survives root s := by
  unfold loadAircraft at h
  cases h1 : checkNames [] (f.wings.map (·.uid)) with
  | error e => simp [h1] at h
  | ok u =>
  simp only [h1] at h
  split_ifs at h with href
  cases h2 : mapE (loadWing root airfoilOk) f.wings with
  | error e => simp [h2] at h
  | ok ws =>
  simp only [h2, Except.ok.injEq] at h
  subst h
  have f2 := mapE_ok h2
  have hgood : ∀ w ∈ ws, GoodWing root airfoilOk w := by
    intro w hw
    obtain ⟨a, _, ha⟩ := forall₂_mem_right f2 hw
    exact (goodWing ha).1
  have huid : ws.map (·.uid) = f.wings.map (·.uid) := by
    clear h2 h1 hgood
    generalize f.wings = l at f2
    induction f2 with
    | nil => rfl
    | cons hx _ ih => simp only [List.map_cons, (goodWing hx).2, ih]
  have hn : checkNames [] ((ws.map saveWing).map (·.uid)) = .ok () := by
    rw [List.map_map]
    show checkNames [] (ws.map (·.uid)) = _
    rw [huid, h1]
  unfold loadAircraft saveAircraft
  simp only [hn]
  rw [if_neg (not_not.2 href)]
  have key : mapE (loadWing root airfoilOk) (ws.map saveWing) = .ok ws ↔
      ∀ w ∈ ws, ∀ s ∈ w.segments, Survives root s := by
    constructor
    · intro h
      have := mapE_ok h
      rw [List.forall₂_map_left_iff, List.forall₂_same] at this
      exact fun w hw => (loadWing_again hr (hgood w hw)).1 (this w hw)
    · intro h
      refine mapE_eq_ok ?_
      rw [List.forall₂_map_left_iff, List.forall₂_same]
      exact fun w hw => (loadWing_again hr (hgood w hw)).2 (h w hw)
  rw [← key]
  cases h3 : mapE (loadWing root airfoilOk) (ws.map saveWing) with
  | error e => simp
  | ok ws' => simp

/-- **C57 (partial).** The round trip for aircraft whose section chords run backwards and whose
`blade.` files lie in the directory `airfoils`.  Missing: all other aircraft, see
`C57_reload_iff`. -/
theorem C57_round_trip_partial (root : String) (airfoilOk : String → Bool) (f : FileAircraft)
    (ac : LoadedAircraft) (hr : ['/'] <+: root.toList)
    (h : loadAircraft root airfoilOk f = .ok ac)
    (hs : ∀ w ∈ ac.wings, ∀ s ∈ w.segments, Survives root s) :
    loadAircraft root airfoilOk (saveAircraft ac) = .ok ac :=
  (C57_reload_iff root airfoilOk f ac hr h).2 hs

/-- A file with one wing of one segment. -/
noncomputable def demoFile (v : Corners (V3 ℝ)) (airfoil : String) : FileAircraft :=
  ⟨"plane", ⟨1, 1, 1, 0, 0, none⟩, [⟨"wing", 2,
    [⟨"seg", ⟨some v.a, some v.b, some v.c, some v.d⟩, SegGeo.fresh, airfoil, "NACA0012", none,
      some 4⟩], []⟩]⟩

theorem demoFile_load (root : String) (airfoilOk : String → Bool) (v : Corners (V3 ℝ))
    (airfoil : String) (hv : ¬ NoSpan v) (ha : airfoilOk (loadAirfoil root airfoil) = true)
    (hn : airfoilOk "NACA0012" = true) :
    ∃ ac, loadAircraft root airfoilOk (demoFile v airfoil) = .ok ac ∧
      ∃ w ∈ ac.wings, ∃ s ∈ w.segments, s.gen.vertices = v ∧
        s.airfoilInner = loadAirfoil root airfoil ∧
        s.airfoilOuter = "NACA0012" ∧ ac.wings = [w] ∧ w.segments = [s] := by
  have hg := generateSegment_eq ⟨some v.a, some v.b, some v.c, some v.d⟩ SegGeo.fresh fresh_schema
  simp only [npVertex, NpVertex.coords] at hg
  have hspan := generated_span hg
  obtain ⟨ps, hps, hc⟩ := C53_positions
    [fltVal (derivedGeo v SegGeo.fresh.withAxes).span] (by
      intro s hs; simp only [List.mem_singleton] at hs; subst hs; exact hspan.1)
    ⟨_, List.mem_singleton.2 rfl, fun h => hv (hspan.2.1 h)⟩
  have hl := hc.length
  obtain ⟨p, rfl⟩ : ∃ p, ps = [p] := List.length_eq_one_iff.1 hl
  have hN : loadAirfoil root "NACA0012" = "NACA0012" := by
    unfold loadAirfoil
    rw [if_neg (by decide)]
  have hseg : loadSegment root airfoilOk
      ⟨"seg", ⟨some v.a, some v.b, some v.c, some v.d⟩, SegGeo.fresh, airfoil, "NACA0012", none,
        some 4⟩ = .ok (⟨"seg", ⟨some v.a, some v.b, some v.c, some v.d⟩, SegGeo.fresh,
          loadAirfoil root airfoil, "NACA0012", none, some 4⟩,
          ⟨v, derivedGeo v SegGeo.fresh.withAxes⟩) := by
    unfold loadSegment
    simp only [hg, hN, ha, hn]
    simp [panelsOk]
  refine ⟨⟨"plane", ⟨1, 1, 1, 0, 0, none⟩, [⟨"wing", 2, [LoadedSegment.of
      ((⟨"seg", ⟨some v.a, some v.b, some v.c, some v.d⟩, SegGeo.fresh,
          loadAirfoil root airfoil, "NACA0012", none, some 4⟩,
          ⟨v, derivedGeo v SegGeo.fresh.withAxes⟩), p)], []⟩]⟩,
    ?_, _, List.mem_singleton.2 rfl, _, List.mem_singleton.2 rfl, ?_⟩
  · unfold loadAircraft demoFile
    simp only [List.map_cons, List.map_nil, checkNames]
    norm_num [loadWing, checkNames, mapE, hseg, hps, (by decide : "wing" ≠ ""),
      (by decide : "seg" ≠ "")]
  · exact ⟨rfl, rfl, rfl, rfl, rfl⟩

/-- **C57.** The round trip fails: an aircraft with a chord that runs forwards is accepted, but it
does not come back from the file saved from it. -/
theorem C57_round_trip_false : ¬ SaveLoad := by
  intro h
  obtain ⟨ac, hac, w, hw, s, hs, hv, _⟩ := demoFile_load "/root" (fun _ => true)
    ⟨⟨1, 0, 0⟩, ⟨1, 1, 0⟩, ⟨0, 1, 0⟩, ⟨0, 0, 0⟩⟩ "NACA0012" (by simp [NoSpan]) rfl rfl
  have := h "/root" (fun _ => true) _ ac (by decide) hac
  have := ((C57_reload_iff "/root" _ _ ac (by decide) hac).1 this w hw s hs).1.1
  rw [hv] at this
  simp at this
  linarith

/-- **C57.** The round trip also fails for an ordinary wing if an airfoil file mentioning `blade.`
lies outside the directory `airfoils`: the saved path is another one. -/
theorem C57_airfoil_path_false : ∃ f ac, loadAircraft "/root" (fun _ => true) f = .ok ac ∧
    (∀ w ∈ ac.wings, ∀ s ∈ w.segments, Backward (s.gen.vertices.d - s.gen.vertices.a) ∧
      Backward (s.gen.vertices.c - s.gen.vertices.b)) ∧
    loadAircraft "/root" (fun _ => true) (saveAircraft ac) ≠ .ok ac := by
  obtain ⟨ac, hac, w, hw, s, hs, hv, h1, h2, h3, h4⟩ := demoFile_load "/root" (fun _ => true)
    demoTrapezoid "/data/blade.x" (by simp [NoSpan, demoTrapezoid]) rfl rfl
  refine ⟨_, ac, hac, fun w' hw' s' hs' => ?_, fun h => ?_⟩
  · rw [h3, List.mem_singleton] at hw'
    subst hw'
    rw [h4, List.mem_singleton] at hs'
    subst hs'
    rw [hv]
    constructor
    · simp [demoTrapezoid, Backward]
    · simp [demoTrapezoid, Backward]; norm_num
  · have := ((C57_reload_iff "/root" _ _ ac (by decide) hac).1 h w hw s hs).2.2.1
    rw [h1] at this
    exact absurd (this (by decide)) (by decide)

example : ∃ f ac, loadAircraft "/root" (fun _ => true) f = .ok ac ∧
    ∀ w ∈ ac.wings, ∀ s ∈ w.segments, Survives "/root" s := by
  obtain ⟨ac, hac, w, hw, s, hs, hv, h1, h2, h3, h4⟩ := demoFile_load "/root" (fun _ => true)
    demoTrapezoid "airfoils/blade.x" (by simp [NoSpan, demoTrapezoid]) rfl rfl
  refine ⟨_, ac, hac, fun w' hw' s' hs' => ?_⟩
  rw [h3, List.mem_singleton] at hw'
  subst hw'
  rw [h4, List.mem_singleton] at hs'
  subst hs'
  refine ⟨?_, ?_, ?_, ?_⟩
  · rw [hv]; simp [demoTrapezoid, Backward]
  · rw [hv]; simp [demoTrapezoid, Backward]; norm_num
  · rw [h1]; intro _; decide
  · rw [h2]; intro hb; exact absurd hb (by decide)

end Verif
