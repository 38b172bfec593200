import Verif.Props.AircraftFile

/-!
# Property C92: which aircraft files are accepted, and what is loaded from them
-/

namespace Verif

/-! ## Specification -/

/-- Names that can stand side by side: none is empty, no two are equal. -/
def NamesOk (l : List String) : Prop := "" ∉ l ∧ l.Nodup

/-- The airfoil used for an entry of the file: paths which begin with `airfoils` are paths below the
project directory. -/
def AirfoilAt (root entry path : String) : Prop :=
  ("airfoils".toList <+: entry.toList ∧ path = root ++ "/" ++ entry) ∨
  (¬ "airfoils".toList <+: entry.toList ∧ path = entry)

/-- A number, if given, is finite and lies in a range. -/
def Between (lo hi : ℝ) (v : Option (Flt ℝ)) : Prop := ∀ x, v = some x → ∃ y, x = .fin y ∧ lo ≤ y ∧ y ≤ hi

/-- Geometry data, as far as they are given, lie in their ranges. -/
structure GeoOk (g : SegGeo) : Prop where
  innerAlpha : Between (-90) 90 g.innerAlpha
  outerAlpha : Between (-90) 90 g.outerAlpha
  innerBeta : Between (-90) 90 g.innerBeta
  outerBeta : Between (-90) 90 g.outerBeta
  innerAxis : Between 0 1 g.innerAxis
  outerAxis : Between 0 1 g.outerAxis
  sweep : Between (-90) 90 g.sweep
  dihedral : Between (-180) 180 g.dihedral

/-- A usable entry of a segment. -/
structure SegmentEntryOk (root : String) (airfoilOk : String → Bool) (s : FileSegment) : Prop where
  vertices : ∃ p, AllGiven s.vertices p
  geometry : GeoOk s.geometry
  numC : ∀ n, s.numC = some n → 0 < n
  numS : ∀ n, s.numS = some n → 0 < n
  inner : ∃ p, AirfoilAt root s.airfoilInner p ∧ airfoilOk p = true
  outer : ∃ p, AirfoilAt root s.airfoilOuter p ∧ airfoilOk p = true

/-- A usable entry of a control. -/
def ControlEntryOk (symmetry : ℕ) (c : FileControl) : Prop :=
  (c.data.deviceType = some "slat" ∨ c.data.deviceType = some "flap") ∧ c.data.Usable symmetry

/-- A usable entry of a wing: the names are in order, the symmetry is one of the four, each segment
and control is usable, and some leading edge has an extent in the y-z plane. -/
structure WingEntryOk (root : String) (airfoilOk : String → Bool) (w : FileWing) : Prop where
  symmetry : w.symmetry ≤ 3
  segmentNames : NamesOk (w.segments.map (·.uid))
  controlNames : NamesOk (w.controls.map (·.uid))
  segments : ∀ s ∈ w.segments, SegmentEntryOk root airfoilOk s
  controls : ∀ c ∈ w.controls, ControlEntryOk w.symmetry c
  span : w.segments ≠ [] → ∃ s ∈ w.segments, ∃ p, AllGiven s.vertices p ∧ ¬ NoSpan p

/-- A well-formed aircraft file. -/
structure FileOk (root : String) (airfoilOk : String → Bool) (f : FileAircraft) : Prop where
  names : NamesOk (f.wings.map (·.uid))
  area : 0 < f.refs.area
  span : 0 < f.refs.span
  chord : 0 < f.refs.chord
  wings : ∀ w ∈ f.wings, WingEntryOk root airfoilOk w

/-- A segment has the content of its entry. -/
structure SegmentFrom (root : String) (e : FileSegment) (s : LoadedSegment) : Prop where
  uid : s.uid = e.uid
  vertices : AllGiven e.vertices s.gen.vertices
  inner : AirfoilAt root e.airfoilInner s.airfoilInner
  outer : AirfoilAt root e.airfoilOuter s.airfoilOuter
  numC : s.numC = e.numC
  numS : s.numS = e.numS

/-- A wing has the content of its entry. -/
structure WingFrom (root : String) (e : FileWing) (w : LoadedWing) : Prop where
  uid : w.uid = e.uid
  symmetry : w.symmetry = e.symmetry
  segments : List.Forall₂ (SegmentFrom root) e.segments w.segments
  controls : List.Forall₂ (fun (e' : FileControl) (c : FileControl) =>
    c.uid = e'.uid ∧ c.data = e'.data.completed e.symmetry) e.controls w.controls

/-! ## Proof -/

theorem checkNames_iff : ∀ (l seen : List String),
    checkNames seen l = .ok () ↔ "" ∉ l ∧ l.Nodup ∧ ∀ s ∈ l, s ∉ seen := by
  intro l
  induction l with
  | nil => intro seen; simp [checkNames]
  | cons s rest ih =>
    intro seen
    unfold checkNames
    split_ifs with h1 h2
    · subst h1; simp
    · simp only [reduceCtorEq, false_iff]
      rintro ⟨-, -, h⟩
      exact h s (by simp) h2
    · rw [ih, List.nodup_cons]
      constructor
      · rintro ⟨a, b, c⟩
        refine ⟨?_, ⟨fun hs => c s hs (by simp), b⟩, ?_⟩
        · intro hm
          rcases List.mem_cons.1 hm with h | h
          · exact h1 h.symm
          · exact a h
        · intro t ht
          rcases List.mem_cons.1 ht with rfl | ht
          · exact h2
          · exact fun hx => c t ht (List.mem_cons_of_mem _ hx)
      · rintro ⟨a, ⟨b1, b2⟩, c⟩
        refine ⟨fun h => a (List.mem_cons_of_mem _ h), b2, ?_⟩
        intro t ht hx
        rcases List.mem_cons.1 hx with rfl | hx
        · exact b1 ht
        · exact c t (List.mem_cons_of_mem _ ht) hx

theorem checkNames_namesOk (l : List String) : checkNames [] l = .ok () ↔ NamesOk l := by
  rw [checkNames_iff]; simp [NamesOk]

theorem airfoilAt_iff (root v p : String) : AirfoilAt root v p ↔ p = loadAirfoil root v := by
  unfold AirfoilAt loadAirfoil
  by_cases h : "airfoils".toList <+: v.toList
  · rw [if_pos (List.isPrefixOf_iff_prefix.2 h)]
    exact ⟨fun hx => hx.elim (·.2) fun hy => absurd h hy.1, fun hx => .inl ⟨h, hx⟩⟩
  · rw [if_neg (fun hx => h (List.isPrefixOf_iff_prefix.1 hx))]
    exact ⟨fun hx => hx.elim (fun hy => absurd hy.1 h) (·.2), fun hx => .inr ⟨h, hx⟩⟩

theorem between_iff (lo hi : ℝ) (v : Option (Flt ℝ)) : Between lo hi v ↔ inRange lo hi v := by
  unfold Between inRange
  cases v with
  | none => simp
  | some x => cases x <;> simp

theorem geoOk_iff (g : SegGeo) : GeoOk g ↔ g.withAxes.schema := by
  have axis : ∀ v : Option (Flt ℝ), inRange 0 1 v ↔ inRange 0 1 (some (v.getD (.fin 0.25))) := by
    intro v
    cases v with
    | none => simp only [inRange, Option.getD_none, true_iff]; norm_num
    | some x => rfl
  constructor
  · rintro ⟨a1, a2, a3, a4, a5, a6, a7, a8⟩
    rw [between_iff] at *
    exact ⟨a1, a2, a3, a4, (axis _).1 a5, (axis _).1 a6, a7, a8⟩
  · rintro ⟨a1, a2, a3, a4, a5, a6, a7, a8⟩
    constructor <;> rw [between_iff]
    · exact a1
    · exact a2
    · exact a3
    · exact a4
    · exact (axis _).2 a5
    · exact (axis _).2 a6
    · exact a7
    · exact a8

theorem panelsOk_iff (n : Option ℤ) : panelsOk n = true ↔ ∀ k, n = some k → 0 < k := by
  cases n <;> simp [panelsOk]

theorem loadSegment_iff (root : String) (airfoilOk : String → Bool) (s : FileSegment) :
    (∃ x, loadSegment root airfoilOk s = .ok x) ↔ SegmentEntryOk root airfoilOk s := by
  constructor
  · rintro ⟨x, h⟩
    unfold loadSegment at h
    simp only [] at h
    split_ifs at h with hp ha
    · split at h <;> cases h
    split at h
    · cases h
    · rename_i g hg
      simp only [Bool.not_eq_true', Bool.not_eq_false, Bool.and_eq_true] at hp ha
      obtain ⟨h1, h2⟩ := (C67_four_vertices _ _).1 ⟨g, hg⟩
      exact ⟨h1, (geoOk_iff _).2 h2, (panelsOk_iff _).1 hp.1, (panelsOk_iff _).1 hp.2,
        ⟨_, (airfoilAt_iff _ _ _).2 rfl, ha.1⟩, ⟨_, (airfoilAt_iff _ _ _).2 rfl, ha.2⟩⟩
  · rintro ⟨h1, h2, h3, h4, ⟨p, h5, h5'⟩, ⟨q, h6, h6'⟩⟩
    obtain ⟨g, hg⟩ := (C67_four_vertices _ _).2 ⟨h1, (geoOk_iff _).1 h2⟩
    rw [airfoilAt_iff] at h5 h6
    subst h5; subst h6
    unfold loadSegment
    simp only [(panelsOk_iff _).2 h3, (panelsOk_iff _).2 h4, hg, h5', h6']
    exact ⟨_, rfl⟩

theorem loadSegment_from {root : String} {airfoilOk : String → Bool} {s : FileSegment}
    {x : FileSegment × GenSegment} (h : loadSegment root airfoilOk s = .ok x) (p : ℝ × ℝ) :
    generateSegment s.vertices s.geometry = .ok x.2 ∧ SegmentFrom root s (LoadedSegment.of (x, p)) := by
  unfold loadSegment at h
  simp only [] at h
  split_ifs at h with hp ha
  · split at h <;> cases h
  split at h
  · cases h
  · rename_i g hg
    cases h
    exact ⟨hg, ⟨rfl, (generate_ok hg).1, (airfoilAt_iff _ _ _).2 rfl, (airfoilAt_iff _ _ _).2 rfl, rfl, rfl⟩⟩

theorem loadControl_iff (sym : ℕ) (c d : FileControl) :
    loadControl sym c = .ok d ↔ ControlEntryOk sym c ∧ d = ⟨c.uid, c.data.completed sym⟩ := by
  unfold loadControl
  cases hd : c.data.deviceType with
  | none => simp [ControlEntryOk, hd]
  | some s =>
    simp only []
    cases hs : c.data.setDeviceType (.str s) with
    | error e =>
      simp only [reduceCtorEq, false_iff]
      rintro ⟨⟨h, -⟩, -⟩
      have hset : ∀ t, (t = "slat" ∨ t = "flap") → s = t → False := by
        rintro t ht rfl
        have : c.data.setDeviceType (.str s) = .ok { c.data with deviceType := some s } := by
          rw [C52_device_type]
          rcases ht with rfl | rfl
          · exact .inl ⟨rfl, rfl⟩
          · exact .inr ⟨rfl, rfl⟩
        rw [hs] at this
        cases this
      rw [hd] at h
      rcases h with h | h
      · exact hset _ (.inl rfl) (Option.some.inj h)
      · exact hset _ (.inr rfl) (Option.some.inj h)
    | ok c' =>
      have e : c' = c.data ∧ (s = "slat" ∨ s = "flap") := by
        rw [C52_device_type] at hs
        rcases hs with ⟨h1, h2⟩ | ⟨h1, h2⟩
        · simp only [PyVal.str.injEq] at h1
          subst h1
          exact ⟨by rw [h2, ← hd], .inl rfl⟩
        · simp only [PyVal.str.injEq] at h1
          subst h1
          exact ⟨by rw [h2, ← hd], .inr rfl⟩
      obtain ⟨rfl, ht⟩ := e
      simp only []
      have hk : ControlEntryOk sym c ↔ c.data.Usable sym := by
        unfold ControlEntryOk
        rw [hd]
        simp only [Option.some.injEq]
        exact and_iff_right ht
      rw [hk]
      cases hc : c.data.check sym with
      | error e =>
        simp only [reduceCtorEq, false_iff]
        rintro ⟨h, -⟩
        have := (C52_check c.data _ sym).2 ⟨h, rfl⟩
        rw [hc] at this
        cases this
      | ok d' =>
        obtain ⟨h1, rfl⟩ := (C52_check _ _ _).1 hc
        simp only [Except.ok.injEq, h1, true_and]
        exact eq_comm

theorem noSpan_given {v : Corners (Option (V3 ℝ))} {p q : Corners (V3 ℝ)} (h : AllGiven v p)
    (h' : AllGiven v q) : p = q := by
  obtain ⟨a, b, c, d⟩ := h
  obtain ⟨a', b', c', d'⟩ := h'
  rw [a] at a'; rw [b] at b'; rw [c] at c'; rw [d] at d'
  cases p; cases q
  simp_all

theorem positions_iff (spans : List ℝ) (h : ∀ s ∈ spans, 0 ≤ s) :
    (∃ ps, positions spans = .ok ps) ↔ (spans ≠ [] → ∃ s ∈ spans, s ≠ 0) := by
  constructor
  · rintro ⟨ps, hp⟩ hne
    by_contra hx
    push Not at hx
    rw [C53_no_span spans hne hx] at hp
    cases hp
  · intro hx
    by_cases hne : spans = []
    · subst hne; exact ⟨[], rfl⟩
    · obtain ⟨ps, hp, -⟩ := C53_positions spans h (hx hne)
      exact ⟨ps, hp⟩

theorem loadWing_iff (root : String) (airfoilOk : String → Bool) (w : FileWing) :
    (∃ x, loadWing root airfoilOk w = .ok x) ↔ WingEntryOk root airfoilOk w := by
  have hsym : w.symmetry ∈ [0, 1, 2, 3] ↔ w.symmetry ≤ 3 := by
    simp only [List.mem_cons, List.not_mem_nil, or_false]; omega
  have hspan : ∀ gs, mapE (loadSegment root airfoilOk) w.segments = .ok gs →
      ((∃ ps, positions (gs.map fun g => fltVal g.2.geometry.span) = .ok ps) ↔
        (w.segments ≠ [] → ∃ s ∈ w.segments, ∃ p, AllGiven s.vertices p ∧ ¬ NoSpan p)) := by
    intro gs hgs
    have hf := mapE_ok_mem hgs
    have hg : ∀ g ∈ gs, ∃ s ∈ w.segments, loadSegment root airfoilOk s = .ok g := by
      intro g hg
      obtain ⟨a, _, ha⟩ := forall₂_mem_right hf hg
      exact ⟨a, ha.1, ha.2⟩
    rw [positions_iff]
    · have hne : (gs.map fun g => fltVal g.2.geometry.span) ≠ [] ↔ w.segments ≠ [] := by
        have := hf.length_eq
        rw [ne_eq, ne_eq, List.map_eq_nil_iff, ← List.length_eq_zero_iff, ← List.length_eq_zero_iff, this]
      rw [hne]
      refine imp_congr_right fun _ => ?_
      constructor
      · rintro ⟨x, hx, h0⟩
        obtain ⟨g, hgm, rfl⟩ := List.mem_map.1 hx
        obtain ⟨s, hs, hl⟩ := hg g hgm
        have hgen := (loadSegment_from hl (0, 0)).1
        refine ⟨s, hs, g.2.vertices, (generate_ok hgen).1, ?_⟩
        exact fun hn => h0 ((generated_span hgen).2.2 hn)
      · rintro ⟨s, hs, p, hp, hn⟩
        obtain ⟨g, hgs', hl⟩ := forall₂_mem_left (mapE_ok hgs) hs
        have hgen := (loadSegment_from hl (0, 0)).1
        refine ⟨_, List.mem_map.2 ⟨g, hgs', rfl⟩, fun h0 => hn ?_⟩
        rw [noSpan_given hp (generate_ok hgen).1]
        exact (generated_span hgen).2.1 h0
    · intro x hx
      obtain ⟨g, hgm, rfl⟩ := List.mem_map.1 hx
      obtain ⟨s, -, hl⟩ := hg g hgm
      exact (generated_span (loadSegment_from hl (0, 0)).1).1
  constructor
  · rintro ⟨x, h⟩
    unfold loadWing at h
    split_ifs at h with hs
    cases h1 : checkNames [] (w.segments.map (·.uid)) with
    | error e => simp [h1] at h
    | ok u1 =>
    cases h2 : checkNames [] (w.controls.map (·.uid)) with
    | error e => simp [h1, h2] at h
    | ok u2 =>
    simp only [h1, h2] at h
    cases h3 : mapE (loadControl w.symmetry) w.controls with
    | error e => simp [h3] at h
    | ok cs =>
    cases h4 : mapE (loadSegment root airfoilOk) w.segments with
    | error e => simp [h3, h4] at h
    | ok gs =>
    simp only [h3, h4] at h
    cases h5 : positions (gs.map fun g => fltVal g.2.geometry.span) with
    | error e => simp [h5] at h
    | ok ps =>
    refine ⟨hsym.1 hs, (checkNames_namesOk _).1 h1, (checkNames_namesOk _).1 h2, ?_, ?_,
      (hspan gs h4).1 ⟨ps, h5⟩⟩
    · intro s hs
      exact (loadSegment_iff _ _ _).1 (mapE_mem h4 s hs)
    · intro c hc
      obtain ⟨d, hd⟩ := mapE_mem h3 c hc
      exact ((loadControl_iff _ _ _).1 hd).1
  · rintro ⟨h0, h1, h2, h3, h4, h5⟩
    obtain ⟨cs, hcs⟩ := mapE_total (f := loadControl w.symmetry) (l := w.controls)
      fun c hc => ⟨_, (loadControl_iff _ _ _).2 ⟨h4 c hc, rfl⟩⟩
    obtain ⟨gs, hgs⟩ := mapE_total (f := loadSegment root airfoilOk) (l := w.segments)
      fun s hs => (loadSegment_iff _ _ _).2 (h3 s hs)
    obtain ⟨ps, hps⟩ := (hspan gs hgs).2 h5
    unfold loadWing
    rw [if_neg (not_not.2 (hsym.2 h0))]
    simp only [(checkNames_namesOk _).2 h1, (checkNames_namesOk _).2 h2, hcs, hgs, hps]
    exact ⟨_, rfl⟩

theorem loadWing_from {root : String} {airfoilOk : String → Bool} {e : FileWing} {w : LoadedWing}
    (h : loadWing root airfoilOk e = .ok w) :
    WingFrom root e w ∧
      Contiguous (w.segments.map fun s => fltVal s.gen.geometry.span) (w.segments.map (·.position)) := by
  have hok := (loadWing_iff _ _ _).1 ⟨w, h⟩
  unfold loadWing at h
  split_ifs at h with hs
  cases h1 : checkNames [] (e.segments.map (·.uid)) with
  | error e => simp [h1] at h
  | ok u1 =>
  cases h2 : checkNames [] (e.controls.map (·.uid)) with
  | error e => simp [h1, h2] at h
  | ok u2 =>
  simp only [h1, h2] at h
  cases h3 : mapE (loadControl e.symmetry) e.controls with
  | error e => simp [h3] at h
  | ok cs =>
  cases h4 : mapE (loadSegment root airfoilOk) e.segments with
  | error e => simp [h3, h4] at h
  | ok gs =>
  simp only [h3, h4] at h
  cases h5 : positions (gs.map fun g => fltVal g.2.geometry.span) with
  | error e => simp [h5] at h
  | ok ps =>
  simp only [h5, Except.ok.injEq] at h
  subst h
  have hl : gs.length = ps.length := by
    have := positions_length h5
    simpa using this.symm
  refine ⟨⟨rfl, rfl, ?_, ?_⟩, ?_⟩
  · have := mapE_ok h4
    clear h5 h1 hok h4
    generalize e.segments = l at this
    induction this generalizing ps with
    | nil => exact .nil
    | cons hx _ ih =>
      cases ps with
      | nil => simp at hl
      | cons p ps =>
        simp only [List.zip_cons_cons, List.map_cons]
        exact .cons (loadSegment_from hx p).2 (ih ps (by simpa using hl))
  · refine (mapE_ok h3).imp ?_
    intro a b hab
    obtain ⟨-, rfl⟩ := (loadControl_iff _ _ _).1 hab
    exact ⟨rfl, rfl⟩
  · obtain ⟨z1, z2, -⟩ := zip_of hl
    simp only [z1, z2]
    have hf := mapE_ok_mem h4
    have hn : ∀ x ∈ gs.map fun g => fltVal g.2.geometry.span, 0 ≤ x := by
      intro x hx
      obtain ⟨g, hgm, rfl⟩ := List.mem_map.1 hx
      obtain ⟨a, _, ha⟩ := forall₂_mem_right hf hgm
      exact (generated_span (loadSegment_from ha.2 (0, 0)).1).1
    by_cases hg : gs = []
    · subst hg
      have : ps = [] := by simpa using hl.symm
      subst this
      constructor <;> simp
    · obtain ⟨ps', hp, hc⟩ := C53_positions _ hn ((positions_iff _ hn).1 ⟨ps, h5⟩ (by simpa using hg))
      rw [h5] at hp
      cases hp
      exact hc

/-! ## The property -/

/-- **C92.** An aircraft file is loaded exactly if it is well-formed. -/
theorem C92_accepted_iff (root : String) (airfoilOk : String → Bool) (f : FileAircraft) :
    (∃ ac, loadAircraft root airfoilOk f = .ok ac) ↔ FileOk root airfoilOk f := by
  constructor
  · rintro ⟨ac, h⟩
    unfold loadAircraft at h
    cases h1 : checkNames [] (f.wings.map (·.uid)) with
    | error e => simp [h1] at h
    | ok u =>
    simp only [h1] at h
    split_ifs at h with href
    cases h2 : mapE (loadWing root airfoilOk) f.wings with
    | error e => simp [h2] at h
    | ok ws =>
    exact ⟨(checkNames_namesOk _).1 h1, href.1, href.2.1, href.2.2,
      fun w hw => (loadWing_iff _ _ _).1 (mapE_mem h2 w hw)⟩
  · rintro ⟨h1, h2, h3, h4, h5⟩
    obtain ⟨ws, hws⟩ := mapE_total (f := loadWing root airfoilOk) (l := f.wings)
      fun w hw => (loadWing_iff _ _ _).2 (h5 w hw)
    unfold loadAircraft
    simp only [(checkNames_namesOk _).2 h1]
    rw [if_neg (not_not.2 ⟨h2, h3, h4⟩)]
    simp only [hws]
    exact ⟨_, rfl⟩

/-- **C92.** The loaded aircraft has the name and reference values of the file and one wing for each
entry, in order, which has the content of its entry: corners, airfoils, numbers of panels and control
surfaces; the positions of its segments are contiguous. -/
theorem C92_content (root : String) (airfoilOk : String → Bool) (f : FileAircraft) (ac : LoadedAircraft)
    (h : loadAircraft root airfoilOk f = .ok ac) :
    ac.uid = f.uid ∧ ac.refs = f.refs ∧ List.Forall₂ (WingFrom root) f.wings ac.wings ∧
    ∀ w ∈ ac.wings,
      Contiguous (w.segments.map fun s => fltVal s.gen.geometry.span) (w.segments.map (·.position)) := by
  unfold loadAircraft at h
  cases h1 : checkNames [] (f.wings.map (·.uid)) with
  | error e => simp [h1] at h
  | ok u =>
  simp only [h1] at h
  split_ifs at h with href
  cases h2 : mapE (loadWing root airfoilOk) f.wings with
  | error e => simp [h2] at h
  | ok ws =>
  simp only [h2, Except.ok.injEq] at h
  subst h
  refine ⟨rfl, rfl, (mapE_ok h2).imp fun _ _ hw => (loadWing_from hw).1, ?_⟩
  intro w hw
  obtain ⟨a, _, ha⟩ := forall₂_mem_right (mapE_ok h2) hw
  exact (loadWing_from ha).2

-- a well-formed file
example : FileOk "/root" (fun _ => true) (demoFile demoTrapezoid "airfoils/blade.x") := by
  obtain ⟨ac, h, -⟩ := demoFile_load "/root" (fun _ => true) demoTrapezoid "airfoils/blade.x"
    (by simp [NoSpan, demoTrapezoid]) rfl rfl
  exact (C92_accepted_iff _ _ _).1 ⟨ac, h⟩

-- the same wing twice is not
example (root : String) (airfoilOk : String → Bool) (f : FileAircraft) (w : FileWing)
    (h : f.wings = [w, w]) : ¬ ∃ ac, loadAircraft root airfoilOk f = .ok ac := by
  rw [C92_accepted_iff]
  intro hf
  have := hf.names.2
  rw [h] at this
  simp at this

end Verif
