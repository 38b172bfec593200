import Verif.Lemmas.CpacsImport

/-!
# Properties C113 and C114: loading and converting CPACS files
-/

namespace Verif

/-! ## Specification -/

/-- The aircraft file a blade of this name is stored in. -/
def bladeFile (alnum : Char → Bool) (root name : String) : String :=
  root ++ "/airfoils/blade." ++ cleaned alnum name

/-- A segment has the content of its CPACS element: name, corners, airfoils; the numbers of panels are
left open. -/
structure SegmentOfCpacs (alnum : Char → Bool) (root : String) (s : CpacsSegment ℝ)
    (l : LoadedSegment) : Prop where
  uid : ∀ u, s.uid = some u → l.uid = cleaned alnum u
  corners : l.gen.vertices.toList.Perm (midPoints s).toList
  ordered : OrderedCorners (midPoints s) → l.gen.vertices = midPoints s
  inner : l.airfoilInner = bladeFile alnum root s.airfoilInner
  outer : l.airfoilOuter = bladeFile alnum root s.airfoilOuter
  numC : l.numC = none
  numS : l.numS = none

/-- A wing has the content of its CPACS element. -/
structure WingOfCpacs (alnum : Char → Bool) (root : String) (w : CpacsWing ℝ) (l : LoadedWing) :
    Prop where
  uid : ∀ u, w.uid = some u → l.uid = cleaned alnum u
  symmetry : l.symmetry = w.symmetry
  segments : ∃ segs, w.segments = some segs ∧
    List.Forall₂ (SegmentOfCpacs alnum root) segs l.segments

/-- An aircraft has the content of a CPACS file: name, reference values, wings.  The reference point is
the gravity centre as well, the reference length both span and chord. -/
structure AircraftOfCpacs {α : Type*} (alnum : Char → Bool) (root : String) (doc : CpacsDoc α)
    (ac : LoadedAircraft) : Prop where
  name : (doc.model = none ∧ ac.uid = "NAME_NOT_FOUND") ∨
    ∃ u, doc.model = some (some u) ∧ ac.uid = cleaned alnum u
  area : doc.area = some ac.refs.area
  span : doc.length = some ac.refs.span
  chord : doc.length = some ac.refs.chord
  gcenter : doc.point = some ac.refs.gcenter
  rcenter : doc.point = some ac.refs.rcenter
  wings : List.Forall₂ (WingOfCpacs alnum root) doc.file.wings ac.wings

/-- The chord has an extent in the x-y plane. -/
def HasChord (e : V3 ℝ) : Prop := e.x ≠ 0 ∨ e.y ≠ 0

/-! ## Airfoil files -/

section
variable {α : Type*}

theorem write_other (root : String) : ∀ (fs : List (String × α)) (disk : Disk α) (path : String),
    (∀ f ∈ fs, path ≠ root ++ "/" ++ f.1) → disk.write root fs path = disk path := by
  intro fs
  induction fs with
  | nil => intros; rfl
  | cons f fs ih =>
    intro disk path h
    show Disk.write root (Function.update disk (root ++ "/" ++ f.1) (some f.2)) fs path = _
    rw [ih _ _ fun g hg => h g (List.mem_cons_of_mem _ hg),
      Function.update_of_ne (h f (by simp))]

theorem write_mem (root : String) : ∀ (fs : List (String × α)) (disk : Disk α) (f : String × α),
    f ∈ fs → (fs.map Prod.fst).Nodup → disk.write root fs (root ++ "/" ++ f.1) = some f.2 := by
  intro fs
  induction fs with
  | nil => intro disk f h; cases h
  | cons g fs ih =>
    intro disk f h hn
    rw [List.map_cons, List.nodup_cons] at hn
    show Disk.write root (Function.update disk (root ++ "/" ++ g.1) (some g.2)) fs _ = _
    rcases List.mem_cons.1 h with rfl | h
    · rw [write_other, Function.update_self]
      intro x hx he
      refine hn.1 (List.mem_map.2 ⟨x, hx, ?_⟩)
      have := congrArg String.toList he
      rw [String.toList_append (s := root ++ "/"), String.toList_append (s := root ++ "/")] at this
      exact (String.toList_injective (List.append_cancel_left this)).symm
    · exact ih _ f h hn.2

/-! ## Loading -/

/-- What a successful import went through. -/
structure CpacsSteps (alnum : Char → Bool) (A : Airfoils α) (root : String) (dir : Bool)
    (disk disk' : Disk α) (doc : CpacsDoc α) (ac : LoadedAircraft) (l : List (CpacsAirfoil α))
    (refs : AcRefs) (ws : List (ImpWing ℝ)) : Prop where
  name : cpacsName alnum doc = .ok ac.uid
  hasWings : doc.hasWings = true
  wings : importWings alnum doc.file = .ok ws
  airfoils : doc.airfoils = some l
  dir : dir = true ∨ l = []
  reference : cpacsRefs doc = .ok refs
  disk : disk' = disk.write root (List.zipWith (fun n a => (airfoilFile n, a.coords))
    (storedNames alnum 1 l) l)
  load : loadAircraft root (A.ok disk') (importedFile ac.uid refs ws) = .ok ac

theorem cpacsLoad_steps {alnum : Char → Bool} {A : Airfoils α} {root : String} {dir : Bool}
    {disk disk' : Disk α} {doc : CpacsDoc α} {ac : LoadedAircraft}
    (h : cpacsLoad alnum A root dir disk doc = (disk', .ok ac)) :
    ∃ l refs ws, CpacsSteps alnum A root dir disk disk' doc ac l refs ws := by
  unfold cpacsLoad at h
  cases h1 : cpacsName alnum doc with
  | error e => simp [h1] at h
  | ok uid =>
  simp only [h1] at h
  cases h2 : doc.hasWings with
  | false => simp [h2] at h
  | true =>
  simp only [h2, Bool.not_true, Bool.false_eq_true, if_false] at h
  cases h3 : importWings alnum doc.file with
  | error e => simp [h3] at h
  | ok ws =>
  simp only [h3] at h
  cases h4 : doc.airfoils with
  | none => simp [h4] at h
  | some l =>
  simp only [h4, writeAirfoils_eq] at h
  split_ifs at h with h5
  · cases h
  cases h6 : cpacsRefs doc with
  | error e => simp [h6] at h
  | ok refs =>
  simp only [h6, Prod.mk.injEq] at h
  obtain ⟨rfl, h⟩ := h
  rw [← loadAircraft_imported h3] at h
  have hu : ac.uid = uid := (C92_content _ _ _ _ h).1
  subst hu
  refine ⟨l, refs, ws, h1, h2, h3, h4, ?_, h6, rfl, h⟩
  simp only [Bool.and_eq_true, Bool.not_eq_true', not_and, Bool.not_eq_false] at h5
  cases hd : dir with
  | true => exact .inl rfl
  | false =>
    have := h5 hd
    cases l with
    | nil => exact .inr rfl
    | cons a l => simp [storedNames] at this

theorem cpacsLoad_of_steps {alnum : Char → Bool} {A : Airfoils α} {root : String} {dir : Bool}
    {disk disk' : Disk α} {doc : CpacsDoc α} {ac : LoadedAircraft} {l : List (CpacsAirfoil α)}
    {refs : AcRefs} {ws : List (ImpWing ℝ)}
    (h : CpacsSteps alnum A root dir disk disk' doc ac l refs ws) :
    cpacsLoad alnum A root dir disk doc = (disk', .ok ac) := by
  obtain ⟨h1, h2, h3, h4, h5, h6, rfl, h8⟩ := h
  unfold cpacsLoad
  have hd : (!dir && !(List.zipWith (fun n (a : CpacsAirfoil α) => (airfoilFile n, a.coords))
      (storedNames alnum 1 l) l).isEmpty) = false := by
    rcases h5 with rfl | rfl
    · rfl
    · simp [storedNames]
  rw [loadAircraft_imported h3] at h8
  simp only [h1, h2, h3, h4, writeAirfoils_eq, h6, hd]
  rw [h8]
  rfl

/-- The segments an imported file asks for. -/
theorem segment_of_cpacs {alnum : Char → Bool} {root : String} {s : CpacsSegment ℝ}
    {e : String × ImpSegment ℝ} {x : LoadedSegment} (h : SegmentImported alnum s e)
    (hx : SegmentFrom root (ImpSegment.entry e) x) :
    SegmentOfCpacs alnum root s x ∧ x.gen.vertices = e.2.vertices ∧
      x.gen.vertices.a.x ≤ x.gen.vertices.d.x ∧ x.gen.vertices.b.x ≤ x.gen.vertices.c.x := by
  obtain ⟨h1, h2, h3, h4, h5, h6, h7⟩ := h
  have hv : x.gen.vertices = e.2.vertices := by
    obtain ⟨a, b, c, d⟩ := hx.vertices
    simp only [ImpSegment.entry, Option.some.injEq] at a b c d
    generalize x.gen.vertices = v at a b c d
    cases v
    simp only at a b c d
    subst a b c d
    rfl
  have hair : ∀ n p, AirfoilAt root ("airfoils/blade." ++ cleaned alnum n) p → p = bladeFile alnum root n := by
    intro n p hp
    rcases hp with ⟨-, rfl⟩ | ⟨hn, -⟩
    · apply String.toList_injective
      unfold bladeFile
      simp [String.toList_append]
    · refine absurd ?_ hn
      rw [String.toList_append]
      exact List.IsPrefix.trans (by decide) (List.prefix_append _ _)
  refine ⟨⟨?_, ?_, ?_, ?_, ?_, hx.numC, hx.numS⟩, hv, ?_, ?_⟩
  · intro u hu; rw [hx.uid]; exact h1 u hu
  · rw [hv]; exact h2
  · rw [hv]; exact h5
  · exact hair _ _ (h6 ▸ hx.inner)
  · exact hair _ _ (h7 ▸ hx.outer)
  · rw [hv]; exact h3
  · rw [hv]; exact h4

theorem forall₂_map_left {β γ δ : Type*} {R : γ → δ → Prop} {f : β → γ} : ∀ {l : List β} {m : List δ},
    List.Forall₂ R (l.map f) m → List.Forall₂ (fun a b => R (f a) b) l m := by
  intro l
  induction l with
  | nil => intro m h; cases h; exact .nil
  | cons a l ih =>
    intro m h
    rw [List.map_cons] at h
    cases h with
    | cons h1 h2 => exact .cons h1 (ih h2)

/-- The loaded wings, one for one. -/
theorem wings_of_cpacs {alnum : Char → Bool} {root : String} {airfoilOk : String → Bool}
    {f : CpacsFile ℝ} {ws : List (ImpWing ℝ)} (hw : importWings alnum f = .ok ws) {uid : String}
    {refs : AcRefs} {ac : LoadedAircraft}
    (h : loadAircraft root airfoilOk (importedFile uid refs ws) = .ok ac) :
    List.Forall₂ (fun (w : CpacsWing ℝ) (l : LoadedWing) => WingOfCpacs alnum root w l ∧
      ∀ s ∈ l.segments, s.gen.vertices.a.x ≤ s.gen.vertices.d.x ∧
        s.gen.vertices.b.x ≤ s.gen.vertices.c.x) f.wings ac.wings := by
  obtain ⟨-, -, h3, -⟩ := C92_content _ _ _ _ h
  refine forall₂_trans ?_ (C62_import alnum f ws hw).1 (forall₂_map_left h3)
  rintro w iw l ⟨k1, k2, k3, -, segs, k5, k6⟩ hl
  have hsegs : List.Forall₂ (fun (s : CpacsSegment ℝ) (x : LoadedSegment) =>
      SegmentOfCpacs alnum root s x ∧ x.gen.vertices.a.x ≤ x.gen.vertices.d.x ∧
        x.gen.vertices.b.x ≤ x.gen.vertices.c.x) segs l.segments := by
    refine forall₂_trans ?_ k6 (forall₂_map_left (f := ImpSegment.entry) hl.segments)
    intro s e x he hx
    obtain ⟨a, -, b, c⟩ := segment_of_cpacs he hx
    exact ⟨a, b, c⟩
  refine ⟨⟨fun u hu => ?_, ?_, segs, k5, hsegs.imp fun _ _ h => h.1⟩, ?_⟩
  · rw [hl.uid]; exact k3 u hu
  · rw [hl.symmetry]; exact k1
  · intro s hs
    obtain ⟨_, -, hx⟩ := forall₂_mem_right hsegs hs
    exact hx.2

theorem cpacsRefs_ok {doc : CpacsDoc α} {refs : AcRefs} (h : cpacsRefs doc = .ok refs) :
    doc.area = some refs.area ∧ doc.length = some refs.span ∧ doc.length = some refs.chord ∧
      doc.point = some refs.gcenter ∧ doc.point = some refs.rcenter := by
  unfold cpacsRefs at h
  cases h1 : doc.point with
  | none => simp [h1] at h
  | some p =>
  cases h2 : doc.area with
  | none => simp [h1, h2] at h
  | some a =>
  cases h3 : doc.length with
  | none => simp [h1, h2, h3] at h
  | some x =>
    simp only [h1, h2, h3, Except.ok.injEq] at h
    subst h
    exact ⟨rfl, rfl, rfl, rfl, rfl⟩

theorem cpacsName_ok {alnum : Char → Bool} {doc : CpacsDoc α} {u : String}
    (h : cpacsName alnum doc = .ok u) : (doc.model = none ∧ u = "NAME_NOT_FOUND") ∨
      ∃ v, doc.model = some (some v) ∧ u = cleaned alnum v := by
  unfold cpacsName at h
  cases h1 : doc.model with
  | none =>
    simp only [h1, Except.ok.injEq] at h
    exact .inl ⟨rfl, h.symm⟩
  | some o =>
    cases o with
    | none => simp [h1] at h
    | some v =>
      simp only [h1, parseStr_stored, Except.ok.injEq] at h
      exact .inr ⟨v, rfl, h.symm⟩

/-- **C113**: a loaded aircraft has the content of its CPACS file. -/
theorem C113_content (alnum : Char → Bool) (A : Airfoils α) (root : String) (dir : Bool)
    (disk disk' : Disk α) (doc : CpacsDoc α) (ac : LoadedAircraft)
    (h : cpacsLoad alnum A root dir disk doc = (disk', .ok ac)) :
    AircraftOfCpacs alnum root doc ac ∧ 0 < ac.refs.area ∧ 0 < ac.refs.span ∧
      (ac.wings.map (·.uid)).Nodup := by
  obtain ⟨l, refs, ws, h⟩ := cpacsLoad_steps h
  obtain ⟨-, hr, hw, -⟩ := C92_content _ _ _ _ h.load
  have hok := (C92_accepted_iff _ _ _).1 ⟨_, h.load⟩
  obtain ⟨r1, r2, r3, r4, r5⟩ := cpacsRefs_ok h.reference
  have hr' : ac.refs = refs := hr
  refine ⟨⟨cpacsName_ok h.name, hr' ▸ r1, hr' ▸ r2, hr' ▸ r3, hr' ▸ r4, hr' ▸ r5,
    (wings_of_cpacs h.wings h.load).imp fun _ _ h => h.1⟩, hr' ▸ hok.area, hr' ▸ hok.span, ?_⟩
  have := hok.names.2
  have e : ac.wings.map (·.uid) = (importedFile ac.uid refs ws).wings.map (·.uid) := by
    generalize (importedFile ac.uid refs ws).wings = l1 at hw
    generalize ac.wings = l2 at hw
    induction hw with
    | nil => rfl
    | cons hx _ ih => rw [List.map_cons, List.map_cons, ih, hx.uid]
  rw [e]
  exact this

/-- **C113**: the wings of the loaded aircraft have the control surfaces of the imported wings (which are
those of the file: C86). -/
theorem C113_controls (alnum : Char → Bool) (A : Airfoils α) (root : String) (dir : Bool)
    (disk disk' : Disk α) (doc : CpacsDoc α) (ac : LoadedAircraft)
    (h : cpacsLoad alnum A root dir disk doc = (disk', .ok ac)) :
    ∃ ws, importWings alnum doc.file = .ok ws ∧
      List.Forall₂ (fun (iw : ImpWing ℝ) (l : LoadedWing) => l.uid = iw.uid ∧
        List.Forall₂ (fun (kc : String × ControlDef ℝ) (c : FileControl) =>
          c.uid = kc.1 ∧ c.data = kc.2) iw.controls l.controls) ws ac.wings := by
  obtain ⟨l, refs, ws, h⟩ := cpacsLoad_steps h
  refine ⟨ws, h.wings, ?_⟩
  have hl := h.load
  rw [loadAircraft_imported h.wings] at hl
  unfold generateAircraft at hl
  split_ifs at hl
  cases hm : mapE (generateImpWing root (A.ok disk')) ws with
  | error e => simp [hm] at hl
  | ok lw =>
    simp only [hm, Except.ok.injEq] at hl
    rw [← hl]
    refine (mapE_ok hm).imp ?_
    intro iw w hw
    unfold generateImpWing at hw
    cases h1 : mapE (loadSegment root (A.ok disk')) (iw.segments.map ImpSegment.entry) with
    | error e => simp [h1] at hw
    | ok gs =>
      simp only [h1] at hw
      cases h2 : positions (gs.map fun g => fltVal g.2.geometry.span) with
      | error e => simp [h2] at hw
      | ok ps =>
        simp only [h2, Except.ok.injEq] at hw
        rw [← hw]
        refine ⟨rfl, ?_⟩
        rw [List.forall₂_map_right_iff, List.forall₂_same]
        exact fun _ _ => ⟨rfl, rfl⟩

/-- **C113** (in part): the airfoils of the file are stored, each in the file the segments refer to;
nothing else changes.  Missing: airfoils stored under the same name (`C87_airfoils_false`). -/
theorem C113_airfoils_partial (alnum : Char → Bool) (A : Airfoils α) (root : String) (dir : Bool)
    (disk disk' : Disk α) (doc : CpacsDoc α) (ac : LoadedAircraft)
    (h : cpacsLoad alnum A root dir disk doc = (disk', .ok ac)) :
    ∃ l, doc.airfoils = some l ∧
      ((storedNames alnum 1 l).Nodup → ∀ a ∈ l, ∀ n, a.name = some n →
        disk' (bladeFile alnum root n) = some a.coords) ∧
      ∀ path, (∀ n ∈ storedNames alnum 1 l, path ≠ root ++ "/airfoils/blade." ++ n) →
        disk' path = disk path := by
  obtain ⟨l, refs, ws, h⟩ := cpacsLoad_steps h
  have hpath : ∀ n, root ++ "/" ++ airfoilFile n = root ++ "/airfoils/blade." ++ n := by
    intro n
    apply String.toList_injective
    unfold airfoilFile
    simp [String.toList_append]
  refine ⟨l, h.airfoils, ?_, ?_⟩
  · intro hn a ha n hname
    have := write_mem root _ disk _ (storedNames_mem alnum hname 1 l ha) (by
      rw [storedNames_zip]
      exact hn.map airfoilFile_injective)
    rw [← h.disk, hpath] at this
    have e : storedName alnum 0 a = cleaned alnum n := by simp [storedName, hname, cleaned]
    rw [e] at this
    exact this
  · intro path hp
    rw [h.disk]
    apply write_other
    intro f hf
    have : f.1 ∈ (storedNames alnum 1 l).map airfoilFile := by
      rw [← storedNames_zip]
      exact List.mem_map.2 ⟨f, hf, rfl⟩
    obtain ⟨n, hn, hfn⟩ := List.mem_map.1 this
    rw [← hfn, hpath]
    exact hp n hn

/-- What a CPACS file must satisfy, given its imported wings `ws` and the airfoil files there are
after the import. -/
structure CpacsDocOk (alnum : Char → Bool) (A : Airfoils α) (root : String) (dir : Bool)
    (disk' : Disk α) (doc : CpacsDoc α) (ws : List (ImpWing ℝ)) : Prop where
  named : doc.model ≠ some none
  wings : doc.hasWings = true
  airfoils : ∃ l, doc.airfoils = some l ∧ (dir = true ∨ l = [])
  point : doc.point ≠ none
  area : ∃ x, doc.area = some x ∧ 0 < x
  length : ∃ x, doc.length = some x ∧ 0 < x
  readable : ∀ w ∈ doc.file.wings, ∀ segs, w.segments = some segs → ∀ s ∈ segs,
    A.ok disk' (bladeFile alnum root s.airfoilInner) = true ∧
    A.ok disk' (bladeFile alnum root s.airfoilOuter) = true
  span : ∀ w ∈ ws, w.segments ≠ [] → ∃ e ∈ w.segments, ¬ NoSpan e.2.vertices

theorem freshGeo_ok : GeoOk SegGeo.fresh := by
  constructor <;> intro x h <;> cases h

/-- **C113**: a CPACS file whose wings can be imported is loaded exactly if model, wings, airfoils and
positive reference values are there, all airfoils can be read, the directory for them exists, and no wing
is without span. -/
theorem C113_accepted_iff (alnum : Char → Bool) (A : Airfoils α) (root : String) (dir : Bool)
    (disk : Disk α) (doc : CpacsDoc α) :
    (∃ ac, (cpacsLoad alnum A root dir disk doc).2 = .ok ac) ↔
      ∃ ws, importWings alnum doc.file = .ok ws ∧
        CpacsDocOk alnum A root dir (cpacsLoad alnum A root dir disk doc).1 doc ws := by
  have hair : ∀ n p, AirfoilAt root ("airfoils/blade." ++ cleaned alnum n) p ↔
      p = bladeFile alnum root n := by
    intro n p
    have hp : "airfoils".toList <+: ("airfoils/blade." ++ cleaned alnum n).toList := by
      rw [String.toList_append]
      exact List.IsPrefix.trans (by decide) (List.prefix_append _ _)
    have he : root ++ "/" ++ ("airfoils/blade." ++ cleaned alnum n) = bladeFile alnum root n := by
      apply String.toList_injective
      unfold bladeFile
      simp [String.toList_append]
    unfold AirfoilAt
    rw [he]
    exact ⟨fun h => h.elim (·.2) fun h => absurd hp h.1, fun h => .inl ⟨hp, h⟩⟩
  constructor
  · rintro ⟨ac, h⟩
    cases hc : cpacsLoad alnum A root dir disk doc with
    | mk disk' r =>
    rw [hc] at h
    simp only at h
    subst h
    obtain ⟨l, refs, ws, h⟩ := cpacsLoad_steps hc
    have hok := (C92_accepted_iff _ _ _).1 ⟨_, h.load⟩
    obtain ⟨r1, r2, r3, r4, r5⟩ := cpacsRefs_ok h.reference
    refine ⟨ws, h.wings, ?_, h.hasWings, ⟨l, h.airfoils, h.dir⟩, by rw [r4]; simp, ⟨_, r1, hok.area⟩,
      ⟨_, r2, hok.span⟩, ?_, ?_⟩
    · intro hx
      have := h.name
      unfold cpacsName at this
      rw [hx] at this
      cases this
    · intro w hw segs hsegs s hs
      obtain ⟨iw, hiw, -, -, -, -, segs', k5, k6⟩ := forall₂_mem_left (C62_import _ _ _ h.wings).1 hw
      rw [hsegs] at k5
      cases k5
      obtain ⟨e, he, -, -, -, -, -, h6, h7⟩ := forall₂_mem_left k6 hs
      have := (hok.wings _ (List.mem_map.2 ⟨iw, hiw, rfl⟩)).segments _ (List.mem_map.2 ⟨e, he, rfl⟩)
      obtain ⟨p, hp, hp'⟩ := this.inner
      obtain ⟨q, hq, hq'⟩ := this.outer
      change AirfoilAt root e.2.airfoilInner p at hp
      change AirfoilAt root e.2.airfoilOuter q at hq
      rw [h6, hair] at hp
      rw [h7, hair] at hq
      exact ⟨hp ▸ hp', hq ▸ hq'⟩
    · intro iw hiw hne
      obtain ⟨s, hs, p, hp, hn⟩ := (hok.wings _ (List.mem_map.2 ⟨iw, hiw, rfl⟩)).span (by
        simpa [ImpWing.fileEntry] using hne)
      obtain ⟨e, he, rfl⟩ := List.mem_map.1 hs
      refine ⟨e, he, ?_⟩
      have : p = e.2.vertices := noSpan_given hp ⟨rfl, rfl, rfl, rfl⟩
      rw [← this]
      exact hn
  · rintro ⟨ws, hws, ⟨k1, k2, ⟨l, k3, k3'⟩, k4, ⟨x, k5, k5'⟩, ⟨y, k6, k6'⟩, k7, k8⟩⟩
    obtain ⟨p, hp⟩ := Option.ne_none_iff_exists'.1 k4
    have hrefs : cpacsRefs doc = .ok ⟨x, y, y, p, p, none⟩ := by
      unfold cpacsRefs
      simp only [hp, k5, k6]
    obtain ⟨uid, huid⟩ : ∃ uid, cpacsName alnum doc = .ok uid := by
      unfold cpacsName
      cases hm : doc.model with
      | none => exact ⟨_, rfl⟩
      | some o =>
        cases o with
        | none => exact absurd hm k1
        | some v => simp only [parseStr_stored]; exact ⟨_, rfl⟩
    set disk' := disk.write root (List.zipWith (fun n (a : CpacsAirfoil α) => (airfoilFile n, a.coords))
      (storedNames alnum 1 l) l) with hdisk'
    have hd : (!dir && !(List.zipWith (fun n (a : CpacsAirfoil α) => (airfoilFile n, a.coords))
        (storedNames alnum 1 l) l).isEmpty) = false := by
      rcases k3' with rfl | rfl
      · rfl
      · simp [storedNames]
    have hload : cpacsLoad alnum A root dir disk doc =
        (disk', generateAircraft root (A.ok disk') uid ⟨x, y, y, p, p, none⟩ ws) := by
      unfold cpacsLoad
      simp only [huid, k2, hws, k3, writeAirfoils_eq, hrefs, hd]
      rfl
    rw [hload] at k7 ⊢
    simp only at k7 ⊢
    rw [← loadAircraft_imported hws, C92_accepted_iff]
    have hc : ∀ w ∈ ws, ImpWingChecked w := importWingsFrom_checked (by simp) hws
    have hwi := C62_import _ _ _ hws
    refine ⟨?_, k5', k6', k6', ?_⟩
    · have e : (importedFile uid ⟨x, y, y, p, p, none⟩ ws).wings.map (·.uid) = ws.map (·.uid) := by
        unfold importedFile
        rw [List.map_map]
        rfl
      rw [e]
      refine ⟨?_, hwi.2⟩
      intro hm
      obtain ⟨w, hw, hu⟩ := List.mem_map.1 hm
      exact (hc w hw).1.uid hu
    · intro w hw
      obtain ⟨iw, hiw, rfl⟩ := List.mem_map.1 hw
      obtain ⟨cw, hcw, -, -, -, -, segs, hsegs, hf⟩ := forall₂_mem_right hwi.1 hiw
      refine ⟨(hc iw hiw).1.symmetry, ?_, ?_, ?_, ?_, ?_⟩
      · show NamesOk ((iw.segments.map ImpSegment.entry).map (·.uid))
        rw [List.map_map]
        exact (hc iw hiw).1.segments
      · show NamesOk ((iw.controls.map fun kc => (⟨kc.1, kc.2⟩ : FileControl)).map (·.uid))
        rw [List.map_map]
        exact (hc iw hiw).1.controls.1
      · intro s hs
        obtain ⟨e, he, rfl⟩ := List.mem_map.1 hs
        obtain ⟨cs, hcs, -, -, -, -, -, h6, h7⟩ := forall₂_mem_right hf he
        obtain ⟨r1, r2⟩ := k7 cw hcw segs hsegs cs hcs
        refine ⟨⟨e.2.vertices, rfl, rfl, rfl, rfl⟩, freshGeo_ok, fun n hn => ?_, fun n hn => ?_,
          ⟨_, ?_, r1⟩, ⟨_, ?_, r2⟩⟩
        · cases hn
        · cases hn
        · show AirfoilAt root e.2.airfoilInner _
          rw [h6, hair]
        · show AirfoilAt root e.2.airfoilOuter _
          rw [h7, hair]
      · intro c hcm
        obtain ⟨kc, hkc, rfl⟩ := List.mem_map.1 hcm
        obtain ⟨c, hd, hck⟩ := (hc iw hiw).2 kc hkc
        exact ((loadControl_iff _ _ _).1 (loadControl_checked (uid := kc.1) hd hck)).1
      · intro hne
        obtain ⟨e, he, hn⟩ := k8 iw hiw (by
          intro hx
          apply hne
          show iw.segments.map ImpSegment.entry = []
          rw [hx]
          rfl)
        exact ⟨_, List.mem_map.2 ⟨e, he, rfl⟩, e.2.vertices, ⟨rfl, rfl, rfl, rfl⟩, hn⟩

/-! ## Conversion -/

theorem cpacs2json_inv {alnum : Char → Bool} {A : Airfoils α} {cwd : String} {dir : Bool}
    {disk disk' : Disk α} {doc : CpacsDoc α} {f : FileAircraft}
    (h : cpacs2json alnum A cwd dir disk (some doc) = (disk', .ok f)) :
    ∃ ac, cpacsLoad alnum A cwd dir disk doc = (disk', .ok ac) ∧ f = saveAircraft ac := by
  unfold cpacs2json at h
  simp only at h
  cases hc : cpacsLoad alnum A cwd dir disk doc with
  | mk disk1 r =>
    cases r with
    | error e => simp [hc] at h
    | ok ac =>
      simp only [hc, Prod.mk.injEq, Except.ok.injEq] at h
      obtain ⟨rfl, rfl⟩ := h
      exact ⟨ac, rfl, rfl⟩

theorem blade_basename {alnum : Char → Bool} (hslash : alnum '/' = false) (root n : String) :
    basename (bladeFile alnum root n) = "blade." ++ cleaned alnum n := by
  apply String.toList_injective
  unfold basename bladeFile
  have hno : ∀ c ∈ ("blade." ++ cleaned alnum n).toList, c ≠ '/' := by
    intro c hc
    rw [String.toList_append, List.mem_append] at hc
    rcases hc with hc | hc
    · rintro rfl
      exact absurd hc (by decide)
    · unfold cleaned at hc
      rw [String.toList_ofList, List.mem_filter] at hc
      rintro rfl
      rw [hslash] at hc
      simp at hc
  have e : (root ++ "/airfoils/blade." ++ cleaned alnum n).toList =
      (root ++ "/airfoils").toList ++ '/' :: ("blade." ++ cleaned alnum n).toList := by
    simp [String.toList_append]
  rw [String.toList_ofList, e, List.reverse_append, List.reverse_cons, List.append_assoc,
    List.takeWhile_append_of_pos]
  · simp
  · intro c hc
    simpa using hno c (List.mem_reverse.1 hc)

theorem blade_in_project {alnum : Char → Bool} (hslash : alnum '/' = false) (root n : String) :
    BladeInProject root (bladeFile alnum root n) := by
  intro _
  rw [blade_basename hslash]
  apply String.toList_injective
  unfold bladeFile
  simp [String.toList_append]

theorem backward_iff {e : V3 ℝ} (h : 0 ≤ e.x) : Backward e ↔ HasChord e := by
  unfold Backward HasChord
  constructor
  · rintro ⟨-, h⟩
    by_contra hx
    push Not at hx
    exact h hx
  · intro h'
    refine ⟨h, ?_⟩
    rintro ⟨a, b⟩
    rcases h' with h' | h'
    · exact h' a
    · exact h' b

/-- **C114**: the file made from a CPACS file loads to the aircraft loaded from the CPACS file itself,
exactly if each chord has an extent in the x-y plane.  `dir'`: the directory for airfoils exists, as it
always does in an analysis. -/
theorem C114_same_aircraft_iff (alnum : Char → Bool) (hslash : alnum '/' = false) (A : Airfoils α)
    (cwd : String) (hcwd : ['/'] <+: cwd.toList) (dir : Bool) (disk disk' : Disk α) (doc : CpacsDoc α)
    (f : FileAircraft) (h : cpacs2json alnum A cwd dir disk (some doc) = (disk', .ok f)) :
    ∃ ac, cpacsLoad alnum A cwd true disk doc = (disk', .ok ac) ∧
      (loadAircraft cwd (A.ok disk') f = .ok ac ↔ ∀ w ∈ ac.wings, ∀ s ∈ w.segments,
        HasChord (s.gen.vertices.d - s.gen.vertices.a) ∧
        HasChord (s.gen.vertices.c - s.gen.vertices.b)) := by
  obtain ⟨ac, hac, rfl⟩ := cpacs2json_inv h
  obtain ⟨l, refs, ws, hs⟩ := cpacsLoad_steps hac
  refine ⟨ac, cpacsLoad_of_steps (dir := true) ⟨hs.name, hs.hasWings, hs.wings, hs.airfoils, .inl rfl,
    hs.reference, hs.disk, hs.load⟩, ?_⟩
  rw [C57_reload_iff cwd _ _ _ hcwd hs.load]
  have hw := wings_of_cpacs hs.wings hs.load
  have key : ∀ w ∈ ac.wings, ∀ s ∈ w.segments, Survives cwd s ↔
      HasChord (s.gen.vertices.d - s.gen.vertices.a) ∧
        HasChord (s.gen.vertices.c - s.gen.vertices.b) := by
    intro w hwm s hsm
    obtain ⟨cw, -, ⟨-, -, segs, -, hf⟩, hx⟩ := forall₂_mem_right hw hwm
    obtain ⟨cs, -, hcs⟩ := forall₂_mem_right hf hsm
    obtain ⟨x1, x2⟩ := hx s hsm
    have e1 : 0 ≤ (s.gen.vertices.d - s.gen.vertices.a).x := sub_nonneg.2 x1
    have e2 : 0 ≤ (s.gen.vertices.c - s.gen.vertices.b).x := sub_nonneg.2 x2
    unfold Survives
    rw [backward_iff e1, backward_iff e2, hcs.inner, hcs.outer]
    exact ⟨fun h => ⟨h.1, h.2.1⟩, fun h => ⟨h.1, h.2, blade_in_project hslash _ _,
      blade_in_project hslash _ _⟩⟩
  exact ⟨fun h w hwm s hsm => (key w hwm s hsm).1 (h w hwm s hsm),
    fun h w hwm s hsm => (key w hwm s hsm).2 (h w hwm s hsm)⟩

theorem loaded_good {root : String} {airfoilOk : String → Bool} {f : FileAircraft} {ac : LoadedAircraft}
    (h : loadAircraft root airfoilOk f = .ok ac) : ∀ w ∈ ac.wings, GoodWing root airfoilOk w := by
  unfold loadAircraft at h
  cases h1 : checkNames [] (f.wings.map (·.uid)) with
  | error e => simp [h1] at h
  | ok u =>
  simp only [h1] at h
  split_ifs at h with href
  cases h2 : mapE (loadWing root airfoilOk) f.wings with
  | error e => simp [h2] at h
  | ok ws =>
  simp only [h2, Except.ok.injEq] at h
  subst h
  intro w hw
  obtain ⟨e, -, he⟩ := forall₂_mem_right (mapE_ok h2) hw
  exact (goodWing he).1

/-- **C114**: otherwise the file made from the CPACS file is refused, wherever it is used. -/
theorem C114_chordless_refused (alnum : Char → Bool) (A : Airfoils α) (cwd : String) (dir : Bool)
    (disk disk' : Disk α) (doc : CpacsDoc α) (f : FileAircraft)
    (h : cpacs2json alnum A cwd dir disk (some doc) = (disk', .ok f)) (ac : LoadedAircraft)
    (hac : cpacsLoad alnum A cwd true disk doc = (disk', .ok ac)) (w : LoadedWing) (hw : w ∈ ac.wings)
    (s : LoadedSegment) (hs : s ∈ w.segments)
    (hno : ¬ HasChord (s.gen.vertices.d - s.gen.vertices.a) ∨
      ¬ HasChord (s.gen.vertices.c - s.gen.vertices.b)) (root : String) (airfoilOk : String → Bool) :
    ∃ e, loadAircraft root airfoilOk f = .error e := by
  cases hl : loadAircraft root airfoilOk f with
  | error e => exact ⟨e, rfl⟩
  | ok ac' =>
    exfalso
    obtain ⟨ac1, hac1, rfl⟩ := cpacs2json_inv h
    obtain ⟨l, refs, ws, hst⟩ := cpacsLoad_steps hac1
    have := cpacsLoad_of_steps (dir := true) ⟨hst.name, hst.hasWings, hst.wings, hst.airfoils, .inl rfl,
      hst.reference, hst.disk, hst.load⟩
    rw [hac] at this
    cases this
    obtain ⟨g, hgeo, hi, ho, h1, h2⟩ := ((loaded_good hst.load w hw).segments s hs).geometry
    have hok := (((C92_accepted_iff _ _ _).1 ⟨_, hl⟩).wings _ (List.mem_map.2 ⟨w, hw, rfl⟩)).segments _
      (List.mem_map.2 ⟨s, hs, rfl⟩)
    have hgo := (geoOk_iff _).1 hok.geometry
    change s.gen.geometry.withAxes.schema at hgo
    have hax : (derivedGeo s.gen.vertices g).withAxes = derivedGeo s.gen.vertices g :=
      withAxes_of_some h1 h2
    rw [hgeo, hax, derived_schema _ _ hi ho] at hgo
    have hb : ∀ e : V3 ℝ, Backward e → HasChord e := by
      rintro e ⟨-, h⟩
      by_contra hx
      unfold HasChord at hx
      push Not at hx
      exact h hx
    exact hno.elim (fun hx => hx (hb _ hgo.1)) fun hx => hx (hb _ hgo.2)

/-- **C114**: the airfoils in the file made from a CPACS file are named by paths below the project
directory, whatever this directory is, so the project can be moved. -/
theorem C114_relative_paths (alnum : Char → Bool) (hslash : alnum '/' = false) (A : Airfoils α)
    (cwd : String) (dir : Bool) (disk disk' : Disk α) (doc : CpacsDoc α) (f : FileAircraft)
    (h : cpacs2json alnum A cwd dir disk (some doc) = (disk', .ok f)) :
    List.Forall₂ (fun (w : CpacsWing ℝ) (e : FileWing) => ∃ segs, w.segments = some segs ∧
      List.Forall₂ (fun (s : CpacsSegment ℝ) (g : FileSegment) =>
        g.airfoilInner = "airfoils/blade." ++ cleaned alnum s.airfoilInner ∧
        g.airfoilOuter = "airfoils/blade." ++ cleaned alnum s.airfoilOuter) segs e.segments)
      doc.file.wings f.wings := by
  obtain ⟨ac, hac, rfl⟩ := cpacs2json_inv h
  have hw := (C113_content _ _ _ _ _ _ _ _ hac).1.wings
  have hsave : ∀ n, saveAirfoil (bladeFile alnum cwd n) = "airfoils/blade." ++ cleaned alnum n := by
    intro n
    unfold saveAirfoil
    rw [if_pos]
    · rw [blade_basename hslash]
      apply String.toList_injective
      simp [String.toList_append]
    · unfold mentionsBlade bladeFile
      rw [decide_eq_true_iff]
      refine ⟨cwd.toList ++ "/airfoils/".toList, (cleaned alnum n).toList, ?_⟩
      simp [String.toList_append]
  show List.Forall₂ _ _ (ac.wings.map saveWing)
  rw [List.forall₂_map_right_iff]
  refine hw.imp ?_
  rintro w l ⟨-, -, segs, h1, h2⟩
  refine ⟨segs, h1, ?_⟩
  show List.Forall₂ _ _ (l.segments.map saveSegment)
  rw [List.forall₂_map_right_iff]
  refine h2.imp ?_
  intro s x hx
  show saveAirfoil x.airfoilInner = _ ∧ saveAirfoil x.airfoilOuter = _
  rw [hx.inner, hx.outer]
  exact ⟨hsave _, hsave _⟩

/-- **C114**: the conversion works exactly if the aircraft can be loaded in an analysis and the directory
for airfoils is there, or no airfoils. -/
theorem C114_converts_iff (alnum : Char → Bool) (A : Airfoils α) (cwd : String) (dir : Bool)
    (disk : Disk α) (doc : Option (CpacsDoc α)) :
    (∃ f, (cpacs2json alnum A cwd dir disk doc).2 = .ok f) ↔
      ∃ d, doc = some d ∧ (∃ ac, (cpacsLoad alnum A cwd true disk d).2 = .ok ac) ∧
        (dir = true ∨ d.airfoils = some []) := by
  cases doc with
  | none => simp [cpacs2json]
  | some d =>
    constructor
    · rintro ⟨f, hf⟩
      cases hc : cpacs2json alnum A cwd dir disk (some d) with
      | mk disk' r =>
      rw [hc] at hf
      simp only at hf
      subst hf
      obtain ⟨ac, hac, rfl⟩ := cpacs2json_inv hc
      obtain ⟨l, refs, ws, hs⟩ := cpacsLoad_steps hac
      refine ⟨d, rfl, ⟨ac, ?_⟩, hs.dir.imp id fun hl => by rw [hs.airfoils, hl]⟩
      rw [cpacsLoad_of_steps (dir := true) ⟨hs.name, hs.hasWings, hs.wings, hs.airfoils, .inl rfl,
        hs.reference, hs.disk, hs.load⟩]
    · rintro ⟨d', hd', ⟨ac, hac⟩, hdir⟩
      cases hd'
      cases hc : cpacsLoad alnum A cwd true disk d with
      | mk disk' r =>
      rw [hc] at hac
      simp only at hac
      subst hac
      obtain ⟨l, refs, ws, hs⟩ := cpacsLoad_steps hc
      have := cpacsLoad_of_steps (dir := dir) ⟨hs.name, hs.hasWings, hs.wings, hs.airfoils, by
        refine hdir.imp id fun h => ?_
        rw [hs.airfoils, Option.some.injEq] at h
        exact h, hs.reference, hs.disk, hs.load⟩
      refine ⟨saveAircraft ac, ?_⟩
      unfold cpacs2json
      simp only [this]

end

/-! ## Examples and counterexamples -/

/-- A segment with root chord one, span two and the given tip chord. -/
noncomputable def taperSegment (tip : ℝ) : CpacsSegment ℝ :=
  ⟨some "inner", fun eta xsi => ⟨xsi * (1 - eta * (1 - tip)), eta * 2, 0⟩,
    fun eta xsi => ⟨xsi * (1 - eta * (1 - tip)), eta * 2, 0⟩, "NACA 0010", "NACA 0010"⟩

/-- A file with one wing. -/
noncomputable def taperDoc (tip : ℝ) : CpacsDoc ℕ where
  model := some (some "my plane")
  hasWings := true
  file := ⟨[⟨some "main", 2, some [taperSegment tip], []⟩], [], fun _ _ _ => none⟩
  airfoils := some [⟨some "NACA 0010", 1⟩]
  point := some 0
  area := some 2
  length := some 1
  apm := fun _ => none

/-- Airfoils: all files can be read, all names are known. -/
def anyAirfoils : Airfoils ℕ := ⟨fun _ => true, fun _ => true, fun _ _ _ _ => 0⟩

theorem anyAirfoils_ok (disk : Disk ℕ) (path : String) : anyAirfoils.ok disk path = true := by
  unfold Airfoils.ok
  cases disk path <;> rfl

theorem taper_corners {tip : ℝ} (h : 0 ≤ tip) : midPoints (taperSegment tip) =
    ⟨⟨0, 0, 0⟩, ⟨0, 2, 0⟩, ⟨tip, 2, 0⟩, ⟨1, 0, 0⟩⟩ ∧ OrderedCorners (midPoints (taperSegment tip)) := by
  have e : midPoints (taperSegment tip) =
      ⟨⟨0, 0, 0⟩, ⟨0, 2, 0⟩, ⟨tip, 2, 0⟩, ⟨1, 0, 0⟩⟩ := by
    simp [midPoints, taperSegment]
  refine ⟨e, ?_⟩
  rw [e]
  refine ⟨.inl ?_, .inl ?_, ?_, h⟩ <;> norm_num

theorem taper_import {tip : ℝ} (h : 0 ≤ tip) : importWings asciiAlnum (taperDoc tip).file =
    .ok [⟨"main", 2, [("inner", ⟨⟨⟨0, 0, 0⟩, ⟨0, 2, 0⟩, ⟨tip, 2, 0⟩, ⟨1, 0, 0⟩⟩,
      "airfoils/blade.NACA0010", "airfoils/blade.NACA0010"⟩)], []⟩] := by
  have n1 : parseStr asciiAlnum (.str "main") "-_" = .ok "main" := by decide
  have n2 : parseStr asciiAlnum (.str "inner") "-_" = .ok "inner" := by decide
  have n3 : importAirfoil asciiAlnum "NACA 0010" = .ok "airfoils/blade.NACA0010" := by decide
  have hc := taper_corners h
  have hv : reorderCorners (⟨midPoint ((taperSegment tip).lower 0 0) ((taperSegment tip).upper 0 0),
      midPoint ((taperSegment tip).lower 1 0) ((taperSegment tip).upper 1 0),
      midPoint ((taperSegment tip).lower 1 1) ((taperSegment tip).upper 1 1),
      midPoint ((taperSegment tip).lower 0 1) ((taperSegment tip).upper 0 1)⟩ : Corners (V3 ℝ)) =
      ⟨⟨0, 0, 0⟩, ⟨0, 2, 0⟩, ⟨tip, 2, 0⟩, ⟨1, 0, 0⟩⟩ := by
    rw [← hc.1]
    exact C62_ordered_kept _ hc.2
  unfold importWings importWingsFrom importWing importSegments importSegment
  simp only [taperDoc, n1, hv]
  simp only [taperSegment, n2, n3]
  norm_num [importSegments, importSections, assignDeflections, mapE, checkControls, ODict.addNew, ODict.has,
    importWingsFrom]
  rw [if_neg (by decide), if_neg (by decide)]

theorem taper_loads {tip : ℝ} (h : 0 ≤ tip) (root : String) : ∃ disk' ac,
    cpacsLoad asciiAlnum anyAirfoils root true (fun _ => none) (taperDoc tip) = (disk', .ok ac) := by
  have : ∃ ac, (cpacsLoad asciiAlnum anyAirfoils root true (fun _ => none) (taperDoc tip)).2 = .ok ac := by
    rw [C113_accepted_iff]
    refine ⟨_, taper_import h, by simp [taperDoc], rfl, ⟨_, rfl, .inl rfl⟩, by simp [taperDoc],
      ⟨2, rfl, by norm_num⟩, ⟨1, rfl, by norm_num⟩, ?_, ?_⟩
    · intro _ _ _ _ _ _
      exact ⟨anyAirfoils_ok _ _, anyAirfoils_ok _ _⟩
    · intro w hw _
      rw [List.mem_singleton] at hw
      subst hw
      exact ⟨_, List.mem_singleton.2 rfl, by simp [NoSpan]⟩
  obtain ⟨ac, hac⟩ := this
  exact ⟨_, ac, Prod.ext rfl hac⟩

/-- The segments of the example. -/
theorem taper_vertices {tip : ℝ} (h : 0 ≤ tip) {root : String} {disk' : Disk ℕ} {ac : LoadedAircraft}
    (hac : cpacsLoad asciiAlnum anyAirfoils root true (fun _ => none) (taperDoc tip) = (disk', .ok ac)) :
    (∀ w ∈ ac.wings, ∀ s ∈ w.segments,
      s.gen.vertices = ⟨⟨0, 0, 0⟩, ⟨0, 2, 0⟩, ⟨tip, 2, 0⟩, ⟨1, 0, 0⟩⟩) ∧
    ∃ w ∈ ac.wings, ∃ s, s ∈ w.segments := by
  have hw := (C113_content _ _ _ _ _ _ _ _ hac).1.wings
  have hc := taper_corners h
  change List.Forall₂ _ [(⟨some "main", 2, some [taperSegment tip], []⟩ : CpacsWing ℝ)] _ at hw
  generalize ac.wings = l at hw
  cases hw with
  | @cons _ w _ l' h1 h2 =>
  cases h2
  obtain ⟨segs, e, hs⟩ := h1.segments
  cases e
  generalize hm : w.segments = m at hs
  cases hs with
  | @cons _ s _ m' h3 h4 =>
  cases h4
  refine ⟨?_, w, List.mem_singleton.2 rfl, s, by rw [hm]; simp⟩
  intro w' hw' s' hs'
  rw [List.mem_singleton] at hw'
  subst hw'
  rw [hm, List.mem_singleton] at hs'
  subst hs'
  rw [h3.ordered hc.2, hc.1]

/-- Example for C113: the tapered wing is loaded, under the name `myplane`. -/
example : ∃ disk' ac, cpacsLoad asciiAlnum anyAirfoils "/home" true (fun _ => none) (taperDoc (1 / 2)) =
      (disk', .ok ac) ∧ ac.uid = "myplane" ∧ ac.refs.area = 2 ∧
    disk' "/home/airfoils/blade.NACA0010" = some 1 ∧ disk' "/home/airfoils/blade.x" = none := by
  obtain ⟨disk', ac, h⟩ := taper_loads (tip := 1 / 2) (by norm_num) "/home"
  obtain ⟨c, -⟩ := C113_content _ _ _ _ _ _ _ _ h
  obtain ⟨l, hl, h1, h2⟩ := C113_airfoils_partial _ _ _ _ _ _ _ _ h
  cases hl
  refine ⟨disk', ac, h, ?_, ?_, h1 (by decide) _ (List.mem_singleton.2 rfl) "NACA 0010" rfl,
    h2 _ (by decide)⟩
  · rcases c.name with ⟨h, -⟩ | ⟨u, h, h'⟩
    · cases h
    · cases h
      rw [h']
      decide
  · have := c.area
    simp only [taperDoc, Option.some.injEq] at this
    exact this.symm

/-- Example for C114: the tapered wing survives the conversion. -/
example : ∃ disk' f ac, cpacs2json asciiAlnum anyAirfoils "/home" true (fun _ => none)
      (some (taperDoc (1 / 2))) = (disk', .ok f) ∧
    cpacsLoad asciiAlnum anyAirfoils "/home" true (fun _ => none) (taperDoc (1 / 2)) = (disk', .ok ac) ∧
    loadAircraft "/home" (anyAirfoils.ok disk') f = .ok ac := by
  obtain ⟨disk', ac, h⟩ := taper_loads (tip := 1 / 2) (by norm_num) "/home"
  have hf : cpacs2json asciiAlnum anyAirfoils "/home" true (fun _ => none) (some (taperDoc (1 / 2))) =
      (disk', .ok (saveAircraft ac)) := by
    unfold cpacs2json
    simp only [h]
  obtain ⟨ac', h', hiff⟩ := C114_same_aircraft_iff _ (by decide) _ _ (by decide) _ _ _ _ _ hf
  rw [h] at h'
  cases h'
  refine ⟨disk', _, ac, hf, h, hiff.2 ?_⟩
  intro w hw s hs
  rw [(taper_vertices (by norm_num) h).1 w hw s hs]
  exact ⟨.inl (by simp), .inl (by simp)⟩

/-- **C114** fails for wings with a pointed tip: the CPACS file is loaded and converted, but the
converted file is refused. -/
theorem C114_pointed_false : ∃ disk' f ac, cpacs2json asciiAlnum anyAirfoils "/home" true (fun _ => none)
      (some (taperDoc 0)) = (disk', .ok f) ∧
    cpacsLoad asciiAlnum anyAirfoils "/home" true (fun _ => none) (taperDoc 0) = (disk', .ok ac) ∧
    ∃ e, loadAircraft "/home" (anyAirfoils.ok disk') f = .error e := by
  obtain ⟨disk', ac, h⟩ := taper_loads (tip := 0) le_rfl "/home"
  have hf : cpacs2json asciiAlnum anyAirfoils "/home" true (fun _ => none) (some (taperDoc 0)) =
      (disk', .ok (saveAircraft ac)) := by
    unfold cpacs2json
    simp only [h]
  obtain ⟨hv, w, hw, s, hs⟩ := taper_vertices le_rfl h
  refine ⟨disk', _, ac, hf, h, C114_chordless_refused _ _ _ _ _ _ _ _ hf ac h w hw s hs (.inr ?_) _ _⟩
  rw [hv w hw s hs]
  rintro (h | h) <;> exact h (by simp)

/-- **C114** fails if there is no directory for airfoils: a file which can be used in an analysis is not
converted. -/
theorem C114_no_directory_false :
    (∃ ac, (cpacsLoad asciiAlnum anyAirfoils "/home" true (fun _ => none) (taperDoc (1 / 2))).2 = .ok ac) ∧
    ∃ e, (cpacs2json asciiAlnum anyAirfoils "/home" false (fun _ => none)
      (some (taperDoc (1 / 2)))).2 = .error e := by
  obtain ⟨disk', ac, h⟩ := taper_loads (tip := 1 / 2) (by norm_num) "/home"
  refine ⟨⟨ac, by rw [h]⟩, ?_⟩
  cases hc : (cpacs2json asciiAlnum anyAirfoils "/home" false (fun _ => none)
      (some (taperDoc (1 / 2)))).2 with
  | error e => exact ⟨e, rfl⟩
  | ok f =>
    obtain ⟨d, hd, -, hx⟩ := (C114_converts_iff _ _ _ _ _ _).1 ⟨f, hc⟩
    cases hd
    rcases hx with hx | hx
    · cases hx
    · simp [taperDoc] at hx

end Verif
