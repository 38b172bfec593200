import Verif.Props.SurfaceFiles
import Verif.Props.NoLoads
import Verif.Props.RunMoved

/-!
# Property C142: the origin of the coordinates in the aircraft file does not matter

C97 for projects: all points in the aircraft file — corners of segments, centre of gravity, moment
reference point — and the fields of the deformation file are moved by the same vector.
-/

set_option linter.unnecessarySeqFocus false

namespace Verif

open V3

/-! ## Specification -/

/-- The entry of a wing with all corners moved by `t`. -/
def FileWing.movedBy (t : V3 ℝ) (w : FileWing) : FileWing :=
  { w with segments := w.segments.map (FileSegment.moved (· + t)) }

/-- The aircraft file with all points moved by `t`. -/
def FileAircraft.movedBy (t : V3 ℝ) (f : FileAircraft) : FileAircraft :=
  { f with
    refs := { f.refs with gcenter := f.refs.gcenter + t, rcenter := f.refs.rcenter + t }
    wings := f.wings.map (FileWing.movedBy t) }

/-- A deformation field in moved coordinates. -/
def movedField (t : V3 ℝ) (g : DefField ℝ) : DefField ℝ := fun p => g (p - t) + t

/-- The second project has the files of the first with all points moved by `t`. -/
structure Project.MovedBy (t : V3 ℝ) (P P2 : Project) : Prop where
  base : P2.base = P.base
  root : P2.root = P.root
  settings : P2.settings = P.settings
  state : P2.state = P.state
  aircraft : ∀ a, P2.aircraft a = (P.aircraft a).map (FileAircraft.movedBy t)
  deformation : ∀ v, P2.deformation v =
    (P.deformation v).map (List.map fun e => (e.1, movedField t e.2))

/-! ## Runs see existing segments only -/

/-- Two descriptions agree on the segments that exist. -/
structure LatAgree (ac : PAircraft ℝ) (lat lat' : LatticeEnv) : Prop where
  deflection : lat'.deflection = lat.deflection
  geo : ∀ m w, ac.wings[m]? = some w → ∀ k s, w.segments[k]? = some s → lat'.geo m k = lat.geo m k
  camber : ∀ m w, ac.wings[m]? = some w → ∀ k s, w.segments[k]? = some s →
    lat'.camber m k = lat.camber m k

theorem LatAgree.parts {ac : PAircraft ℝ} {lat lat' : LatticeEnv} (h : LatAgree ac lat lat')
    (e : BookEntry) : entryParts lat' ac e = entryParts lat ac e := by
  unfold entryParts
  cases hw : ac.wings[e.path.wing]? with
  | none => rfl
  | some w =>
    simp only
    cases hs : w.segments[e.path.seg]? with
    | none => rfl
    | some s => simp only [h.geo _ _ hw _ _ hs, h.camber _ _ hw _ _ hs]

theorem LatAgree.rotate {ac : PAircraft ℝ} {lat lat' : LatticeEnv} (h : LatAgree ac lat lat')
    (es : List BookEntry) : ∀ n, rotateAll lat' ac es n = rotateAll lat ac es n := by
  have h1 : hingeRotation lat' = hingeRotation lat := by
    funext p m
    unfold hingeRotation
    rw [h.deflection]
  have h2 : ∀ e n, rotateEntry lat' ac e n = rotateEntry lat ac e n := by
    intro e n
    unfold rotateEntry
    rw [h.parts, h1]
  induction es with
  | nil => intro n; rfl
  | cons e es ih =>
    intro n
    unfold rotateAll
    rw [h2]
    cases rotateEntry lat ac e n with
    | error x => rfl
    | ok n' => exact ih n'

theorem LatAgree.lattice {ac : PAircraft ℝ} {lat lat' : LatticeEnv} (h : LatAgree ac lat lat')
    (doRot : Bool) (alpha beta : ℝ) :
    genLattice lat' doRot alpha beta ac = genLattice lat doRot alpha beta ac := by
  have h1 : entryCorners lat' ac = entryCorners lat ac := by
    funext e
    unfold entryCorners
    rw [h.parts]
  unfold genLattice
  simp only [h1, h.rotate]

theorem LatAgree.panelled {env : RunEnv} {ac ac' : PAircraft ℝ} {lat' : LatticeEnv}
    (h : LatAgree ac env.lat lat') (hp : Panelled env ac ac') : LatAgree ac' env.lat lat' := by
  obtain ⟨ac1, p1, p2⟩ := hp
  have hw : ∀ (m : ℕ) (w' : PWing ℝ), ac'.wings[m]? = some w' → ∃ w : PWing ℝ,
      ac.wings[m]? = some w ∧ w'.segments.length = w.segments.length := by
    intro m w' hm
    obtain ⟨w1, h1, h2⟩ := forall₂_get (prePanelling_step p2) hm
    obtain ⟨w, h3, h4⟩ := forall₂_get (setAutopanels_rest p1) h1
    exact ⟨w, h3, by rw [← h2.segs.length_eq, ← h4.2.2.2.length_eq]⟩
  have key : ∀ (m : ℕ) (w' : PWing ℝ), ac'.wings[m]? = some w' → ∀ (k : ℕ) (s' : PSegment ℝ),
      w'.segments[k]? = some s' →
      ∃ w : PWing ℝ, ac.wings[m]? = some w ∧ ∃ s, w.segments[k]? = some s := by
    intro m w' hm k s' hk
    obtain ⟨w, h1, h2⟩ := hw m w' hm
    obtain ⟨hlt, -⟩ := List.getElem?_eq_some_iff.1 hk
    rw [h2] at hlt
    exact ⟨w, h1, _, List.getElem?_eq_getElem hlt⟩
  refine ⟨h.deflection, ?_, ?_⟩
  · intro m w' hm k s' hk
    obtain ⟨w, h1, s, h2⟩ := key m w' hm k s' hk
    exact h.geo m w h1 k s h2
  · intro m w' hm k s' hk
    obtain ⟨w, h1, s, h2⟩ := key m w' hm k s' hk
    exact h.camber m w h1 k s h2

/-- Runs with descriptions that agree on the segments that exist. -/
theorem LatAgree.run {env : RunEnv} (hd : Lapack env.dgesv) {ac : PAircraft ℝ} {lat' : LatticeEnv}
    (h : LatAgree ac env.lat lat') {st : FlightSt ℝ} {out : RunOut}
    (hr : standardRun env ac st = .ok out) :
    ∃ out', standardRun { env with lat := lat' } ac st = .ok out' ∧
      ∀ i < st.num, ∀ c ∈ runColumns, out'.value c.1 i = out.value c.1 i := by
  obtain ⟨out', h', hv⟩ := run_transfer (env := env) (env' := { env with lat := lat' }) hd hd
    (ac2 := ac) (st' := st) rfl (fun _ a a' => a' = a) (by
      intro ac' hp
      refine ⟨ac', hp, fun i _ a ha => ⟨a, ⟨ha.airspeed, ha.density, ha.alpha, ha.beta, ha.rateP,
        ha.rateQ, ha.rateR, ?_, ha.nonempty, ha.panels, ha.matrix, ha.solved, ha.singular, ha.results⟩,
        rfl⟩⟩
      exact ((h.panelled hp).lattice _ _ _).trans ha.lattice) hr
  refine ⟨out', h', fun i hi c hc => ?_⟩
  obtain ⟨ac', a, a', -, -, rfl, v1, v2⟩ := hv i hi
  rw [v1 c hc, v2 c hc]

/-! ## Moved files -/

theorem AllGiven.movedBy {s : FileSegment} {v : Corners (V3 ℝ)} (t : V3 ℝ) (h : AllGiven s.vertices v) :
    AllGiven (s.moved (· + t)).vertices (v.moved t) := by
  obtain ⟨h1, h2, h3, h4⟩ := h
  unfold FileSegment.moved
  simp only [h1, h2, h3, h4, Option.map_some]
  exact ⟨rfl, rfl, rfl, rfl⟩

theorem allGiven_unique {s : Corners (Option (V3 ℝ))} {v v' : Corners (V3 ℝ)} (h : AllGiven s v)
    (h' : AllGiven s v') : v' = v := by
  obtain ⟨h1, h2, h3, h4⟩ := h
  obtain ⟨k1, k2, k3, k4⟩ := h'
  cases v
  cases v'
  simp_all

theorem noSpan_moved (t : V3 ℝ) (v : Corners (V3 ℝ)) : NoSpan (v.moved t) ↔ NoSpan v := by
  unfold NoSpan Corners.moved
  simp

theorem FileOk.movedBy {root : String} {airfoilOk : String → Bool} {f : FileAircraft} (t : V3 ℝ)
    (h : FileOk root airfoilOk f) : FileOk root airfoilOk (f.movedBy t) := by
  refine ⟨?_, h.area, h.span, h.chord, ?_⟩
  · have e : (f.movedBy t).wings.map (·.uid) = f.wings.map (·.uid) := by
      unfold FileAircraft.movedBy
      rw [List.map_map]
      rfl
    rw [e]
    exact h.names
  · intro w' hw'
    obtain ⟨w, hw, rfl⟩ := List.mem_map.1 hw'
    have k := h.wings w hw
    refine ⟨k.symmetry, ?_, k.controlNames, ?_, k.controls, ?_⟩
    · have e : (w.movedBy t).segments.map (·.uid) = w.segments.map (·.uid) := by
        unfold FileWing.movedBy
        rw [List.map_map]
        rfl
      rw [e]
      exact k.segmentNames
    · intro s' hs'
      obtain ⟨s, hs, rfl⟩ := List.mem_map.1 hs'
      have q := k.segments s hs
      obtain ⟨v, hv⟩ := q.vertices
      exact ⟨⟨_, hv.movedBy t⟩, q.geometry, q.numC, q.numS, q.inner, q.outer⟩
    · intro hne
      obtain ⟨s, hs, v, hv, hsp⟩ := k.span (fun e => hne (by unfold FileWing.movedBy; rw [e]; rfl))
      exact ⟨_, List.mem_map_of_mem hs, _, hv.movedBy t, fun hx => hsp ((noSpan_moved t v).1 hx)⟩

/-- A loaded segment in moved coordinates. -/
structure SegMoved (t : V3 ℝ) (s s2 : LoadedSegment) : Prop where
  toP : s2.toP = s.toP
  vertices : s2.gen.vertices = s.gen.vertices.moved t
  inner : s2.airfoilInner = s.airfoilInner
  outer : s2.airfoilOuter = s.airfoilOuter

/-- A loaded wing in moved coordinates. -/
structure WingMoved (t : V3 ℝ) (w w2 : LoadedWing) : Prop where
  uid : w2.uid = w.uid
  symmetry : w2.symmetry = w.symmetry
  controls : w2.controls = w.controls
  segments : List.Forall₂ (SegMoved t) w.segments w2.segments

theorem segMoved_of {root : String} {airfoilOk : String → Bool} {t : V3 ℝ} {e : FileWing}
    {w w2 : LoadedWing} (hl : loadWing root airfoilOk e = .ok w)
    (hl2 : loadWing root airfoilOk (e.movedBy t) = .ok w2) {x : FileSegment} {s s2 : LoadedSegment}
    (hs : s ∈ w.segments) (hs2 : s2 ∈ w2.segments) (h : SegmentFrom root x s)
    (h2 : SegmentFrom root (x.moved (· + t)) s2) : SegMoved t s s2 := by
  have hv : s2.gen.vertices = s.gen.vertices.moved t :=
    allGiven_unique (h.vertices.movedBy t) h2.vertices
  have hspan : s2.toP.span = s.toP.span := by
    rw [loaded_width hl hs h, loaded_width hl2 hs2 h2]
    unfold FileSegment.width
    rw [FileSegment.corners_given h.vertices, FileSegment.corners_given h2.vertices, hv]
    unfold Corners.moved
    simp
  have d : ∀ a b : V3 ℝ, (a + t) - (b + t) = a - b := by intro a b; ext <;> simp
  have a1 := (airfoilAt_iff _ _ _).1 h.inner
  have a2 := (airfoilAt_iff _ _ _).1 h.outer
  have b1 := (airfoilAt_iff _ _ _).1 h2.inner
  have b2 := (airfoilAt_iff _ _ _).1 h2.outer
  refine ⟨?_, hv, b1.trans a1.symm, b2.trans a2.symm⟩
  unfold LoadedSegment.toP at hspan ⊢
  simp only at hspan
  rw [hspan, h.uid, h2.uid, h.numC, h2.numC, h.numS, h2.numS, hv, xsiInterpol_moved]
  simp only [segPoint_moved, d]
  rfl

theorem wingMoved_of {root : String} {airfoilOk : String → Bool} {t : V3 ℝ} {e : FileWing}
    {w w2 : LoadedWing} (hl : loadWing root airfoilOk e = .ok w)
    (hl2 : loadWing root airfoilOk (e.movedBy t) = .ok w2) : WingMoved t w w2 := by
  have h := (loadWing_from hl).1
  have h2 := (loadWing_from hl2).1
  refine ⟨h2.uid.trans h.uid.symm, h2.symmetry.trans h.symmetry.symm, ?_, ?_⟩
  · have k := h.controls
    have k2 : List.Forall₂ (fun (e' : FileControl) (c : FileControl) =>
      c.uid = e'.uid ∧ c.data = e'.data.completed e.symmetry) e.controls w2.controls := h2.controls
    generalize e.controls = l at k k2
    generalize w.controls = l1 at k
    generalize w2.controls = l2 at k2
    induction k generalizing l2 with
    | nil => cases k2; rfl
    | @cons a b _ _ hx _ ih =>
      cases k2 with
      | @cons _ b2 _ _ hy k2 =>
        rw [ih _ k2]
        congr 1
        cases b
        cases b2
        obtain ⟨x1, x2⟩ := hx
        obtain ⟨y1, y2⟩ := hy
        simp only at x1 x2 y1 y2
        rw [x1, x2, y1, y2]
  · have k := h.segments
    have k2 := List.forall₂_map_left_iff.1 h2.segments
    have hm : ∀ s ∈ w.segments, s ∈ w.segments := fun _ h => h
    have hm2 : ∀ s ∈ w2.segments, s ∈ w2.segments := fun _ h => h
    revert hm hm2
    generalize e.segments = l at k k2
    generalize hl1 : w.segments = l1 at k
    generalize hl2 : w2.segments = l2 at k2
    intro hm hm2
    have key : ∀ {l : List FileSegment} {l1 l2 : List LoadedSegment},
        List.Forall₂ (SegmentFrom root) l l1 →
        List.Forall₂ (fun a b => SegmentFrom root (a.moved (· + t)) b) l l2 →
        (∀ s ∈ l1, s ∈ w.segments) → (∀ s ∈ l2, s ∈ w2.segments) →
        List.Forall₂ (SegMoved t) l1 l2 := by
      intro l l1 l2 k k2 m1 m2
      induction k generalizing l2 with
      | nil => cases k2; exact .nil
      | cons hx _ ih =>
        cases k2 with
        | cons hy k2 =>
          exact .cons (segMoved_of hl (by assumption) (m1 _ (by simp)) (m2 _ (by simp)) hx hy)
            (ih k2 (fun s hs => m1 s (List.mem_cons_of_mem _ hs))
              fun s hs => m2 s (List.mem_cons_of_mem _ hs))
    exact key k k2 (by rw [hl1]; exact hm) (by rw [hl2]; exact hm2)

theorem wingsMoved_of {root : String} {airfoilOk : String → Bool} {t : V3 ℝ} {f : FileAircraft}
    {ac ac2 : LoadedAircraft} (hl : loadAircraft root airfoilOk f = .ok ac)
    (hl2 : loadAircraft root airfoilOk (f.movedBy t) = .ok ac2) :
    List.Forall₂ (WingMoved t) ac.wings ac2.wings := by
  have k := mapE_ok (loadAircraft_wings hl)
  have k2 := List.forall₂_map_left_iff.1 (mapE_ok (loadAircraft_wings hl2))
  generalize f.wings = l at k k2
  generalize ac.wings = l1 at k
  generalize ac2.wings = l2 at k2
  induction k generalizing l2 with
  | nil => cases k2; exact .nil
  | cons hx _ ih =>
    cases k2 with
    | cons hy k2 => exact .cons (wingMoved_of hx hy) (ih _ k2)

theorem WingMoved.toP {t : V3 ℝ} {w w2 : LoadedWing} (h : WingMoved t w w2) : w2.toP = w.toP := by
  unfold LoadedWing.toP
  rw [h.uid, h.symmetry, h.controls]
  congr 1
  have := h.segments
  generalize w.segments = l at this
  generalize w2.segments = l2 at this
  induction this with
  | nil => rfl
  | cons hx _ ih => rw [List.map_cons, List.map_cons, hx.toP, ih]

section
variable {t : V3 ℝ} {ac ac2 : LoadedAircraft} (h : List.Forall₂ (WingMoved t) ac.wings ac2.wings)
include h

theorem moved_toP : ac2.toP = ac.toP := by
  unfold LoadedAircraft.toP
  generalize ac.wings = l at h
  generalize ac2.wings = l2 at h
  congr 1
  induction h with
  | nil => rfl
  | cons hx _ ih => rw [List.map_cons, List.map_cons, hx.toP, ih]

theorem moved_undeformed : ac2.undeformed = ac.undeformed := by
  unfold LoadedAircraft.undeformed
  generalize ac.wings = l at h
  generalize ac2.wings = l2 at h
  induction h with
  | nil => rfl
  | cons hx _ ih => rw [List.map_cons, List.map_cons, hx.uid, ih]

theorem moved_deflection : ac2.deflection = ac.deflection := by
  funext u c
  have key : ∀ l l2 : List LoadedWing, List.Forall₂ (WingMoved t) l l2 →
      ((l2.find? fun w => w.uid == u).map fun w => w.controls) =
        (l.find? fun w => w.uid == u).map fun w => w.controls := by
    intro l l2 h
    induction h with
    | nil => rfl
    | @cons a b _ _ hx _ ih =>
      rw [List.find?_cons, List.find?_cons, hx.uid]
      cases a.uid == u with
      | true => simp only [Option.map_some, hx.controls]
      | false => exact ih
  have k := key _ _ h
  unfold LoadedAircraft.deflection
  cases h1 : ac.wings.find? fun w => w.uid == u with
  | none =>
    rw [h1] at k
    rw [Option.map_none, Option.map_eq_none_iff] at k
    rw [k]
  | some w =>
    rw [h1] at k
    rw [Option.map_some, Option.map_eq_some_iff] at k
    obtain ⟨w2, k1, k2⟩ := k
    rw [k1]
    simp only [k2]

end

/-! ## Moved deformation fields -/

/-- The fields of a wing in moved coordinates. -/
def DefWing.movedBy (t : V3 ℝ) (w : DefWing (DefField ℝ)) : DefWing (DefField ℝ) :=
  ⟨w.defField.map (movedField t), w.defFieldMirror.map (movedField t)⟩

/-- All fields in moved coordinates. -/
def defsMoved (t : V3 ℝ) (ws : ODict (DefWing (DefField ℝ))) : ODict (DefWing (DefField ℝ)) :=
  ws.map fun e => (e.1, e.2.movedBy t)

theorem setWing_moved (t : V3 ℝ) {uid : String} {f g : DefWing (DefField ℝ) → DefWing (DefField ℝ)}
    (hfg : ∀ w, g (w.movedBy t) = (f w).movedBy t) (ws : ODict (DefWing (DefField ℝ))) :
    setWing uid g (defsMoved t ws) = mapOk (defsMoved t) (setWing uid f ws) := by
  unfold setWing
  induction ws with
  | nil => rfl
  | cons e ws ih =>
    obtain ⟨k, a⟩ := e
    show ODict.modifyE _ uid ((k, a.movedBy t) :: defsMoved t ws) = _
    unfold ODict.modifyE
    rw [ih]
    by_cases hk : k = uid
    · simp only [hk, if_true, hfg]
      rfl
    · simp only [hk, if_false]
      cases ODict.modifyE (fun w => .ok (f w)) uid ws with
      | error x => rfl
      | ok r => rfl

theorem loadDeformation_moved (t : V3 ℝ) : ∀ (fields : List (String × DefField ℝ))
    (ws : ODict (DefWing (DefField ℝ))),
    loadDeformation (fields.map fun e => (e.1, movedField t e.2)) (defsMoved t ws) =
      mapOk (defsMoved t) (loadDeformation fields ws) := by
  intro fields
  induction fields with
  | nil => intro ws; rfl
  | cons e fields ih =>
    intro ws
    obtain ⟨uid, field⟩ := e
    rw [List.map_cons]
    unfold loadDeformation
    split_ifs with h1 h2
    · exact ih ws
    · simp only
      rw [setWing_moved t (f := fun w => { w with defFieldMirror := some field })
        (g := fun w => { w with defFieldMirror := some (movedField t field) }) (fun w => rfl)]
      cases setWing (String.ofList (removeM uid.toList))
          (fun w => { w with defFieldMirror := some field }) ws with
      | error x => rfl
      | ok r => exact ih r
    · simp only
      rw [setWing_moved t (f := fun w => { w with defField := some field })
        (g := fun w => { w with defField := some (movedField t field) }) (fun w => rfl)]
      cases setWing uid (fun w => { w with defField := some field }) ws with
      | error x => rfl
      | ok r => exact ih r

theorem undeformed_moved (t : V3 ℝ) (ac : LoadedAircraft) : defsMoved t ac.undeformed = ac.undeformed := by
  unfold defsMoved LoadedAircraft.undeformed
  rw [List.map_map]
  rfl

theorem defsMoved_lookup (t : V3 ℝ) (ws : ODict (DefWing (DefField ℝ))) (uid : String) :
    (defsMoved t ws).lookup uid = (ws.lookup uid).map (DefWing.movedBy t) := by
  unfold defsMoved
  induction ws with
  | nil => rfl
  | cons e ws ih =>
    obtain ⟨k, a⟩ := e
    rw [List.map_cons, List.lookup_cons, List.lookup_cons]
    cases uid == k with
    | true => rfl
    | false => exact ih

theorem loadDeformationFrom_moved {t : V3 ℝ} {P P2 : Project} (hP : P.MovedBy t P2) (s : SettingsObj)
    {ac ac2 : LoadedAircraft} (h : ac2.undeformed = ac.undeformed) :
    loadDeformationFrom P2 s ac2 = mapOk (defsMoved t) (loadDeformationFrom P s ac) := by
  unfold loadDeformationFrom
  cases s.settings.lookup "deformation" with
  | none => rfl
  | some v =>
    simp only
    rw [hP.deformation, h]
    cases v.truthy with
    | false =>
      simp only [Bool.false_eq_true, if_false, mapOk, undeformed_moved]
    | true =>
      simp only [if_true]
      cases P.deformation v with
      | none => rfl
      | some fields =>
        simp only [Option.map_some]
        conv_lhs => rw [← undeformed_moved t]
        exact loadDeformation_moved t _ _

theorem moved_agree (W : World) {t : V3 ℝ} {ac ac2 : LoadedAircraft}
    (h : List.Forall₂ (WingMoved t) ac.wings ac2.wings) (defs : ODict (DefWing (DefField ℝ))) :
    LatAgree ac.toP ((ac.lattice W defs).moved t) (ac2.lattice W (defsMoved t defs)) := by
  have key : ∀ (m : ℕ) (w : PWing ℝ), ac.toP.wings[m]? = some w → ∀ (k : ℕ) (s : PSegment ℝ),
      w.segments[k]? = some s → ∃ lw lw2 ls ls2,
      ac.wings[m]? = some lw ∧ ac2.wings[m]? = some lw2 ∧ WingMoved t lw lw2 ∧
      lw.segments[k]? = some ls ∧ lw2.segments[k]? = some ls2 ∧ SegMoved t ls ls2 := by
    intro m w hw k s hs
    unfold LoadedAircraft.toP at hw
    rw [List.getElem?_map, Option.map_eq_some_iff] at hw
    obtain ⟨lw, h1, rfl⟩ := hw
    unfold LoadedWing.toP at hs
    rw [List.getElem?_map, Option.map_eq_some_iff] at hs
    obtain ⟨ls, h2, -⟩ := hs
    obtain ⟨lw2, h3, h4⟩ := forall₂_get' h h1
    obtain ⟨ls2, h5, h6⟩ := forall₂_get' h4.segments h2
    exact ⟨lw, lw2, ls, ls2, h1, h3, h4, h2, h5, h6⟩
  refine ⟨moved_deflection h, ?_, ?_⟩
  · intro m w hw k s hs
    obtain ⟨lw, lw2, ls, ls2, h1, h2, h3, h4, h5, h6⟩ := key m w hw k s hs
    unfold LoadedAircraft.lattice LatticeEnv.moved
    simp only [h1, h2]
    unfold LoadedWing.geo GeoEnv.moved
    simp only [h4, h5, Option.map_some, Option.getD_some, h6.vertices, h3.symmetry, h3.uid,
      defsMoved_lookup]
    cases defs.lookup lw.uid with
    | none => rfl
    | some dw => rfl
  · intro m w hw k s hs
    obtain ⟨lw, lw2, ls, ls2, h1, h2, h3, h4, h5, h6⟩ := key m w hw k s hs
    unfold LoadedAircraft.lattice LatticeEnv.moved
    funext eta xsi
    simp only [h1, h2, Option.bind_some, h4, h5, h6.inner, h6.outer]

/-! ## Projects -/

/-- **C142**: the origin of the coordinates does not matter.  If all points of the aircraft file —
corners, centre of gravity, moment reference point — and the fields of the deformation file are moved by
the same vector, along the planes of symmetry of the wings with a symmetry flag, and the first project can
be run, so can the second, with the same forces, moments and coefficients for all flight states. -/
theorem C142_moved_files (W : World) (hW : Lapack W.dgesv) (t : V3 ℝ) (P P2 : Project)
    (hP : P.MovedBy t P2) (d : PyDict) (a b : String) (hn : NativeProject W P d a b) (f : FileAircraft)
    (hf : P.aircraft a = some f) (ht : ∀ w ∈ f.wings, AlongPlane t w.symmetry) (out : RunOut)
    (h : runProject W P = .ok out) :
    ∃ out2, runProject W P2 = .ok out2 ∧ ∀ x, loadProject W P = .ok x →
      (∃ x2, loadProject W P2 = .ok x2 ∧ x2.state = x.state) ∧
      ∀ i < x.state.num, ∀ c ∈ loadNames ++ coeffNames,
        ∃ y, out.value c i = some y ∧ out2.value c i = some y := by
  have hn2 : NativeProject W P2 d a b :=
    ⟨hP.settings.trans hn.settings, hn.keys, hn.aircraft, hn.json, hn.state, hn.notCpacs⟩
  unfold runProject at h
  cases hx : loadProject W P with
  | error e => rw [hx] at h; cases h
  | ok x =>
  rw [hx] at h
  simp only at h
  have hx' := hx
  cases hset : loadSettings W.suffix (.dict d) with
  | error e =>
    unfold loadProject at hx'
    rw [hn.settings, hset] at hx'
    cases hx'
  | ok s =>
  obtain ⟨-, -, -, -, e⟩ := loadProject_native hn hset
  obtain ⟨-, -, -, -, e2⟩ := loadProject_native hn2 hset
  have hl := loaded_aircraft hn hx hf
  obtain ⟨ac2, hl2⟩ := (C92_accepted_iff _ _ _).2 (((C92_accepted_iff _ _ _).1 ⟨_, hl⟩).movedBy t)
  have hm := wingsMoved_of hl hl2
  rw [e, hf] at hx'
  simp only [hl] at hx'
  cases h3 : P.state b with
  | none => rw [h3] at hx'; cases hx'
  | some sd =>
  simp only [h3] at hx'
  cases h4 : updateFromDict W.atm Store.fresh sd with
  | error e => rw [h4] at hx'; cases hx'
  | ok st =>
  simp only [h4] at hx'
  cases h5 : loadDeformationFrom P s x.aircraft with
  | error e => rw [h5] at hx'; cases hx'
  | ok defs =>
  simp only [h5, Except.ok.injEq] at hx'
  have h6 : loadDeformationFrom P2 s ac2 = .ok (defsMoved t defs) := by
    rw [loadDeformationFrom_moved hP s (moved_undeformed hm), h5]
    rfl
  have hx2 : loadProject W P2 = .ok ⟨s, false, ac2, st, defsMoved t defs⟩ := by
    rw [e2, hP.aircraft, hf]
    simp only [Option.map_some, hP.root, hl2, hP.state, h3, h4, h6]
  have hd : Lapack (x.env W P).dgesv := hW
  have hsym : ∀ m k, AlongPlane t ((x.env W P).lat.geo m k).symmetry := by
    intro m k
    show AlongPlane t ((x.aircraft.lattice W x.defs).geo m k).symmetry
    unfold LoadedAircraft.lattice
    simp only
    cases hw : x.aircraft.wings[m]? with
    | none => exact ⟨fun h => by simp at h, fun h => by simp at h, fun h => by simp at h⟩
    | some w =>
      obtain ⟨fw, k1, k2⟩ := forall₂_get (C92_content _ _ _ _ hl).2.2.1 hw
      show AlongPlane t w.symmetry
      rw [k2.symmetry]
      exact ht fw (List.mem_of_getElem? k1)
  obtain ⟨out1, g1, g2⟩ := C97_moved_aircraft (x.env W P) hd t hsym x.aircraft.toP x.state out h
  obtain ⟨out2, q1, q2⟩ := LatAgree.run (env := (x.env W P).moved t) hd (ac := x.aircraft.toP)
    (lat' := ac2.lattice W (defsMoved t defs)) (by
      have := moved_agree W hm defs
      show LatAgree _ ((x.aircraft.lattice W x.defs).moved t) _
      rw [show x.defs = defs by rw [← hx']]
      exact this) g1
  refine ⟨out2, ?_, fun y hy => ?_⟩
  · unfold runProject
    rw [hx2]
    simp only
    rw [← q1]
    have hrefs : ac2.refs.toRefs = x.aircraft.refs.toRefs.moved t := by
      rw [(C92_content _ _ _ _ hl2).2.1, (C92_content _ _ _ _ hl).2.1]
      rfl
    rw [moved_toP hm, show st = x.state by rw [← hx']]
    unfold Loaded.env RunEnv.moved
    simp only [hP.base, hrefs]
    rw [← hx']
  · cases hy
    refine ⟨⟨_, hx2, by rw [← hx']⟩, fun i hi c hc => ?_⟩
    obtain ⟨y, y1, y2⟩ := g2 i hi c hc
    refine ⟨y, y1, ?_⟩
    obtain ⟨c', hc', rfl⟩ : ∃ c' ∈ runColumns, c'.1 = c := by
      have : c ∈ runColumns.map Prod.fst := hc
      obtain ⟨c', h1, h2⟩ := List.mem_map.1 this
      exact ⟨c', h1, h2⟩
    rw [q2 i hi c' hc', y2]

theorem movedBy_back (t : V3 ℝ) (f : FileAircraft) : (f.movedBy t).movedBy (-t) = f := by
  have e : ∀ p : V3 ℝ, p + t + -t = p := by intro p; ext <;> simp
  have hs : ∀ s : FileSegment, (s.moved (· + t)).moved (· + -t) = s := by
    intro s
    obtain ⟨u, ⟨a, b, c, d⟩, g, i, o, nc, ns⟩ := s
    simp only [FileSegment.moved, Option.map_map, FileSegment.mk.injEq, Corners.mk.injEq, true_and,
      and_true]
    refine ⟨?_, ?_, ?_, ?_⟩
    · cases a <;> simp
    · cases b <;> simp
    · cases c <;> simp
    · cases d <;> simp
  have hw : ∀ w : FileWing, (w.movedBy t).movedBy (-t) = w := by
    intro w
    obtain ⟨u, sy, segs, cs⟩ := w
    simp only [FileWing.movedBy, List.map_map, FileWing.mk.injEq, true_and, and_true]
    conv_rhs => rw [← List.map_id segs]
    exact List.map_congr_left fun s _ => hs s
  obtain ⟨u, ⟨r1, r2, r3, r4, r5, r6⟩, ws⟩ := f
  simp only [FileAircraft.movedBy, List.map_map, FileAircraft.mk.injEq, true_and, e]
  conv_rhs => rw [← List.map_id ws]
  exact List.map_congr_left fun w _ => hw w

theorem Project.MovedBy.back {t : V3 ℝ} {P P2 : Project} (h : P.MovedBy t P2) : P2.MovedBy (-t) P := by
  refine ⟨h.base.symm, h.root.symm, h.settings.symm, h.state.symm, ?_, ?_⟩
  · intro a
    rw [h.aircraft]
    cases P.aircraft a with
    | none => rfl
    | some f => simp only [Option.map_some, movedBy_back]
  · intro v
    rw [h.deformation]
    cases P.deformation v with
    | none => rfl
    | some l =>
      simp only [Option.map_some, List.map_map, Option.some.injEq]
      conv_lhs => rw [← List.map_id l]
      refine List.map_congr_left fun e _ => ?_
      obtain ⟨k, g⟩ := e
      simp only [id, Function.comp, Prod.mk.injEq, true_and]
      funext p
      unfold movedField
      rw [show p - -t - t = p by ext <;> simp]
      ext <;> simp

theorem AlongPlane.neg {t : V3 ℝ} {n : ℕ} (h : AlongPlane t n) : AlongPlane (-t) n :=
  ⟨fun e => by simp [h.1 e], fun e => by simp [h.2.1 e], fun e => by simp [h.2.2 e]⟩

/-- **C142**: both projects can be run or none. -/
theorem C142_finishes (W : World) (hW : Lapack W.dgesv) (t : V3 ℝ) (P P2 : Project)
    (hP : P.MovedBy t P2) (d : PyDict) (a b : String) (hn : NativeProject W P d a b) (f : FileAircraft)
    (hf : P.aircraft a = some f) (ht : ∀ w ∈ f.wings, AlongPlane t w.symmetry) :
    (∃ out, runProject W P2 = .ok out) ↔ ∃ out, runProject W P = .ok out := by
  constructor
  · rintro ⟨out, h⟩
    obtain ⟨out', h', -⟩ := C142_moved_files W hW (-t) P2 P hP.back d a b
      ⟨hP.settings.trans hn.settings, hn.keys, hn.aircraft, hn.json, hn.state, hn.notCpacs⟩
      (f.movedBy t) (by rw [hP.aircraft, hf]; rfl) (by
        intro w hw
        obtain ⟨w0, h0, rfl⟩ := List.mem_map.1 hw
        exact (ht w0 h0).neg) out h
    exact ⟨out', h'⟩
  · rintro ⟨out, h⟩
    obtain ⟨out', h', -⟩ := C142_moved_files W hW t P P2 hP d a b hn f hf ht out h
    exact ⟨out', h'⟩

/-- Example for C142: the flat wing, one metre further back and two metres higher. -/
example : ∃ out out2 x, runProject exampleWorld (exampleProject rectFile) = .ok out ∧
    runProject exampleWorld (exampleProject (rectFile.movedBy ⟨1, 0, 2⟩)) = .ok out2 ∧
    out.value "My" 0 = some x ∧ out2.value "My" 0 = some x := by
  obtain ⟨out, h⟩ := rect_finishes
  obtain ⟨out2, h2, hv⟩ := C142_moved_files exampleWorld exactDgesv_lapack ⟨1, 0, 2⟩
    (exampleProject rectFile) (exampleProject (rectFile.movedBy ⟨1, 0, 2⟩))
    ⟨rfl, rfl, rfl, rfl, fun a => by simp only [exampleProject]; split_ifs <;> rfl, fun _ => rfl⟩
    exampleSettings "plane.json" "cruise.json"
    (example_native _) rectFile rfl (by
      intro w hw
      simp only [rectFile, List.mem_singleton] at hw
      subst hw
      exact ⟨fun e => by simp at e, fun _ => rfl, fun e => by simp at e⟩) out h
  cases hx : loadProject exampleWorld (exampleProject rectFile) with
  | error e => unfold runProject at h; rw [hx] at h; cases h
  | ok x =>
    have hn0 : 0 < x.state.num := by
      obtain ⟨f', sd, -, h1, -, -, h4, -⟩ := loaded_reads (example_native rectFile) hx
      cases h1
      rw [(oneState_entries h4).1]
      exact one_pos
    obtain ⟨y, y1, y2⟩ := (hv x hx).2 0 hn0 "My" (by simp [loadNames])
    exact ⟨out, out2, y, h, h2, y1, y2⟩

end Verif
