import Verif.Props.MovedFiles
import Verif.Props.RunRotated
import Verif.Props.FlightConditions
import Verif.Lemmas.Spans

/-!
# Property C144 for projects: aircraft file and flow turned together
-/

set_option linter.unnecessarySeqFocus false

namespace Verif

open V3

/-! ## Specification -/

/-- The entry of a wing with all corners turned. -/
def FileWing.rotatedBy (T : Rotation) (w : FileWing) : FileWing :=
  { w with segments := w.segments.map (FileSegment.moved T.map) }

/-- The aircraft file with all points turned. -/
def FileAircraft.rotatedBy (T : Rotation) (f : FileAircraft) : FileAircraft :=
  { f with
    refs := { f.refs with gcenter := T.map f.refs.gcenter, rcenter := T.map f.refs.rcenter }
    wings := f.wings.map (FileWing.rotatedBy T) }

/-- The second project has the files of the first with all points turned, and any state file. -/
structure Project.RotatedBy (T : Rotation) (P P2 : Project) : Prop where
  base : P2.base = P.base
  root : P2.root = P.root
  settings : P2.settings = P.settings
  aircraft : ∀ a, P2.aircraft a = (P.aircraft a).map (FileAircraft.rotatedBy T)
  deformation : ∀ v, P2.deformation v =
    (P.deformation v).map (List.map fun e => (e.1, T.field e.2))

/-! ## Turned files -/

theorem AllGiven.rotatedBy {s : FileSegment} {v : Corners (V3 ℝ)} (T : Rotation) (h : AllGiven s.vertices v) :
    AllGiven (s.moved T.map).vertices (v.map' T.map) := by
  obtain ⟨h1, h2, h3, h4⟩ := h
  unfold FileSegment.moved
  simp only [h1, h2, h3, h4, Option.map_some]
  exact ⟨rfl, rfl, rfl, rfl⟩

theorem noSpan_width {s : FileSegment} {v : Corners (V3 ℝ)} (h : AllGiven s.vertices v)
    (hw : s.width ≠ 0) : ¬ NoSpan v := by
  rintro ⟨h1, h2⟩
  apply hw
  unfold FileSegment.width
  rw [FileSegment.corners_given h, h1, h2]
  simp

theorem FileOk.rotatedBy {root : String} {airfoilOk : String → Bool} {f : FileAircraft} (T : Rotation)
    (hs : ∀ w ∈ f.wings, w.segments ≠ [] → ∃ s ∈ w.segments, (s.moved T.map).width ≠ 0)
    (h : FileOk root airfoilOk f) : FileOk root airfoilOk (f.rotatedBy T) := by
  refine ⟨?_, h.area, h.span, h.chord, ?_⟩
  · have e : (f.rotatedBy T).wings.map (·.uid) = f.wings.map (·.uid) := by
      unfold FileAircraft.rotatedBy
      rw [List.map_map]
      rfl
    rw [e]
    exact h.names
  · intro w' hw'
    obtain ⟨w, hw, rfl⟩ := List.mem_map.1 hw'
    have k := h.wings w hw
    refine ⟨k.symmetry, ?_, k.controlNames, ?_, k.controls, ?_⟩
    · have e : (w.rotatedBy T).segments.map (·.uid) = w.segments.map (·.uid) := by
        unfold FileWing.rotatedBy
        rw [List.map_map]
        rfl
      rw [e]
      exact k.segmentNames
    · intro s' hs'
      obtain ⟨s, hs, rfl⟩ := List.mem_map.1 hs'
      have q := k.segments s hs
      obtain ⟨v, hv⟩ := q.vertices
      exact ⟨⟨_, hv.rotatedBy T⟩, q.geometry, q.numC, q.numS, q.inner, q.outer⟩
    · intro hne
      obtain ⟨s, hm, hsp⟩ := hs w hw fun e => hne (by unfold FileWing.rotatedBy; rw [e]; rfl)
      obtain ⟨v, hv⟩ := (k.segments s hm).vertices
      exact ⟨_, List.mem_map_of_mem hm, _, hv.rotatedBy T, noSpan_width (hv.rotatedBy T) hsp⟩

/-- A loaded segment in turned coordinates. -/
structure SegRotated (T : Rotation) (q : FileSegment → Prop) (s s2 : LoadedSegment) : Prop where
  toP : s2.toP.noSpan = s.toP.noSpan
  span : ∃ x : FileSegment, q x ∧ s2.toP.numS = x.numS ∧ s.toP.numS = x.numS ∧
    s.toP.span = x.width ∧ s2.toP.span = (x.moved T.map).width
  vertices : s2.gen.vertices = s.gen.vertices.map' T.map
  inner : s2.airfoilInner = s.airfoilInner
  outer : s2.airfoilOuter = s.airfoilOuter

/-- A loaded wing in turned coordinates. -/
structure WingRotated (T : Rotation) (q : FileSegment → Prop) (w w2 : LoadedWing) : Prop where
  uid : w2.uid = w.uid
  symmetry : w2.symmetry = w.symmetry
  controls : w2.controls = w.controls
  segments : List.Forall₂ (SegRotated T q) w.segments w2.segments

theorem segRotated_of {q : FileSegment → Prop} {root : String} {airfoilOk : String → Bool} {T : Rotation} {e : FileWing}
    {w w2 : LoadedWing} (hl : loadWing root airfoilOk e = .ok w)
    (hl2 : loadWing root airfoilOk (e.rotatedBy T) = .ok w2) {x : FileSegment} (hq : q x) {s s2 : LoadedSegment}
    (hs : s ∈ w.segments) (hs2 : s2 ∈ w2.segments) (h : SegmentFrom root x s)
    (h2 : SegmentFrom root (x.moved T.map) s2) : SegRotated T q s s2 := by
  have hv : s2.gen.vertices = s.gen.vertices.map' T.map :=
    allGiven_unique (h.vertices.rotatedBy T) h2.vertices
  have a1 := (airfoilAt_iff _ _ _).1 h.inner
  have a2 := (airfoilAt_iff _ _ _).1 h.outer
  have b1 := (airfoilAt_iff _ _ _).1 h2.inner
  have b2 := (airfoilAt_iff _ _ _).1 h2.outer
  refine ⟨?_, ⟨x, hq, h2.numS, h.numS, loaded_width hl hs h, loaded_width hl2 hs2 h2⟩, hv,
    b1.trans a1.symm, b2.trans a2.symm⟩
  unfold LoadedSegment.toP PSegment.noSpan
  simp only
  rw [h.uid, h2.uid, h.numC, h2.numC, h.numS, h2.numS, hv, xsiInterpol_rotated]
  simp only [segPoint_rotated, ← T.sub, T.norm]
  rfl

theorem wingRotated_of {q : FileSegment → Prop} {root : String} {airfoilOk : String → Bool} {T : Rotation} {e : FileWing}
    {w w2 : LoadedWing} (hl : loadWing root airfoilOk e = .ok w)
    (hl2 : loadWing root airfoilOk (e.rotatedBy T) = .ok w2) (hq : ∀ x ∈ e.segments, q x) :
    WingRotated T q w w2 := by
  have h := (loadWing_from hl).1
  have h2 := (loadWing_from hl2).1
  refine ⟨h2.uid.trans h.uid.symm, h2.symmetry.trans h.symmetry.symm, ?_, ?_⟩
  · have k := h.controls
    have k2 : List.Forall₂ (fun (e' : FileControl) (c : FileControl) =>
      c.uid = e'.uid ∧ c.data = e'.data.completed e.symmetry) e.controls w2.controls := h2.controls
    generalize e.controls = l at k k2
    generalize w.controls = l1 at k
    generalize w2.controls = l2 at k2
    induction k generalizing l2 with
    | nil => cases k2; rfl
    | @cons a b _ _ hx _ ih =>
      cases k2 with
      | @cons _ b2 _ _ hy k2 =>
        rw [ih _ k2]
        congr 1
        cases b
        cases b2
        obtain ⟨x1, x2⟩ := hx
        obtain ⟨y1, y2⟩ := hy
        simp only at x1 x2 y1 y2
        rw [x1, x2, y1, y2]
  · have k := h.segments
    have k2 := List.forall₂_map_left_iff.1 h2.segments
    have hm : ∀ s ∈ w.segments, s ∈ w.segments := fun _ h => h
    have hm2 : ∀ s ∈ w2.segments, s ∈ w2.segments := fun _ h => h
    revert hm hm2 hq
    generalize e.segments = l at k k2
    generalize hl1 : w.segments = l1 at k
    generalize hl2 : w2.segments = l2 at k2
    intro hq hm hm2
    have key : ∀ {l : List FileSegment} {l1 l2 : List LoadedSegment},
        List.Forall₂ (SegmentFrom root) l l1 →
        List.Forall₂ (fun a b => SegmentFrom root (a.moved T.map) b) l l2 → (∀ x ∈ l, q x) →
        (∀ s ∈ l1, s ∈ w.segments) → (∀ s ∈ l2, s ∈ w2.segments) →
        List.Forall₂ (SegRotated T q) l1 l2 := by
      intro l l1 l2 k k2 hq m1 m2
      induction k generalizing l2 with
      | nil => cases k2; exact .nil
      | cons hx _ ih =>
        cases k2 with
        | cons hy k2 =>
          exact .cons (segRotated_of hl (by assumption) (hq _ (by simp)) (m1 _ (by simp)) (m2 _ (by simp)) hx hy)
            (ih k2 (fun x hx => hq x (List.mem_cons_of_mem _ hx)) (fun s hs => m1 s (List.mem_cons_of_mem _ hs))
              fun s hs => m2 s (List.mem_cons_of_mem _ hs))
    exact key k k2 hq (by rw [hl1]; exact hm) (by rw [hl2]; exact hm2)

theorem wingsRotated_of {q : FileSegment → Prop} {root : String} {airfoilOk : String → Bool} {T : Rotation} {f : FileAircraft}
    {ac ac2 : LoadedAircraft} (hl : loadAircraft root airfoilOk f = .ok ac)
    (hl2 : loadAircraft root airfoilOk (f.rotatedBy T) = .ok ac2)
    (hq : ∀ w ∈ f.wings, ∀ x ∈ w.segments, q x) :
    List.Forall₂ (WingRotated T q) ac.wings ac2.wings := by
  have k := mapE_ok (loadAircraft_wings hl)
  have k2 := List.forall₂_map_left_iff.1 (mapE_ok (loadAircraft_wings hl2))
  revert hq
  generalize f.wings = l at k k2
  intro hq
  generalize ac.wings = l1 at k
  generalize ac2.wings = l2 at k2
  induction k generalizing l2 with
  | nil => cases k2; exact .nil
  | cons hx _ ih =>
    cases k2 with
    | cons hy k2 =>
      exact .cons (wingRotated_of hx hy (hq _ (by simp)))
        (ih (fun w hw => hq w (List.mem_cons_of_mem _ hw)) _ k2)

theorem WingRotated.toP {q : FileSegment → Prop} {T : Rotation} {w w2 : LoadedWing} (h : WingRotated T q w w2) : w2.toP.noSpans = w.toP.noSpans := by
  unfold LoadedWing.toP PWing.noSpans
  simp only [List.map_map]
  rw [h.uid, h.symmetry, h.controls]
  congr 1
  have := h.segments
  generalize w.segments = l at this
  generalize w2.segments = l2 at this
  induction this with
  | nil => rfl
  | cons hx _ ih =>
    rw [List.map_cons, List.map_cons, ih]
    exact congrArg (· :: _) hx.toP

section
variable {q : FileSegment → Prop} {T : Rotation} {ac ac2 : LoadedAircraft} (h : List.Forall₂ (WingRotated T q) ac.wings ac2.wings)
include h

theorem rotated_toP : ac2.toP.noSpans = ac.toP.noSpans := by
  unfold LoadedAircraft.toP PAircraft.noSpans
  simp only [List.map_map]
  generalize ac.wings = l at h
  generalize ac2.wings = l2 at h
  congr 1
  induction h with
  | nil => rfl
  | cons hx _ ih =>
    rw [List.map_cons, List.map_cons, ih]
    exact congrArg (· :: _) hx.toP

theorem rotated_undeformed : ac2.undeformed = ac.undeformed := by
  unfold LoadedAircraft.undeformed
  generalize ac.wings = l at h
  generalize ac2.wings = l2 at h
  induction h with
  | nil => rfl
  | cons hx _ ih => rw [List.map_cons, List.map_cons, hx.uid, ih]

theorem rotated_deflection : ac2.deflection = ac.deflection := by
  funext u c
  have key : ∀ l l2 : List LoadedWing, List.Forall₂ (WingRotated T q) l l2 →
      ((l2.find? fun w => w.uid == u).map fun w => w.controls) =
        (l.find? fun w => w.uid == u).map fun w => w.controls := by
    intro l l2 h
    induction h with
    | nil => rfl
    | @cons a b _ _ hx _ ih =>
      rw [List.find?_cons, List.find?_cons, hx.uid]
      cases a.uid == u with
      | true => simp only [Option.map_some, hx.controls]
      | false => exact ih
  have k := key _ _ h
  unfold LoadedAircraft.deflection
  cases h1 : ac.wings.find? fun w => w.uid == u with
  | none =>
    rw [h1] at k
    rw [Option.map_none, Option.map_eq_none_iff] at k
    rw [k]
  | some w =>
    rw [h1] at k
    rw [Option.map_some, Option.map_eq_some_iff] at k
    obtain ⟨w2, k1, k2⟩ := k
    rw [k1]
    simp only [k2]

end

/-! ## Turned deformation fields -/

/-- The fields of a wing in turned coordinates. -/
def DefWing.rotatedBy (T : Rotation) (w : DefWing (DefField ℝ)) : DefWing (DefField ℝ) :=
  ⟨w.defField.map (T.field), w.defFieldMirror.map (T.field)⟩

/-- All fields in turned coordinates. -/
def defsRotated (T : Rotation) (ws : ODict (DefWing (DefField ℝ))) : ODict (DefWing (DefField ℝ)) :=
  ws.map fun e => (e.1, e.2.rotatedBy T)

theorem setWing_rotated (T : Rotation) {uid : String} {f g : DefWing (DefField ℝ) → DefWing (DefField ℝ)}
    (hfg : ∀ w, g (w.rotatedBy T) = (f w).rotatedBy T) (ws : ODict (DefWing (DefField ℝ))) :
    setWing uid g (defsRotated T ws) = mapOk (defsRotated T) (setWing uid f ws) := by
  unfold setWing
  induction ws with
  | nil => rfl
  | cons e ws ih =>
    obtain ⟨k, a⟩ := e
    show ODict.modifyE _ uid ((k, a.rotatedBy T) :: defsRotated T ws) = _
    unfold ODict.modifyE
    rw [ih]
    by_cases hk : k = uid
    · simp only [hk, if_true, hfg]
      rfl
    · simp only [hk, if_false]
      cases ODict.modifyE (fun w => .ok (f w)) uid ws with
      | error x => rfl
      | ok r => rfl

theorem loadDeformation_rotated (T : Rotation) : ∀ (fields : List (String × DefField ℝ))
    (ws : ODict (DefWing (DefField ℝ))),
    loadDeformation (fields.map fun e => (e.1, T.field e.2)) (defsRotated T ws) =
      mapOk (defsRotated T) (loadDeformation fields ws) := by
  intro fields
  induction fields with
  | nil => intro ws; rfl
  | cons e fields ih =>
    intro ws
    obtain ⟨uid, field⟩ := e
    rw [List.map_cons]
    unfold loadDeformation
    split_ifs with h1 h2
    · exact ih ws
    · simp only
      rw [setWing_rotated T (f := fun w => { w with defFieldMirror := some field })
        (g := fun w => { w with defFieldMirror := some (T.field field) }) (fun w => rfl)]
      cases setWing (String.ofList (removeM uid.toList))
          (fun w => { w with defFieldMirror := some field }) ws with
      | error x => rfl
      | ok r => exact ih r
    · simp only
      rw [setWing_rotated T (f := fun w => { w with defField := some field })
        (g := fun w => { w with defField := some (T.field field) }) (fun w => rfl)]
      cases setWing uid (fun w => { w with defField := some field }) ws with
      | error x => rfl
      | ok r => exact ih r

theorem undeformed_rotated (T : Rotation) (ac : LoadedAircraft) : defsRotated T ac.undeformed = ac.undeformed := by
  unfold defsRotated LoadedAircraft.undeformed
  rw [List.map_map]
  rfl

theorem defsRotated_lookup (T : Rotation) (ws : ODict (DefWing (DefField ℝ))) (uid : String) :
    (defsRotated T ws).lookup uid = (ws.lookup uid).map (DefWing.rotatedBy T) := by
  unfold defsRotated
  induction ws with
  | nil => rfl
  | cons e ws ih =>
    obtain ⟨k, a⟩ := e
    rw [List.map_cons, List.lookup_cons, List.lookup_cons]
    cases uid == k with
    | true => rfl
    | false => exact ih

theorem loadDeformationFrom_rotated {T : Rotation} {P P2 : Project} (hP : P.RotatedBy T P2) (s : SettingsObj)
    {ac ac2 : LoadedAircraft} (h : ac2.undeformed = ac.undeformed) :
    loadDeformationFrom P2 s ac2 = mapOk (defsRotated T) (loadDeformationFrom P s ac) := by
  unfold loadDeformationFrom
  cases s.settings.lookup "deformation" with
  | none => rfl
  | some v =>
    simp only
    rw [hP.deformation, h]
    cases v.truthy with
    | false =>
      simp only [Bool.false_eq_true, if_false, mapOk, undeformed_rotated]
    | true =>
      simp only [if_true]
      cases P.deformation v with
      | none => rfl
      | some fields =>
        simp only [Option.map_some]
        conv_lhs => rw [← undeformed_rotated T]
        exact loadDeformation_rotated T _ _

theorem rotated_agree (W : World) {q : FileSegment → Prop} {T : Rotation} {ac ac2 : LoadedAircraft}
    (h : List.Forall₂ (WingRotated T q) ac.wings ac2.wings) (defs : ODict (DefWing (DefField ℝ))) :
    LatAgree ac.toP ((ac.lattice W defs).rotated T) (ac2.lattice W (defsRotated T defs)) := by
  have key : ∀ (m : ℕ) (w : PWing ℝ), ac.toP.wings[m]? = some w → ∀ (k : ℕ) (s : PSegment ℝ),
      w.segments[k]? = some s → ∃ lw lw2 ls ls2,
      ac.wings[m]? = some lw ∧ ac2.wings[m]? = some lw2 ∧ WingRotated T q lw lw2 ∧
      lw.segments[k]? = some ls ∧ lw2.segments[k]? = some ls2 ∧ SegRotated T q ls ls2 := by
    intro m w hw k s hs
    unfold LoadedAircraft.toP at hw
    rw [List.getElem?_map, Option.map_eq_some_iff] at hw
    obtain ⟨lw, h1, rfl⟩ := hw
    unfold LoadedWing.toP at hs
    rw [List.getElem?_map, Option.map_eq_some_iff] at hs
    obtain ⟨ls, h2, -⟩ := hs
    obtain ⟨lw2, h3, h4⟩ := forall₂_get' h h1
    obtain ⟨ls2, h5, h6⟩ := forall₂_get' h4.segments h2
    exact ⟨lw, lw2, ls, ls2, h1, h3, h4, h2, h5, h6⟩
  refine ⟨rotated_deflection h, ?_, ?_⟩
  · intro m w hw k s hs
    obtain ⟨lw, lw2, ls, ls2, h1, h2, h3, h4, h5, h6⟩ := key m w hw k s hs
    unfold LoadedAircraft.lattice LatticeEnv.rotated
    simp only [h1, h2]
    unfold LoadedWing.geo GeoEnv.rotated
    simp only [h4, h5, Option.map_some, Option.getD_some, h6.vertices, h3.symmetry, h3.uid,
      defsRotated_lookup]
    cases defs.lookup lw.uid with
    | none => rfl
    | some dw => rfl
  · intro m w hw k s hs
    obtain ⟨lw, lw2, ls, ls2, h1, h2, h3, h4, h5, h6⟩ := key m w hw k s hs
    unfold LoadedAircraft.lattice LatticeEnv.rotated
    funext eta xsi
    simp only [h1, h2, Option.bind_some, h4, h5, h6.inner, h6.outer]

/-! ## Spans -/

section
variable {q : FileSegment → Prop} {T : Rotation} {ac ac2 : LoadedAircraft}
  (h : List.Forall₂ (WingRotated T q) ac.wings ac2.wings)
include h

theorem rotated_numbers (hq : ∀ x, q x → x.numS ≠ none) :
    ac.toP.NumbersGiven ∧ ac2.toP.NumbersGiven := by
  refine ⟨?_, ?_⟩
  · intro w hw s hs
    obtain ⟨lw, hlw, rfl⟩ := List.mem_map.1 hw
    obtain ⟨ls, hls, rfl⟩ := List.mem_map.1 hs
    obtain ⟨lw2, -, k⟩ := forall₂_mem_left h hlw
    obtain ⟨ls2, -, k'⟩ := forall₂_mem_left k.segments hls
    obtain ⟨x, x1, x2, x3, -⟩ := k'.span
    rw [x3]
    exact hq x x1
  · intro w hw s hs
    obtain ⟨lw, hlw, rfl⟩ := List.mem_map.1 hw
    obtain ⟨ls, hls, rfl⟩ := List.mem_map.1 hs
    obtain ⟨lw2, -, k⟩ := forall₂_mem_right h hlw
    obtain ⟨ls2, -, k'⟩ := forall₂_mem_right k.segments hls
    obtain ⟨x, x1, x2, x3, -⟩ := k'.span
    rw [x2]
    exact hq x x1

theorem rotated_same (hq : ∀ x, q x → (x.moved T.map).width = x.width) : ac2.toP = ac.toP := by
  have hs : ∀ {l l2 : List LoadedSegment}, List.Forall₂ (SegRotated T q) l l2 →
      l2.map LoadedSegment.toP = l.map LoadedSegment.toP := by
    intro l l2 h
    induction h with
    | nil => rfl
    | @cons s s2 _ _ hx _ ih =>
      obtain ⟨x, x1, -, -, x4, x5⟩ := hx.span
      rw [List.map_cons, List.map_cons, ih]
      congr 1
      have e : ∀ p : PSegment ℝ, p = { p.noSpan with span := p.span } := fun p => rfl
      rw [e s2.toP, e s.toP, hx.toP, x5, x4, hq x x1]
  have hw : ∀ {w w2 : LoadedWing}, WingRotated T q w w2 → w2.toP = w.toP := by
    intro w w2 k
    unfold LoadedWing.toP
    rw [k.uid, k.symmetry, k.controls, hs k.segments]
  unfold LoadedAircraft.toP
  generalize ac.wings = l at h
  generalize ac2.wings = l2 at h
  congr 1
  induction h with
  | nil => rfl
  | cons hx _ ih => rw [List.map_cons, List.map_cons, hw hx, ih]

end

/-! ## Projects -/

/-- **C144** (project): all points of the aircraft file — corners, centre of gravity, moment reference
point — and the fields of the deformation file are turned by the same rotation, and the states of the second
state file mean the turned flow: the same airspeed and density, direction and angular velocity turned.  If the
first project can be run, so can the second, and the loads are turned.  The number of spanwise panels must
be given for every segment or the widths of the segments in the y-z plane must be the same after turning:
automatic numbers of spanwise panels depend on those widths. -/
theorem C144_project (W : World) (hW : Lapack W.dgesv) (T : Rotation) (P P2 : Project)
    (hP : P.RotatedBy T P2) (d : PyDict) (a b : String) (hn : NativeProject W P d a b) (f : FileAircraft)
    (hf : P.aircraft a = some f) (hT : ∀ w ∈ f.wings, T.KeepsPlane w.symmetry)
    (hsp : ∀ w ∈ f.wings, w.segments ≠ [] → ∃ s ∈ w.segments, (s.moved T.map).width ≠ 0)
    (hcase : (∀ w ∈ f.wings, ∀ s ∈ w.segments, s.numS ≠ none) ∨
      ∀ w ∈ f.wings, ∀ s ∈ w.segments, (s.moved T.map).width = s.width)
    (sd sd2 : List (String × Arg ℝ)) (hsd : P.state b = some sd) (hsd2 : P2.state b = some sd2)
    (hnd : (sd.map Prod.fst).Nodup) (hnd2 : (sd2.map Prod.fst).Nodup) (hok : Acceptable W.atm sd2)
    (hlen : ∀ x ∈ sd, ∀ y ∈ sd2, y.2.toList.length = x.2.toList.length)
    (hs : ∀ i s, FlightAt W.atm sd i s → ∃ s2, FlightAt W.atm sd2 i s2 ∧ s.Rotated T s2)
    (out : RunOut) (h : runProject W P = .ok out) :
    ∃ out2, runProject W P2 = .ok out2 ∧
      ∀ i s, FlightAt W.atm sd i s → RotatedLoads T out out2 i := by
  have hn2 : NativeProject W P2 d a b :=
    ⟨hP.settings.trans hn.settings, hn.keys, hn.aircraft, hn.json, hn.state, hn.notCpacs⟩
  unfold runProject at h
  cases hx : loadProject W P with
  | error e => rw [hx] at h; cases h
  | ok x =>
  rw [hx] at h
  simp only at h
  have hx' := hx
  cases hset : loadSettings W.suffix (.dict d) with
  | error e =>
    unfold loadProject at hx'
    rw [hn.settings, hset] at hx'
    cases hx'
  | ok s =>
  obtain ⟨-, -, -, -, e⟩ := loadProject_native hn hset
  obtain ⟨-, -, -, -, e2⟩ := loadProject_native hn2 hset
  have hl := loaded_aircraft hn hx hf
  obtain ⟨ac2, hl2⟩ := (C92_accepted_iff _ _ _).2 (((C92_accepted_iff _ _ _).1 ⟨_, hl⟩).rotatedBy T hsp)
  have hm := wingsRotated_of (q := fun y => ∃ w ∈ f.wings, y ∈ w.segments) hl hl2
    fun w hw y hy => ⟨w, hw, hy⟩
  rw [e, hf] at hx'
  simp only [hl] at hx'
  simp only [hsd] at hx'
  cases h4 : updateFromDict W.atm Store.fresh sd with
  | error e => rw [h4] at hx'; cases hx'
  | ok st =>
  simp only [h4] at hx'
  cases h5 : loadDeformationFrom P s x.aircraft with
  | error e => rw [h5] at hx'; cases hx'
  | ok defs =>
  simp only [h5, Except.ok.injEq] at hx'
  have h6 : loadDeformationFrom P2 s ac2 = .ok (defsRotated T defs) := by
    rw [loadDeformationFrom_rotated hP s (rotated_undeformed hm), h5]
    rfl
  obtain ⟨hacc, hfin⟩ := accepted angle_limits W.atm sd hnd
  obtain ⟨hacc2, hfin2⟩ := accepted angle_limits W.atm sd2 hnd2
  have hA := hacc.1 ⟨_, h4⟩
  obtain ⟨st2, h7⟩ := hacc2.2 hok
  have hx2 : loadProject W P2 = .ok ⟨s, false, ac2, st2, defsRotated T defs⟩ := by
    rw [e2, hP.aircraft, hf]
    simp only [Option.map_some, hP.root, hl2, hsd2, h7, h6]
  have hst : x.state = st := by rw [← hx']
  have hnum : st2.num = x.state.num := by
    obtain ⟨u, hu⟩ := hA.alpha
    obtain ⟨u2, hu2⟩ := hok.alpha
    rw [hst, ← (hfin _ h4).1 _ hu, ← (hfin2 _ h7).1 _ hu2]
    exact hlen _ hu _ hu2
  have hd : Lapack (x.env W P).dgesv := hW
  have hsym : ∀ m k, T.KeepsPlane ((x.env W P).lat.geo m k).symmetry := by
    intro m k
    show T.KeepsPlane ((x.aircraft.lattice W x.defs).geo m k).symmetry
    unfold LoadedAircraft.lattice
    simp only
    cases hw : x.aircraft.wings[m]? with
    | none => exact ⟨fun h => by simp at h, fun h => by simp at h, fun h => by simp at h⟩
    | some w =>
      obtain ⟨fw, k1, k2⟩ := forall₂_get (C92_content _ _ _ _ hl).2.2.1 hw
      show T.KeepsPlane w.symmetry
      rw [k2.symmetry]
      exact hT fw (List.mem_of_getElem? k1)
  obtain ⟨out1, g1, g2⟩ := C144_rotated (x.env W P) hd T hsym x.aircraft.toP x.state st2 hnum (by
    rintro i - v ⟨v1, v2, v3, v4, v5, v6, v7⟩
    rw [hst] at v1 v2 v3 v4 v5 v6 v7
    obtain ⟨v', f1, f2⟩ := hs i v
      ((flightAt_iff (hfin _ h4).2 hnd hA.documented i v).2 ⟨v1, v2, v3, v4, v5, v6, v7⟩)
    obtain ⟨q1, q2, q3, q4, q5, q6, q7⟩ := (flightAt_iff (hfin2 _ h7).2 hnd2 hok.documented i _).1 f1
    exact ⟨v', ⟨q1, q2, q3, q4, q5, q6, q7⟩, f2⟩) out h
  obtain ⟨out2, q1, q2⟩ := LatAgree.run (env := (x.env W P).rotated T) hd (ac := x.aircraft.toP)
    (lat' := ac2.lattice W (defsRotated T defs)) (by
      have := rotated_agree W hm defs
      show LatAgree _ ((x.aircraft.lattice W x.defs).rotated T) _
      rw [show x.defs = defs by rw [← hx']]
      exact this) g1
  have hlast : ∃ out3, standardRun { (x.env W P).rotated T with lat := ac2.lattice W (defsRotated T defs) }
      ac2.toP st2 = .ok out3 ∧ ∀ i < st2.num, ∀ c ∈ runColumns, out3.value c.1 i = out2.value c.1 i := by
    rcases hcase with hcase | hcase
    · obtain ⟨n1, n2⟩ := rotated_numbers hm (by
        rintro y ⟨w, hw, hy⟩
        exact hcase w hw y hy)
      exact noSpans_run (env := { (x.env W P).rotated T with lat := ac2.lattice W (defsRotated T defs) }) hd
        (rotated_toP hm) n1 n2 q1
    · rw [rotated_same hm (by
        rintro y ⟨w, hw, hy⟩
        exact hcase w hw y hy)]
      exact ⟨out2, q1, fun _ _ _ _ => rfl⟩
  obtain ⟨out3, w1, w2⟩ := hlast
  refine ⟨out3, ?_, fun i v hv => ?_⟩
  · unfold runProject
    rw [hx2]
    simp only
    rw [← w1]
    have hrefs : ac2.refs.toRefs = x.aircraft.refs.toRefs.rotated T := by
      rw [(C92_content _ _ _ _ hl2).2.1, (C92_content _ _ _ _ hl).2.1]
      rfl
    unfold Loaded.env RunEnv.rotated
    simp only [hP.base, hrefs]
    rw [← hx']
  · have hi : i < x.state.num := by
      rw [hst]
      exact flightAt_lt (hfin _ h4).1 hv
    obtain ⟨r1, r2, r3, r4, r5, r6⟩ := g2 i hi
    have key : ∀ c ∈ loadNames ++ coeffNames, out3.value c i = out1.value c i := by
      intro c hc
      obtain ⟨c', hc', rfl⟩ : ∃ c' ∈ runColumns, c'.1 = c := by
        have : c ∈ runColumns.map Prod.fst := hc
        obtain ⟨c', h1, h2⟩ := List.mem_map.1 this
        exact ⟨c', h1, h2⟩
      rw [w2 i (by rw [hnum]; exact hi) c' hc', q2 i (by rw [hnum]; exact hi) c' hc']
    have vec : ∀ {n1 n2 n3 : String} {u : V3 ℝ}, n1 ∈ loadNames ++ coeffNames →
        n2 ∈ loadNames ++ coeffNames → n3 ∈ loadNames ++ coeffNames → out1.vector n1 n2 n3 i u →
        out3.vector n1 n2 n3 i u := by
      rintro n1 n2 n3 u m1 m2 m3 ⟨u1, u2, u3⟩
      exact ⟨by rw [key _ m1, u1], by rw [key _ m2, u2], by rw [key _ m3, u3]⟩
    refine ⟨?_, ?_, ?_, ?_, ?_, ?_⟩
    · obtain ⟨u, u1, u2⟩ := r1
      exact ⟨u, u1, vec (by simp [loadNames]) (by simp [loadNames]) (by simp [loadNames]) u2⟩
    · obtain ⟨u, u1, u2⟩ := r2
      exact ⟨u, u1, vec (by simp [loadNames]) (by simp [loadNames]) (by simp [loadNames]) u2⟩
    · obtain ⟨u, u', u1, u2, u3⟩ := r3
      exact ⟨u, u', u1, vec (by simp [loadNames]) (by simp [loadNames]) (by simp [loadNames]) u2, u3⟩
    · obtain ⟨y, y1, y2⟩ := r4
      exact ⟨y, y1, by rw [key _ (by simp [coeffNames]), y2]⟩
    · intro u hu
      exact vec (by simp [coeffNames]) (by simp [coeffNames]) (by simp [coeffNames]) (r5 u hu)
    · intro u hu
      obtain ⟨u', u1, u2⟩ := r6 u hu
      exact ⟨u', vec (by simp [coeffNames]) (by simp [coeffNames]) (by simp [coeffNames]) u1, u2⟩

/-- Results of a finished run in terms of total force and moment. -/
theorem columns_of_force (W : World) (hW : Lapack W.dgesv) (P : Project) (d : PyDict) (a b : String)
    (hn : NativeProject W P d a b) (f : FileAircraft) (hf : P.aircraft a = some f)
    (sd : List (String × Arg ℝ)) (hsd : P.state b = some sd) (hnd : (sd.map Prod.fst).Nodup)
    (out : RunOut) (h : runProject W P = .ok out) (i : ℕ) (s : FlowState) (hs : FlightAt W.atm sd i s) :
    ∃ F M : V3 ℝ, ∃ C : Coeffs, out.vector "Fx" "Fy" "Fz" i F ∧ out.vector "Mx" "My" "Mz" i M ∧
      C = vlmCoeffs s ⟨f.refs.gcenter, f.refs.rcenter, f.refs.area, f.refs.span, f.refs.chord⟩ F M ∧
      out.vector "FD" "FC" "FL" i (bodyToWind s F) ∧ out.value "CD" i = some (asFlt C.cD) ∧
      out.value "CC" i = some (asFlt C.cC) ∧ out.value "CL" i = some (asFlt C.cL) ∧
      out.value "Cm" i = some (asFlt C.cm) := by
  unfold runProject at h
  cases hx : loadProject W P with
  | error e => rw [hx] at h; cases h
  | ok x =>
  rw [hx] at h
  simp only at h
  obtain ⟨f', sd', h1, h2, -, -, h5, -⟩ := loaded_reads hn hx
  rw [hf] at h1
  cases h1
  rw [hsd] at h2
  cases h2
  obtain ⟨hacc, hfin⟩ := accepted angle_limits W.atm sd hnd
  have hA := hacc.1 ⟨_, h5⟩
  obtain ⟨hnum, ac', hp, han⟩ := (C93_finishes_iff _ hW _ _).1 ⟨out, h⟩
  have hi : i < x.state.num := flightAt_lt (hfin _ h5).1 hs
  obtain ⟨an, ha⟩ := han i hi
  have hv := C93_values _ hW _ _ _ out h hp i hi an ha
  obtain ⟨j1, j2, j3, j4, j5, j6, j7⟩ := (flightAt_iff (hfin _ h5).2 hnd hA.documented i s).1 hs
  have hs' : an.s = s := by
    rw [ha.airspeed] at j1
    rw [ha.density] at j2
    rw [ha.alpha] at j3
    rw [ha.beta] at j4
    rw [ha.rateP] at j5
    rw [ha.rateQ] at j6
    rw [ha.rateR] at j7
    simp only [Except.ok.injEq, Flt.fin.injEq] at j1 j2 j3 j4 j5 j6 j7
    cases hs0 : an.s
    cases s
    simp_all
  have hrefs : (x.env W P).refs =
      ⟨f.refs.gcenter, f.refs.rcenter, f.refs.area, f.refs.span, f.refs.chord⟩ := by
    show x.aircraft.refs.toRefs = _
    rw [(C92_content _ _ _ _ (loaded_aircraft hn hx hf)).2.1]
    rfl
  obtain ⟨-, hR⟩ := vlmResults_some ha.results
  have hw : an.R.wind = bodyToWind s an.R.ftot := by rw [hR, ← hs']; rfl
  have hc : an.R.coeffs = vlmCoeffs s
      ⟨f.refs.gcenter, f.refs.rcenter, f.refs.area, f.refs.span, f.refs.chord⟩ an.R.ftot an.R.mtot := by
    rw [← hrefs, ← hs', hR]
    rfl
  refine ⟨an.R.ftot, an.R.mtot, an.R.coeffs, ⟨?_, ?_, ?_⟩, ⟨?_, ?_, ?_⟩, hc, ?_, ?_, ?_, ?_, ?_⟩
  · exact hv ("Fx", fun a => .fin a.R.ftot.x) (by simp [runColumns])
  · exact hv ("Fy", fun a => .fin a.R.ftot.y) (by simp [runColumns])
  · exact hv ("Fz", fun a => .fin a.R.ftot.z) (by simp [runColumns])
  · exact hv ("Mx", fun a => .fin a.R.mtot.x) (by simp [runColumns])
  · exact hv ("My", fun a => .fin a.R.mtot.y) (by simp [runColumns])
  · exact hv ("Mz", fun a => .fin a.R.mtot.z) (by simp [runColumns])
  · rw [← hw]
    exact ⟨hv ("FD", fun a => .fin a.R.wind.x) (by simp [runColumns]),
      hv ("FC", fun a => .fin a.R.wind.y) (by simp [runColumns]),
      hv ("FL", fun a => .fin a.R.wind.z) (by simp [runColumns])⟩
  · exact hv ("CD", fun a => asFlt a.R.coeffs.cD) (by simp [runColumns])
  · exact hv ("CC", fun a => asFlt a.R.coeffs.cC) (by simp [runColumns])
  · exact hv ("CL", fun a => asFlt a.R.coeffs.cL) (by simp [runColumns])
  · exact hv ("Cm", fun a => asFlt a.R.coeffs.cm) (by simp [runColumns])

theorem vector_unique {out : RunOut} {x y z : String} {i : ℕ} {u v : V3 ℝ} (h : out.vector x y z i u)
    (h' : out.vector x y z i v) : u = v := by
  obtain ⟨h1, h2, h3⟩ := h
  obtain ⟨k1, k2, k3⟩ := h'
  rw [h1] at k1
  rw [h2] at k2
  rw [h3] at k3
  simp only [Option.some.injEq, Flt.fin.injEq] at k1 k2 k3
  exact V3.ext k1 k2 k3

/-- **C144**, angle of attack: the aircraft turned in its file about the y-axis (tail up) by an angle, in
flow with an angle of attack larger by the same angle, has the same drag, side force, lift and pitching
moment, and the same coefficients of these, in flight without roll and yaw rate.  The number of spanwise
panels must be given for every segment. -/
theorem C144_pitched_file (W : World) (hW : Lapack W.dgesv) (delta : ℝ) (P P2 : Project)
    (hP : P.RotatedBy (Rotation.pitch delta) P2) (d : PyDict) (a b : String)
    (hn : NativeProject W P d a b) (f : FileAircraft) (hf : P.aircraft a = some f)
    (hT : ∀ w ∈ f.wings, w.symmetry = 0 ∨ w.symmetry = 2)
    (hsp : ∀ w ∈ f.wings, w.segments ≠ [] → ∃ s ∈ w.segments, s.corners.a.y ≠ s.corners.b.y)
    (hnumS : ∀ w ∈ f.wings, ∀ s ∈ w.segments, s.numS ≠ none)
    (sd sd2 : List (String × Arg ℝ)) (hsd : P.state b = some sd) (hsd2 : P2.state b = some sd2)
    (hnd : (sd.map Prod.fst).Nodup) (hnd2 : (sd2.map Prod.fst).Nodup) (hok : Acceptable W.atm sd2)
    (hlen : ∀ x ∈ sd, ∀ y ∈ sd2, y.2.toList.length = x.2.toList.length)
    (hs : ∀ i s, FlightAt W.atm sd i s → s.p = 0 ∧ s.r = 0 ∧
      FlightAt W.atm sd2 i { s with alpha := s.alpha + delta })
    (out : RunOut) (h : runProject W P = .ok out) :
    ∃ out2, runProject W P2 = .ok out2 ∧ ∀ i s, FlightAt W.atm sd i s →
      ∀ c ∈ ["FD", "FC", "FL", "My", "CD", "CC", "CL", "Cm"],
        ∃ x, out.value c i = some x ∧ out2.value c i = some x := by
  obtain ⟨out2, h2, hv⟩ := C144_project W hW (Rotation.pitch delta) P P2 hP d a b hn f hf
    (fun w hw => pitch_keeps delta (hT w hw)) (by
      intro w hw hne
      obtain ⟨s, h1, h2⟩ := hsp w hw hne
      refine ⟨s, h1, fun h0 => h2 ?_⟩
      unfold FileSegment.width at h0
      rw [Real.sqrt_eq_zero (by positivity)] at h0
      have e : ∀ o : Option (V3 ℝ), ((o.map (Rotation.pitch delta).map).getD 0).y = (o.getD 0).y := by
        intro o
        cases o <;> rfl
      have e1 : (FileSegment.moved (Rotation.pitch delta).map s).corners.a.y = s.corners.a.y := e _
      have e2 : (FileSegment.moved (Rotation.pitch delta).map s).corners.b.y = s.corners.b.y := e _
      rw [e1, e2] at h0
      nlinarith [sq_nonneg (s.corners.b.y - s.corners.a.y),
        sq_nonneg ((FileSegment.moved (Rotation.pitch delta).map s).corners.b.z -
          (FileSegment.moved (Rotation.pitch delta).map s).corners.a.z)])
    (.inl hnumS) sd sd2 hsd hsd2 hnd hnd2 hok hlen (by
      intro i s hi
      obtain ⟨h1, h2, h3⟩ := hs i s hi
      exact ⟨_, h3, pitch_flow delta s h1 h2⟩) out h
  refine ⟨out2, h2, fun i s hi => ?_⟩
  have hn2 : NativeProject W P2 d a b :=
    ⟨hP.settings.trans hn.settings, hn.keys, hn.aircraft, hn.json, hn.state, hn.notCpacs⟩
  obtain ⟨F, M, C, k1, k2, k3, k4, k5, k6, k7, k8⟩ :=
    columns_of_force W hW P d a b hn f hf sd hsd hnd out h i s hi
  obtain ⟨F', M', C', q1, q2, q3, q4, q5, q6, q7, q8⟩ :=
    columns_of_force W hW P2 d a b hn2 _ (by rw [hP.aircraft, hf]; rfl) sd2 hsd2 hnd2 out2 h2 i _
      (hs i s hi).2.2
  obtain ⟨u, u1, u2⟩ := (hv i s hi).force
  obtain rfl := vector_unique k1 u1
  obtain rfl := vector_unique u2 q1
  obtain ⟨m, m1, m2⟩ := (hv i s hi).moment
  obtain rfl := vector_unique k2 m1
  obtain rfl := vector_unique m2 q2
  have hw : bodyToWind { s with alpha := s.alpha + delta } ((Rotation.pitch delta).map F) =
      bodyToWind s F := by
    have e : deg2rad (s.alpha + delta) = deg2rad s.alpha + deg2rad delta := by unfold deg2rad; ring
    have h1 := Real.sin_sq_add_cos_sq (deg2rad delta)
    have c1 : Real.cos (deg2rad s.alpha + deg2rad delta) * (Real.cos (deg2rad delta) * F.x -
        Real.sin (deg2rad delta) * F.z) + Real.sin (deg2rad s.alpha + deg2rad delta) *
        (Real.sin (deg2rad delta) * F.x + Real.cos (deg2rad delta) * F.z) =
        Real.cos (deg2rad s.alpha) * F.x + Real.sin (deg2rad s.alpha) * F.z := by
      rw [Real.cos_add, Real.sin_add]
      linear_combination (Real.cos (deg2rad s.alpha) * F.x + Real.sin (deg2rad s.alpha) * F.z) * h1
    have c2 : -Real.sin (deg2rad s.alpha + deg2rad delta) * (Real.cos (deg2rad delta) * F.x -
        Real.sin (deg2rad delta) * F.z) + Real.cos (deg2rad s.alpha + deg2rad delta) *
        (Real.sin (deg2rad delta) * F.x + Real.cos (deg2rad delta) * F.z) =
        -Real.sin (deg2rad s.alpha) * F.x + Real.cos (deg2rad s.alpha) * F.z := by
      rw [Real.cos_add, Real.sin_add]
      linear_combination (-Real.sin (deg2rad s.alpha) * F.x + Real.cos (deg2rad s.alpha) * F.z) * h1
    unfold bodyToWind Rotation.pitch
    simp only [e]
    ext
    · simp only
      linear_combination Real.cos (deg2rad s.beta) * c1
    · simp only
      linear_combination Real.sin (deg2rad s.beta) * c1
    · simp only
      linear_combination c2
  rw [hw] at q4
  have hC : C'.cD = C.cD ∧ C'.cC = C.cC ∧ C'.cL = C.cL ∧ C'.cm = C.cm := by
    rw [q3, k3]
    unfold vlmCoeffs
    simp only [hw]
    exact ⟨rfl, rfl, rfl, rfl⟩
  obtain ⟨C1, C2, C3, C4⟩ := hC
  intro c hc
  simp only [List.mem_cons, List.not_mem_nil, or_false] at hc
  rcases hc with rfl | rfl | rfl | rfl | rfl | rfl | rfl | rfl
  · exact ⟨_, k4.1, q4.1⟩
  · exact ⟨_, k4.2.1, q4.2.1⟩
  · exact ⟨_, k4.2.2, q4.2.2⟩
  · exact ⟨_, k2.2.1, q2.2.1⟩
  · exact ⟨_, k5, by rw [q5, C1]⟩
  · exact ⟨_, k6, by rw [q6, C2]⟩
  · exact ⟨_, k7, by rw [q7, C3]⟩
  · exact ⟨_, k8, by rw [q8, C4]⟩

/-! ## Automatic numbers of panels -/

/-- A wing with a straight and a swept part, without numbers of spanwise panels. -/
noncomputable def sweptFile : FileAircraft :=
  ⟨"plane", ⟨1, 1, 1, 0, 0, none⟩, [⟨"W", 2,
    [⟨"S1", ⟨some ⟨0, 0, 0⟩, some ⟨0, 1, 0⟩, some ⟨1, 1, 0⟩, some ⟨1, 0, 0⟩⟩, SegGeo.fresh, "NACA0000",
      "NACA0000", none, none⟩,
     ⟨"S2", ⟨some ⟨0, 1, 0⟩, some ⟨1, 2, 0⟩, some ⟨2, 2, 0⟩, some ⟨1, 1, 0⟩⟩, SegGeo.fresh, "NACA0000",
      "NACA0000", none, none⟩], []⟩]⟩

theorem sweptFile_ok : FileOk "/home" (fun _ => true) sweptFile := by
  refine ⟨⟨by simp [sweptFile], by simp [sweptFile]⟩, by norm_num [sweptFile], by norm_num [sweptFile],
    by norm_num [sweptFile], ?_⟩
  intro w hw
  simp only [sweptFile, List.mem_singleton] at hw
  subst hw
  refine ⟨by norm_num, ⟨by simp, by simp⟩, ⟨by simp, by simp⟩, ?_, by simp, ?_⟩
  · intro s hs
    simp only [List.mem_cons, List.not_mem_nil, or_false] at hs
    rcases hs with rfl | rfl
    · exact ⟨⟨⟨_, _, _, _⟩, rfl, rfl, rfl, rfl⟩, fresh_geoOk, by simp, by simp,
        ⟨_, .inr ⟨by decide, rfl⟩, rfl⟩, ⟨_, .inr ⟨by decide, rfl⟩, rfl⟩⟩
    · exact ⟨⟨⟨_, _, _, _⟩, rfl, rfl, rfl, rfl⟩, fresh_geoOk, by simp, by simp,
        ⟨_, .inr ⟨by decide, rfl⟩, rfl⟩, ⟨_, .inr ⟨by decide, rfl⟩, rfl⟩⟩
  · intro _
    refine ⟨_, List.mem_cons_self, ⟨_, _, _, _⟩, ⟨rfl, rfl, rfl, rfl⟩, ?_⟩
    intro h
    have := h.1
    norm_num at this

/-- The widths of the segments are the spans the panelling sees. -/
theorem two_widths {root : String} {airfoilOk : String → Bool} {f : FileAircraft} {w : FileWing}
    {s1 s2 : FileSegment} (hf : f.wings = [w]) (hw : w.segments = [s1, s2]) (hn1 : s1.numS = none)
    (hn2 : s2.numS = none) {ac : LoadedAircraft} (hl : loadAircraft root airfoilOk f = .ok ac)
    (hp : |s1.width| + |s2.width| ≠ 0) (autoC autoS : ℤ) :
    ∃ r, setAutopanels autoC autoS ac.toP = .ok r ∧ r.wings.map (fun w => w.segments.map (·.numS)) =
      [[some ⌈s1.width / (|s1.width| + |s2.width|) * (autoS : ℝ)⌉,
        some ⌈s2.width / (|s1.width| + |s2.width|) * (autoS : ℝ)⌉]] := by
  have k := mapE_ok (loadAircraft_wings hl)
  rw [hf] at k
  generalize hacw : ac.wings = ws at k
  cases k with
  | @cons _ lw _ _ hlw k =>
  cases k
  have k := (loadWing_from hlw).1.segments
  rw [hw] at k
  generalize hsegs : lw.segments = ss at k
  cases k with
  | @cons _ t1 _ _ ht1 k =>
  cases k with
  | @cons _ t2 _ _ ht2 k =>
  cases k
  have e1 : t1.toP.span = s1.width := loaded_width hlw (by rw [hsegs]; simp) ht1
  have e2 : t2.toP.span = s2.width := loaded_width hlw (by rw [hsegs]; simp) ht2
  have n1 : t1.toP.numS = none := ht1.numS.trans hn1
  have n2 : t2.toP.numS = none := ht2.numS.trans hn2
  have hspan : lw.toP.span = |s1.width| + |s2.width| := by
    unfold PWing.span
    rw [show lw.toP.segments = [t1.toP, t2.toP] by unfold LoadedWing.toP; rw [hsegs]; rfl]
    simp only [List.foldl_cons, List.foldl_nil, e1, e2, zero_add]
  unfold setAutopanels
  rw [show ac.toP.wings = [lw.toP] by unfold LoadedAircraft.toP; rw [hacw]; rfl]
  unfold mapE PWing.setAutopanels
  rw [show lw.toP.segments = [t1.toP, t2.toP] by unfold LoadedWing.toP; rw [hsegs]; rfl, hspan]
  have hseg : ∀ (t : PSegment ℝ) (b : ℝ), t.numS = none → b ≠ 0 → ∃ t', t.setAutopanels b autoC autoS = .ok t' ∧
      t'.numS = some ⌈t.span / b * (autoS : ℝ)⌉ := by
    intro t b hn hb
    unfold PSegment.setAutopanels
    have h1 : (if t.numC = none then { t with numC := some autoC } else t).numS = none := by
      split_ifs <;> exact hn
    have h2 : (if t.numC = none then { t with numC := some autoC } else t).span = t.span := by
      split_ifs <;> rfl
    simp only [h1, if_true, h2]
    unfold spanRatio
    rw [if_neg hb]
    exact ⟨_, rfl, rfl⟩
  obtain ⟨u1, a1, b1⟩ := hseg _ _ n1 hp
  obtain ⟨u2, a2, b2⟩ := hseg _ _ n2 hp
  simp only [mapE, a1, a2]
  refine ⟨_, rfl, ?_⟩
  simp only [List.map_cons, List.map_nil, b1, b2, e1, e2]

/-- **C144**, the condition on widths is needed: automatic numbers of spanwise panels depend on the attitude
of the aircraft.  The outer, swept half of this wing gets five spanwise panels in the given position and six
after the wing has been turned about the y-axis. -/
theorem C144_automatic_numbers : ∃ (f : FileAircraft) (T : Rotation) (ac ac2 : LoadedAircraft)
    (r r2 : PAircraft ℝ), (∀ w ∈ f.wings, T.KeepsPlane w.symmetry) ∧
    loadAircraft "/home" (fun _ => true) f = .ok ac ∧
    loadAircraft "/home" (fun _ => true) (f.rotatedBy T) = .ok ac2 ∧
    setAutopanels 5 10 ac.toP = .ok r ∧ setAutopanels 5 10 ac2.toP = .ok r2 ∧
    r.wings.map (fun w => w.segments.map (·.numS)) = [[some 5, some 5]] ∧
    r2.wings.map (fun w => w.segments.map (·.numS)) = [[some 5, some 6]] := by
  have h90 : deg2rad 90 = Real.pi / 2 := by unfold deg2rad; ring
  have w1 : ∀ (g : V3 ℝ → V3 ℝ) (p q c d : V3 ℝ) (u x y : String),
      (FileSegment.moved g ⟨u, ⟨some p, some q, some c, some d⟩, SegGeo.fresh, x, y, none, none⟩).width =
      Real.sqrt (((g q).y - (g p).y) ^ 2 + ((g q).z - (g p).z) ^ 2) := fun _ _ _ _ _ _ _ _ => rfl
  have hok2 : FileOk "/home" (fun _ => true) (sweptFile.rotatedBy (Rotation.pitch 90)) := by
    refine sweptFile_ok.rotatedBy _ ?_
    intro w hw _
    simp only [sweptFile, List.mem_singleton] at hw
    subst hw
    refine ⟨_, List.mem_cons_self, ?_⟩
    rw [w1]
    simp [Rotation.pitch]
  obtain ⟨ac, hl⟩ := (C92_accepted_iff _ _ _).2 sweptFile_ok
  obtain ⟨ac2, hl2⟩ := (C92_accepted_iff _ _ _).2 hok2
  have v1 : (⟨"S1", ⟨some ⟨0, 0, 0⟩, some ⟨0, 1, 0⟩, some ⟨1, 1, 0⟩, some ⟨1, 0, 0⟩⟩, SegGeo.fresh,
      "NACA0000", "NACA0000", none, none⟩ : FileSegment).width = 1 := by
    refine (w1 id _ _ _ _ _ _ _).trans ?_
    norm_num
  have v2 : (⟨"S2", ⟨some ⟨0, 1, 0⟩, some ⟨1, 2, 0⟩, some ⟨2, 2, 0⟩, some ⟨1, 1, 0⟩⟩, SegGeo.fresh,
      "NACA0000", "NACA0000", none, none⟩ : FileSegment).width = 1 := by
    refine (w1 id _ _ _ _ _ _ _).trans ?_
    norm_num
  have x1 : (FileSegment.moved (Rotation.pitch 90).map ⟨"S1", ⟨some ⟨0, 0, 0⟩, some ⟨0, 1, 0⟩,
      some ⟨1, 1, 0⟩, some ⟨1, 0, 0⟩⟩, SegGeo.fresh, "NACA0000", "NACA0000", none, none⟩).width = 1 := by
    rw [w1]
    simp [Rotation.pitch]
  have x2 : (FileSegment.moved (Rotation.pitch 90).map ⟨"S2", ⟨some ⟨0, 1, 0⟩, some ⟨1, 2, 0⟩,
      some ⟨2, 2, 0⟩, some ⟨1, 1, 0⟩⟩, SegGeo.fresh, "NACA0000", "NACA0000", none, none⟩).width =
      Real.sqrt 2 := by
    rw [w1]
    simp only [Rotation.pitch, h90, Real.cos_pi_div_two, Real.sin_pi_div_two]
    norm_num
  have q0 := Real.sqrt_nonneg 2
  have q1 := Real.sq_sqrt (show (0 : ℝ) ≤ 2 by norm_num)
  obtain ⟨r, hr, e⟩ := two_widths (f := sweptFile) rfl rfl rfl rfl hl (by
    rw [v1, v2]
    norm_num) 5 10
  obtain ⟨r2, hr2, e2⟩ := two_widths (f := sweptFile.rotatedBy (Rotation.pitch 90)) rfl rfl rfl rfl hl2 (by
    rw [x1, x2, abs_one]
    positivity) 5 10
  rw [v1, v2] at e
  rw [x1, x2, abs_one, abs_of_nonneg q0] at e2
  have q2 : (1.4 : ℝ) < Real.sqrt 2 := Real.lt_sqrt_of_sq_lt (by norm_num)
  have q3 : Real.sqrt 2 < (1.5 : ℝ) := by
    rw [Real.sqrt_lt' (by norm_num)]
    norm_num
  have c1 : ⌈(1 : ℝ) / (1 + Real.sqrt 2) * ((10 : ℤ) : ℝ)⌉ = 5 := by
    rw [Int.ceil_eq_iff]
    push_cast
    rw [div_mul_eq_mul_div, lt_div_iff₀ (by positivity), div_le_iff₀ (by positivity)]
    constructor <;> nlinarith
  have c2 : ⌈Real.sqrt 2 / (1 + Real.sqrt 2) * ((10 : ℤ) : ℝ)⌉ = 6 := by
    rw [Int.ceil_eq_iff]
    push_cast
    rw [div_mul_eq_mul_div, lt_div_iff₀ (by positivity), div_le_iff₀ (by positivity)]
    constructor <;> nlinarith
  refine ⟨sweptFile, Rotation.pitch 90, ac, ac2, r, r2, ?_, hl, hl2, hr, hr2, ?_, ?_⟩
  · intro w hw
    simp only [sweptFile, List.mem_singleton] at hw
    subst hw
    exact pitch_keeps 90 (.inr rfl)
  · rw [e]
    norm_num
  · rw [e2, c1, c2]

/-! ## Example -/

/-- The project with the rectangular wing turned by minus five degree about the y-axis, at no angle of
attack. -/
noncomputable def pitchedProject : Project :=
  { exampleProject (rectFile.rotatedBy (Rotation.pitch (-5))) with
    state := fun b => if b = "cruise.json" then some (oneState 10 1 0 0) else none }

theorem pitched_project : (exampleProject rectFile).RotatedBy (Rotation.pitch (-5)) pitchedProject :=
  ⟨rfl, rfl, rfl, fun a => by
    simp only [exampleProject, pitchedProject]
    split_ifs <;> rfl, fun _ => rfl⟩

/-- Example for C144: the rectangular wing at five degree, and the wing turned in the file at no angle of
attack: both runs finish with the same lift and drag coefficient. -/
example : ∃ out out2 x y, runProject exampleWorld (exampleProject rectFile) = .ok out ∧
    runProject exampleWorld pitchedProject = .ok out2 ∧ out.value "FL" 0 = some x ∧
    out2.value "FL" 0 = some x ∧ out.value "CD" 0 = some y ∧ out2.value "CD" 0 = some y := by
  obtain ⟨out, h⟩ := rect_finishes
  obtain ⟨out2, h2, hv⟩ := C144_pitched_file exampleWorld exactDgesv_lapack (-5) (exampleProject rectFile)
    pitchedProject pitched_project exampleSettings "plane.json" "cruise.json" (example_native _) rectFile
    rfl (by
      intro w hw
      simp only [rectFile, List.mem_singleton] at hw
      subst hw
      exact .inr rfl) (by
      intro w hw _
      simp only [rectFile, List.mem_singleton] at hw
      subst hw
      refine ⟨_, List.mem_singleton.2 rfl, ?_⟩
      norm_num [FileSegment.corners, flatGeo]) (by
      intro w hw s hs
      simp only [rectFile, List.mem_singleton] at hw
      subst hw
      simp only [List.mem_singleton] at hs
      subst hs
      simp) (oneState 10 1 5 0) (oneState 10 1 0 0) rfl rfl (oneState_nodup _ _ _ _)
    (oneState_nodup _ _ _ _) (oneState_acceptable _ _ _ _ _) (by
      intro x hx y hy
      simp only [oneState, List.mem_cons, List.not_mem_nil, or_false] at hx hy
      rcases hx with rfl | rfl | rfl | rfl | rfl | rfl | rfl <;>
        rcases hy with rfl | rfl | rfl | rfl | rfl | rfl | rfl <;> rfl) (by
      intro i s hi
      obtain ⟨rfl, rfl⟩ := oneState_flight.1 hi
      refine ⟨rfl, rfl, oneState_flight.2 ⟨rfl, ?_⟩⟩
      norm_num) out h
  have h0 := hv 0 _ (oneState_flight.2 ⟨rfl, rfl⟩)
  obtain ⟨x, x1, x2⟩ := h0 "FL" (by simp)
  obtain ⟨y, y1, y2⟩ := h0 "CD" (by simp)
  exact ⟨out, out2, x, y, h, h2, x1, x2, y1, y2⟩

end Verif
