import Verif.Props.RunMirror

/-!
# Property C97: the place of the aircraft in the coordinate system does not matter
-/

set_option linter.unnecessarySeqFocus false

namespace Verif

open V3

/-! ## Specification -/

/-- A translation that keeps the plane of symmetry of a wing in place. -/
def AlongPlane (t : V3 ℝ) (sym : ℕ) : Prop :=
  (sym = 1 → t.z = 0) ∧ (sym = 2 → t.y = 0) ∧ (sym = 3 → t.x = 0)

/-- Segment corners and deformation field moved by `t`. -/
def GeoEnv.moved (t : V3 ℝ) (g : GeoEnv ℝ) : GeoEnv ℝ :=
  { g with
    vertices := g.vertices.moved t
    defField := g.defField.map fun f p => f (p - t) + t
    defFieldMirror := g.defFieldMirror.map fun f p => f (p - t) + t }

/-- All segments moved by `t`. -/
def LatticeEnv.moved (t : V3 ℝ) (env : LatticeEnv) : LatticeEnv :=
  { env with geo := fun m k => (env.geo m k).moved t }

/-- Aircraft and reference points moved by `t`. -/
def RunEnv.moved (t : V3 ℝ) (env : RunEnv) : RunEnv :=
  { env with lat := env.lat.moved t, refs := env.refs.moved t }

/-! ## Proofs -/

/-- Map over a result that may be an error. -/
def mapOk {α β : Type*} (f : α → β) : Except PyErr α → Except PyErr β
  | .error e => .error e
  | .ok a => .ok (f a)

theorem segPoint_moved (t : V3 ℝ) (v : Corners (V3 ℝ)) (e x : ℝ) :
    segPoint (v.moved t) e x = segPoint v e x + t := by
  unfold segPoint Corners.moved
  ext <;> vsimp <;> ring

/-- The relative chordwise position of an intersection does not depend on where the segment is, so
neither does the panelling. -/
theorem xsiInterpol_moved (t : V3 ℝ) (v : Corners (V3 ℝ)) :
    xsiInterpol (v.moved t) = xsiInterpol v := by
  funext a b e
  unfold xsiInterpol planeLineIntersect
  simp only [segPoint_moved]
  have h1 : ∀ p q : V3 ℝ, p + t - (q + t) = p - q := fun p q => add_sub_add_right_eq_sub p q t
  have h2 : ∀ p q r : V3 ℝ, p + t + q - (r + t) = p + q - r := by
    intro p q r
    ext <;> vsimp <;> ring
  have h3 : (v.moved t).b - (v.moved t).a = v.b - v.a := h1 _ _
  have h4 : (v.moved t).d - (v.moved t).a = v.d - v.a := h1 _ _
  simp only [h1, h2, h3, h4]

theorem mirrorPoint_moved {t : V3 ℝ} {sym : ℕ} (h : AlongPlane t sym) (p : V3 ℝ) :
    mirrorPoint (p + t) sym = mapOk (· + t) (mirrorPoint p sym) := by
  obtain ⟨h1, h2, h3⟩ := h
  unfold mirrorPoint
  split_ifs with e1 e2 e3
  · have := h1 e1
    simp only [mapOk, Except.ok.injEq]
    ext <;> simp [this]
  · have := h2 e2
    simp only [mapOk, Except.ok.injEq]
    ext <;> simp [this]
  · have := h3 e3
    simp only [mapOk, Except.ok.injEq]
    ext <;> simp [this]
  · rfl

theorem orderMirrored_moved (t : V3 ℝ) (v : Corners (V3 ℝ)) (sym : ℕ) :
    orderMirrored (v.moved t) sym = mapOk (Corners.moved t) (orderMirrored v sym) := by
  unfold orderMirrored
  split_ifs <;> rfl

theorem mapE_moved {P : Type*} (t : V3 ℝ) {f f' : P → Except PyErr (V3 ℝ)}
    (h : ∀ p, f' p = mapOk (· + t) (f p)) (v : Corners P) :
    v.mapE f' = mapOk (Corners.moved t) (v.mapE f) := by
  unfold Corners.mapE
  rw [h, h, h, h]
  cases f v.a <;> cases f v.b <;> cases f v.c <;> cases f v.d <;> rfl

theorem deformedPoint_moved {t : V3 ℝ} {g : GeoEnv ℝ} (h : AlongPlane t g.symmetry) (e x : ℝ)
    (m : Bool) : (g.moved t).deformedPoint e x m = mapOk (· + t) (g.deformedPoint e x m) := by
  unfold GeoEnv.deformedPoint
  have e1 : segPoint (g.moved t).vertices e x = segPoint g.vertices e x + t := segPoint_moved _ _ _ _
  have e2 : (g.moved t).symmetry = g.symmetry := rfl
  simp only [e1, e2, mirrorPoint_moved h]
  generalize segPoint g.vertices e x = p
  cases m with
  | false =>
    simp only [Bool.false_eq_true, if_false]
    have e3 : (g.moved t).defField = g.defField.map fun f p => f (p - t) + t := rfl
    rw [e3]
    cases g.defField with
    | none => rfl
    | some f => simp only [Option.map_some, mapOk, add_sub_cancel_right]
  | true =>
    simp only [if_true]
    have e3 : (g.moved t).defFieldMirror = g.defFieldMirror.map fun f p => f (p - t) + t := rfl
    rw [e3]
    cases mirrorPoint p g.symmetry with
    | error e => rfl
    | ok p =>
      simp only [mapOk]
      cases g.defFieldMirror with
      | none => rfl
      | some f => simp only [Option.map_some, add_sub_cancel_right]

theorem absVertices_moved {t : V3 ℝ} {g : GeoEnv ℝ} (h : AlongPlane t g.symmetry) (s : Strip ℝ)
    (m : Bool) : s.absVertices (g.moved t) m = mapOk (Corners.moved t) (s.absVertices g m) := by
  unfold Strip.absVertices
  have e1 : (g.moved t).isDeformed = g.isDeformed := by
    unfold GeoEnv.isDeformed GeoEnv.moved
    simp
  have e2 : (g.moved t).symmetry = g.symmetry := rfl
  rw [e1, e2]
  by_cases hd : g.isDeformed = true
  · rw [if_pos hd, if_pos hd, mapE_moved t (fun p : ℝ × ℝ => deformedPoint_moved h p.1 p.2 m)]
    generalize Corners.mapE _ _ = v
    cases v with
    | error e => rfl
    | ok v =>
      simp only [mapOk]
      cases m with
      | false => rfl
      | true =>
        simp only [if_true]
        rw [orderMirrored_moved]
        rfl
  · rw [if_neg hd, if_neg hd]
    dsimp only
    have e3 : (⟨(g.moved t).vertices.a + s.etaA • ((g.moved t).vertices.b - (g.moved t).vertices.a),
        (g.moved t).vertices.a + s.etaB • ((g.moved t).vertices.b - (g.moved t).vertices.a),
        (g.moved t).vertices.d + s.etaC • ((g.moved t).vertices.c - (g.moved t).vertices.d),
        (g.moved t).vertices.d + s.etaD • ((g.moved t).vertices.c - (g.moved t).vertices.d)⟩ :
          Corners (V3 ℝ)) = Corners.moved t
        ⟨g.vertices.a + s.etaA • (g.vertices.b - g.vertices.a),
          g.vertices.a + s.etaB • (g.vertices.b - g.vertices.a),
          g.vertices.d + s.etaC • (g.vertices.c - g.vertices.d),
          g.vertices.d + s.etaD • (g.vertices.c - g.vertices.d)⟩ := by
      unfold GeoEnv.moved Corners.moved
      ext <;> vsimp <;> ring
    rw [e3]
    generalize (⟨g.vertices.a + s.etaA • (g.vertices.b - g.vertices.a),
          g.vertices.a + s.etaB • (g.vertices.b - g.vertices.a),
          g.vertices.d + s.etaC • (g.vertices.c - g.vertices.d),
          g.vertices.d + s.etaD • (g.vertices.c - g.vertices.d)⟩ : Corners (V3 ℝ)) = w
    cases m with
    | false => rfl
    | true =>
      simp only [if_true]
      unfold mirrorVertices
      have e4 : (w.moved t).mapE (mirrorPoint · g.symmetry) =
          mapOk (Corners.moved t) (w.mapE (mirrorPoint · g.symmetry)) := by
        rw [← mapE_moved t (f' := fun p => mirrorPoint (p + t) g.symmetry)
          (fun p => mirrorPoint_moved h p)]
        rfl
      rw [e4]
      cases w.mapE (mirrorPoint · g.symmetry) with
      | error e => rfl
      | ok v =>
        simp only [mapOk]
        rw [orderMirrored_moved]
        rfl

theorem subareaVertices_moved {t : V3 ℝ} {g : GeoEnv ℝ} (h : AlongPlane t g.symmetry)
    (s : Strip ℝ) (q : Quad ℝ) (m : Bool) :
    subareaVertices (g.moved t) s q m = mapOk (Corners.moved t) (subareaVertices g s q m) := by
  unfold subareaVertices
  rw [absVertices_moved h]
  have e2 : (g.moved t).symmetry = g.symmetry := rfl
  rw [e2]
  cases s.absVertices g m with
  | error e => rfl
  | ok sd =>
    simp only [mapOk]
    generalize (if m = true then orderMirrored ⟨q.xsiA, q.xsiB, q.xsiC, q.xsiD⟩ g.symmetry
      else .ok ⟨q.xsiA, q.xsiB, q.xsiC, q.xsiD⟩ : Except PyErr (Corners ℝ)) = x
    cases x with
    | error e => rfl
    | ok x =>
      simp only [Except.ok.injEq]
      unfold Corners.moved
      ext <;> vsimp <;> ring

theorem hingeAxis_moved {t : V3 ℝ} {g : GeoEnv ℝ} (h : AlongPlane t g.symmetry) (s : Strip ℝ)
    (h1 h2 : ℝ) (m : Bool) : hingeAxis (g.moved t) s h1 h2 m = hingeAxis g s h1 h2 m := by
  unfold hingeAxis hingeVertices
  rw [absVertices_moved h]
  have e2 : (g.moved t).symmetry = g.symmetry := rfl
  rw [e2]
  cases s.absVertices g m with
  | error e => rfl
  | ok sd =>
    simp only [mapOk, Except.ok.injEq]
    unfold Corners.moved
    ext <;> vsimp <;> ring

theorem camberAxis_moved (t : V3 ℝ) (v : Corners (V3 ℝ)) : camberAxis (v.moved t) = camberAxis v := by
  rw [camberAxis_eq, camberAxis_eq]
  have h1 : ∀ p q : V3 ℝ, p + t - (q + t) = p - q := fun p q => add_sub_add_right_eq_sub p q t
  unfold Corners.moved
  simp only [h1]

/-- Points of a panel moved by `t`. -/
def PanelPts.moved (t : V3 ℝ) (g : PanelPts ℝ) : PanelPts ℝ :=
  ⟨g.p + t, g.q + t, g.r + t, g.s + t, g.v1 + t, g.v2 + t, g.v3 + t, g.v4 + t, g.col + t, g.mid + t⟩

theorem panelPts_moved (pts : Corners (V3 ℝ)) (t leg : V3 ℝ) (nS nC : ℤ) (i j : ℕ) :
    panelPts (Coef.of (pts.moved t)) leg nS nC i j =
      (panelPts (Coef.of pts) leg nS nC i j).moved t := by
  have hat : ∀ a b : ℝ, (Coef.of (pts.moved t)).at a b = (Coef.of pts).at a b + t := by
    intro a b
    unfold Coef.at Coef.of Corners.moved
    ext <;> vsimp <;> ring
  unfold panelPts PanelPts.moved
  simp only [hat]
  generalize (Coef.of pts).at _ _ = p1
  generalize (Coef.of pts).at _ _ = p2
  generalize (Coef.of pts).at _ _ = p3
  generalize (Coef.of pts).at _ _ = p4
  ext <;> vsimp <;> ring

theorem crossVec_moved (t : V3 ℝ) (g : PanelPts ℝ) : (g.moved t).crossVec = g.crossVec := by
  unfold PanelPts.crossVec PanelPts.moved
  ext <;> vsimp <;> ring

theorem finNormal_moved (t : V3 ℝ) (g : PanelPts ℝ) : (g.moved t).finNormal = g.finNormal := by
  unfold PanelPts.finNormal PanelPts.normal
  rw [crossVec_moved]

theorem toPanel_moved (t : V3 ℝ) (g : PanelPts ℝ) : (g.moved t).toPanel = g.toPanel.moved t := by
  have hs : (g.moved t).spanVec = g.spanVec := by
    unfold PanelPts.spanVec PanelPts.moved
    ext <;> vsimp <;> ring
  have hch : (g.moved t).chordVec = g.chordVec := by
    unfold PanelPts.chordVec PanelPts.moved
    ext <;> vsimp <;> ring
  unfold PanelPts.toPanel Panel.moved PanelPts.normal PanelPts.area
  rw [crossVec_moved, hs, hch]
  rfl

theorem latticeFrom_moved (t leg : V3 ℝ) (l : List (SubInput ℝ)) (hl : ∀ u ∈ l, u.sym = 0) :
    ∀ start : ℤ, latticeFrom leg start (l.map fun u => { u with pts := u.pts.moved t }) =
      (latticeFrom leg start l).map fun kp => (kp.1, kp.2.moved t) := by
  induction l with
  | nil => intro start; rfl
  | cons u l ih =>
    intro start
    have hu := hl u (by simp)
    simp only [List.map_cons]
    unfold latticeFrom
    simp only [hu, gt_iff_lt, lt_irrefl, if_false]
    rw [List.map_append, ih fun u hu => hl u (List.mem_cons_of_mem _ hu)]
    congr 1
    unfold passPanels
    rw [List.map_flatMap]
    congr 1
    funext i
    rw [List.map_map]
    congr 1
    funext j
    simp only [Function.comp, panelPts_moved]

theorem lastPanel_map (f : PanelPts ℝ → PanelPts ℝ) (l : List (ℤ × PanelPts ℝ)) (k : ℤ) :
    lastPanel (l.map fun kp => (kp.1, f kp.2)) k = (lastPanel l k).map f := by
  unfold lastPanel
  rw [List.filter_map, List.getLast?_map]
  simp only [Option.map_map]
  rfl

theorem entryParts_moved (t : V3 ℝ) (env : LatticeEnv) (ac : PAircraft ℝ) (e : BookEntry) :
    entryParts (env.moved t) ac e =
      (entryParts env ac e).map fun p => { p with geo := p.geo.moved t } := by
  unfold entryParts
  cases ac.wings[e.path.wing]? with
  | none => rfl
  | some w =>
    simp only
    cases w.segments[e.path.seg]? with
    | none => rfl
    | some s =>
      simp only
      cases s.strips[e.path.strip]? with
      | none => rfl
      | some d =>
        simp only
        cases d.subareas[e.path.sub]? <;> rfl

theorem entryParts_geo {env : LatticeEnv} {ac : PAircraft ℝ} {e : BookEntry} {p : EntryParts}
    (h : entryParts env ac e = some p) : p.geo = env.geo e.path.wing e.path.seg := by
  unfold entryParts at h
  cases hw : ac.wings[e.path.wing]? with
  | none => simp [hw] at h
  | some w =>
    simp only [hw] at h
    cases hs : w.segments[e.path.seg]? with
    | none => simp [hs] at h
    | some s =>
      simp only [hs] at h
      cases hd : s.strips[e.path.strip]? with
      | none => simp [hd] at h
      | some d =>
        simp only [hd] at h
        cases ha : d.subareas[e.path.sub]? with
        | none => simp [ha] at h
        | some a =>
          simp only [ha, Option.some.injEq] at h
          rw [← h]

section
variable {t : V3 ℝ} {env : LatticeEnv} (h : ∀ m k, AlongPlane t (env.geo m k).symmetry)
include h

theorem entryCorners_moved (ac : PAircraft ℝ) (e : BookEntry) :
    entryCorners (env.moved t) ac e = mapOk (Corners.moved t) (entryCorners env ac e) := by
  unfold entryCorners
  rw [entryParts_moved]
  cases hp : entryParts env ac e with
  | none => rfl
  | some p =>
    simp only [Option.map_some]
    exact subareaVertices_moved (by rw [entryParts_geo hp]; exact h _ _) _ _ _

theorem mapE_corners_moved (ac : PAircraft ℝ) (es : List BookEntry) :
    mapE (entryCorners (env.moved t) ac) es =
      mapOk (List.map (Corners.moved t)) (mapE (entryCorners env ac) es) := by
  induction es with
  | nil => rfl
  | cons e es ih =>
    unfold mapE
    rw [ih, entryCorners_moved h]
    cases entryCorners env ac e with
    | error x => rfl
    | ok c =>
      simp only [mapOk]
      cases mapE (entryCorners env ac) es with
      | error x => rfl
      | ok cs => rfl

theorem rotateEntry_moved (ac : PAircraft ℝ) (e : BookEntry) (n : ℤ → Option (V3 ℝ)) :
    rotateEntry (env.moved t) ac e n = rotateEntry env ac e n := by
  unfold rotateEntry
  rw [entryParts_moved]
  cases hp : entryParts env ac e with
  | none => rfl
  | some p =>
    have hg : AlongPlane t p.geo.symmetry := by rw [entryParts_geo hp]; exact h _ _
    simp only [Option.map_some]
    have e1 : hingeRotation (env.moved t) { p with geo := p.geo.moved t } e.mirror =
        hingeRotation env p e.mirror := by
      unfold hingeRotation
      simp only [hingeAxis_moved hg]
      rfl
    rw [e1, subareaVertices_moved hg]
    cases hingeRotation env p e.mirror with
    | error x => rfl
    | ok r =>
      cases subareaVertices p.geo p.strip p.sub.quad e.mirror with
      | error x => rfl
      | ok v =>
        simp only [mapOk]
        unfold camberRotation
        simp only [camberAxis_moved]

theorem rotateAll_moved (ac : PAircraft ℝ) (es : List BookEntry) :
    ∀ n, rotateAll (env.moved t) ac es n = rotateAll env ac es n := by
  induction es with
  | nil => intro n; rfl
  | cons e es ih =>
    intro n
    unfold rotateAll
    rw [rotateEntry_moved h]
    cases rotateEntry env ac e n with
    | error x => rfl
    | ok n' => exact ih n'

/-- The lattice of the moved aircraft. -/
theorem genLattice_moved {doRot : Bool} {alpha beta : ℝ} {ac : PAircraft ℝ} {l : LatticeData}
    (hl : genLattice env doRot alpha beta ac = .ok l) :
    genLattice (env.moved t) doRot alpha beta ac =
      .ok { l with pts := fun k => (l.pts k).map (PanelPts.moved t) } := by
  obtain ⟨cs, k1, k2, k3, k4, k5, k6⟩ := genLattice_ok hl
  have hin : l.book.inputsOf (cs.map (Corners.moved t)) =
      (l.book.inputsOf cs).map fun u => { u with pts := u.pts.moved t } := by
    unfold Book.inputsOf
    rw [List.zipWith_map_left, List.map_zipWith]
  have hsym : ∀ u ∈ l.book.inputsOf cs, u.sym = 0 := by
    intro u hu
    unfold Book.inputsOf at hu
    rw [← List.map_uncurry_zip_eq_zipWith] at hu
    obtain ⟨x, -, rfl⟩ := List.mem_map.1 hu
    rfl
  have hpts : ∀ k, lastPanel (vlmLattice (trailLeg alpha beta)
      (l.book.inputsOf (cs.map (Corners.moved t)))) k = (l.pts k).map (PanelPts.moved t) := by
    intro k
    rw [k4, hin]
    unfold vlmLattice
    rw [latticeFrom_moved t _ _ hsym, lastPanel_map]
  have hn0 : (fun k => (lastPanel (vlmLattice (trailLeg alpha beta)
      (l.book.inputsOf (cs.map (Corners.moved t)))) k).bind PanelPts.finNormal) =
      fun k => (l.pts k).bind PanelPts.finNormal := by
    funext k
    rw [hpts]
    cases l.pts k with
    | none => rfl
    | some g => simp only [Option.map_some, Option.bind_some, finNormal_moved]
  have := genLattice_build (env := env.moved t) (doRot := doRot) (alpha := alpha) (beta := beta)
    (cs := cs.map (Corners.moved t)) (n := l.normal) k1
    (by rw [mapE_corners_moved h, k2]; rfl) k3 (by
      rw [hn0, rotateAll_moved h]
      cases doRot with
      | false => exact k5 rfl
      | true => exact k6 rfl)
  rw [this]
  congr 2
  funext k
  exact hpts k

end

theorem panel_moved {l : LatticeData} {t : V3 ℝ} {k : ℕ} {g : Panel} (h : l.panel k = some g) :
    LatticeData.panel { l with pts := fun k => (l.pts k).map (PanelPts.moved t) } k =
      some (g.moved t) := by
  obtain ⟨q, n, h1, h2, rfl⟩ := panelAt_some h
  unfold LatticeData.panel LatticeData.panelAt
  simp only [h1, h2, Option.map_some, toPanel_moved]
  rfl

/-- **C97**: an aircraft moved as a whole — segments, deformation fields, centre of gravity and moment
reference point — along the planes of symmetry of its wings has the same results: the run finishes
if it did, with the same values of all global quantities for all flight states. -/
theorem C97_moved_aircraft (env : RunEnv) (hd : Lapack env.dgesv) (t : V3 ℝ)
    (ht : ∀ m k, AlongPlane t (env.lat.geo m k).symmetry) (ac : PAircraft ℝ) (st : FlightSt ℝ)
    (out : RunOut) (h : standardRun env ac st = .ok out) :
    ∃ out', standardRun (env.moved t) ac st = .ok out' ∧
      ∀ i < st.num, ∀ c ∈ loadNames ++ coeffNames,
        ∃ x, out.value c i = some x ∧ out'.value c i = some x := by
  obtain ⟨out', h', hv⟩ := run_transfer (env := env) (env' := env.moved t) hd hd (ac2 := ac)
    (st' := st) rfl (fun i a a' => ∀ c ∈ runColumns, c.2 a' = c.2 a) (by
      intro ac' hac
      refine ⟨ac', hac, ?_⟩
      rintro i - ⟨s, l, P, A, g, R⟩ ha
      obtain ⟨r1, r2, r3⟩ := C38_translation env.eps s env.refs P t
      refine ⟨⟨s, { l with pts := fun k => (l.pts k).map (PanelPts.moved t) },
        fun k => (P k).moved t, A, g, R⟩, ⟨ha.airspeed, ha.density, ha.alpha, ha.beta, ha.rateP,
          ha.rateQ, ha.rateR, genLattice_moved ht ha.lattice, ha.nonempty,
          fun k => panel_moved (ha.panels k), r1.trans ha.matrix, ?_, ?_, (r3 g).trans ha.results⟩,
        fun c hc => ?_⟩
      · intro hu
        show Solves A (vlmBoundary s (env.refs.moved t) fun k => (P k).moved t) g
        rw [r2]
        exact ha.solved hu
      · intro hu
        show g = vlmBoundary s (env.refs.moved t) fun k => (P k).moved t
        rw [r2]
        exact ha.singular hu
      · simp only [runColumns, List.mem_cons, List.not_mem_nil, or_false] at hc
        rcases hc with rfl | rfl | rfl | rfl | rfl | rfl | rfl | rfl | rfl | rfl | rfl | rfl | rfl |
          rfl | rfl | rfl | rfl | rfl <;> rfl) h
  refine ⟨out', h', ?_⟩
  intro i hi c hc
  obtain ⟨ac', a, a', -, -, hr, v1, v2⟩ := hv i hi
  obtain ⟨d, hd, rfl⟩ : ∃ d ∈ runColumns, d.1 = c := by
    have : c ∈ runColumns.map Prod.fst := by
      revert hc
      revert c
      simp [runColumns, loadNames, coeffNames]
    obtain ⟨d, hd, e⟩ := List.mem_map.1 this
    exact ⟨d, hd, e⟩
  exact ⟨d.2 a, v1 d hd, by rw [v2 d hd, hr d hd]⟩

/-- Example for C97: the symmetric wing of the examples may be moved along the plane `y = 0`. -/
example : ∃ out out' x, standardRun exampleEnv onePanelAc runStates = .ok out ∧
    standardRun (exampleEnv.moved ⟨3, 0, -1⟩) onePanelAc runStates = .ok out' ∧
    ((exampleEnv.moved ⟨3, 0, -1⟩).lat.geo 0 0).vertices.a = ⟨3, 0, -1⟩ ∧
    out.value "Cm" 1 = some x ∧ out'.value "Cm" 1 = some x := by
  obtain ⟨out, h⟩ := example_run
  obtain ⟨out', h', hv⟩ := C97_moved_aircraft exampleEnv exactDgesv_lapack ⟨3, 0, -1⟩ (by
    intro m k
    have e : (exampleEnv.lat.geo m k).symmetry = 2 := rfl
    rw [e]
    unfold AlongPlane
    norm_num) _ _ out h
  obtain ⟨x, x1, x2⟩ := hv 1 (by simp [runStates]) "Cm" (by simp [coeffNames])
  refine ⟨out, out', x, h, h', ?_, x1, x2⟩
  simp only [RunEnv.moved, LatticeEnv.moved, GeoEnv.moved, Corners.moved, exampleEnv, flatLat,
    flatGeo]
  ext <;> vsimp <;> norm_num

end Verif
