import Verif.Props.RunMoved
import Verif.Props.SurfaceCases

/-!
# Property C144: aircraft and flow turned together
-/

set_option linter.unnecessarySeqFocus false

namespace Verif

open V3

/-! ## Specification -/

/-- A rotation of space about the origin: linear, with lengths, angles and orientation preserved. -/
structure Rotation where
  map : V3 ℝ → V3 ℝ
  inv : V3 ℝ → V3 ℝ
  map_inv : ∀ p, map (inv p) = p
  inv_map : ∀ p, inv (map p) = p
  add : ∀ p q, map (p + q) = map p + map q
  smul : ∀ (k : ℝ) p, map (k • p) = k • map p
  dot : ∀ p q, (map p).dot (map q) = p.dot q
  cross : ∀ p q, (map p).cross (map q) = map (p.cross q)

/-- The normal of the plane of symmetry is kept or reversed. -/
def Rotation.KeepsPlane (T : Rotation) (sym : ℕ) : Prop :=
  (sym = 1 → T.map ⟨0, 0, 1⟩ = ⟨0, 0, 1⟩ ∨ T.map ⟨0, 0, 1⟩ = ⟨0, 0, -1⟩) ∧
  (sym = 2 → T.map ⟨0, 1, 0⟩ = ⟨0, 1, 0⟩ ∨ T.map ⟨0, 1, 0⟩ = ⟨0, -1, 0⟩) ∧
  (sym = 3 → T.map ⟨1, 0, 0⟩ = ⟨1, 0, 0⟩ ∨ T.map ⟨1, 0, 0⟩ = ⟨-1, 0, 0⟩)

/-- A deformation field in turned coordinates. -/
def Rotation.field (T : Rotation) (f : DefField ℝ) : DefField ℝ := fun p => T.map (f (T.inv p))

/-- Segment corners and deformation field turned. -/
def GeoEnv.rotated (T : Rotation) (g : GeoEnv ℝ) : GeoEnv ℝ :=
  { g with
    vertices := g.vertices.map' T.map
    defField := g.defField.map T.field
    defFieldMirror := g.defFieldMirror.map T.field }

/-- All segments turned. -/
def LatticeEnv.rotated (T : Rotation) (env : LatticeEnv) : LatticeEnv :=
  { env with geo := fun m k => (env.geo m k).rotated T }

/-- Reference points turned. -/
def Refs.rotated (T : Rotation) (r : Refs) : Refs := { r with cg := T.map r.cg, rp := T.map r.rp }

/-- Aircraft and reference points turned. -/
def RunEnv.rotated (T : Rotation) (env : RunEnv) : RunEnv :=
  { env with lat := env.lat.rotated T, refs := env.refs.rotated T }

/-- The same flow and motion, turned: the same airspeed and density, the direction of flow and the vector
of angular velocity turned. -/
structure FlowState.Rotated (T : Rotation) (s s' : FlowState) : Prop where
  airspeed : s'.airspeed = s.airspeed
  density : s'.rho = s.rho
  direction : pyFreestream 1 s'.alpha s'.beta = T.map (pyFreestream 1 s.alpha s.beta)
  rates : (⟨s'.p, s'.q, s'.r⟩ : V3 ℝ) = T.map ⟨s.p, s.q, s.r⟩

/-- The values of flight state number `i`. -/
structure FlightSt.ValuesAt (st : FlightSt ℝ) (i : ℕ) (s : FlowState) : Prop where
  airspeed : st.aero.entry "airspeed" i = .ok (.fin s.airspeed)
  density : st.aero.entry "density" i = .ok (.fin s.rho)
  alpha : st.aero.entry "alpha" i = .ok (.fin s.alpha)
  beta : st.aero.entry "beta" i = .ok (.fin s.beta)
  rateP : st.aero.entry "rate_P" i = .ok (.fin s.p)
  rateQ : st.aero.entry "rate_Q" i = .ok (.fin s.q)
  rateR : st.aero.entry "rate_R" i = .ok (.fin s.r)

/-- Three columns of the results are the components of a vector. -/
def RunOut.vector (out : RunOut) (x y z : String) (i : ℕ) (v : V3 ℝ) : Prop :=
  out.value x i = some (.fin v.x) ∧ out.value y i = some (.fin v.y) ∧ out.value z i = some (.fin v.z)

/-- The loads of flight state number `i` are turned: forces and moments as vectors; the drag is the same,
and so is the force across the flow. -/
structure RotatedLoads (T : Rotation) (out out' : RunOut) (i : ℕ) : Prop where
  force : ∃ f, out.vector "Fx" "Fy" "Fz" i f ∧ out'.vector "Fx" "Fy" "Fz" i (T.map f)
  moment : ∃ m, out.vector "Mx" "My" "Mz" i m ∧ out'.vector "Mx" "My" "Mz" i (T.map m)
  wind : ∃ w w' : V3 ℝ, out.vector "FD" "FC" "FL" i w ∧ out'.vector "FD" "FC" "FL" i w' ∧
    w'.x = w.x ∧ w'.y ^ 2 + w'.z ^ 2 = w.y ^ 2 + w.z ^ 2
  drag : ∃ x, out.value "CD" i = some x ∧ out'.value "CD" i = some x
  coeffs : ∀ c, out.vector "Cx" "Cy" "Cz" i c → out'.vector "Cx" "Cy" "Cz" i (T.map c)
  windCoeffs : ∀ c, out.vector "CD" "CC" "CL" i c → ∃ c', out'.vector "CD" "CC" "CL" i c' ∧
    c'.x = c.x ∧ c'.y ^ 2 + c'.z ^ 2 = c.y ^ 2 + c.z ^ 2

/-! ## Proofs -/

section
variable (T : Rotation)

theorem Rotation.zero : T.map 0 = 0 := by
  have h0 : ∀ p : V3 ℝ, (0 : ℝ) • p = 0 := fun p => by ext <;> simp
  have := T.smul 0 0
  rwa [h0, h0] at this

theorem Rotation.neg (p : V3 ℝ) : T.map (-p) = -T.map p := by
  have h1 : ∀ p : V3 ℝ, (-1 : ℝ) • p = -p := fun p => by ext <;> simp
  have := T.smul (-1) p
  rwa [h1, h1] at this

theorem Rotation.sub (p q : V3 ℝ) : T.map (p - q) = T.map p - T.map q := by
  have h1 : ∀ p q : V3 ℝ, p - q = p + -q := fun p q => by ext <;> simp <;> ring
  rw [h1, T.add, T.neg, ← h1]

theorem Rotation.norm (p : V3 ℝ) : (T.map p).norm = p.norm := by
  have := T.dot p p
  unfold V3.dot at this
  unfold V3.norm
  rw [this]

theorem Rotation.sum {ι : Type*} (s : Finset ι) (f : ι → V3 ℝ) :
    T.map (∑ i ∈ s, f i) = ∑ i ∈ s, T.map (f i) := by
  classical
  induction s using Finset.induction_on with
  | empty => simp only [Finset.sum_empty, T.zero]
  | insert a s ha ih => rw [Finset.sum_insert ha, Finset.sum_insert ha, T.add, ih]

/-- Reflections in the plane are not affected. -/
theorem mirrorPoint_rotated {T : Rotation} {sym : ℕ} (h : T.KeepsPlane sym) (p : V3 ℝ) :
    mirrorPoint (T.map p) sym = mapOk T.map (mirrorPoint p sym) := by
  obtain ⟨h1, h2, h3⟩ := h
  have key : ∀ e : V3 ℝ, e.dot e = 1 → (T.map e = e ∨ T.map e = -e) →
      T.map p - (2 * (T.map p).dot e) • e = T.map (p - (2 * p.dot e) • e) := by
    intro e he hT
    rw [T.sub, T.smul]
    rcases hT with hT | hT
    · conv_lhs => rw [← hT]
      rw [T.dot]
    · have hd := T.dot p e
      rw [hT] at hd ⊢
      have : (T.map p).dot e = -p.dot e := by
        rw [← hd]
        simp only [V3.dot, neg_x, neg_y, neg_z]
        ring
      rw [this]
      ext <;> simp
  unfold mirrorPoint
  split_ifs with e1 e2 e3
  · have := key ⟨0, 0, 1⟩ (by simp [V3.dot]) (by
      have hm : -(⟨0, 0, 1⟩ : V3 ℝ) = ⟨0, 0, -1⟩ := by ext <;> simp
      rw [hm]
      exact h1 e1)
    simp only [mapOk]
    have l : ∀ q : V3 ℝ, (⟨q.x, q.y, -q.z⟩ : V3 ℝ) = q - (2 * q.dot ⟨0, 0, 1⟩) • ⟨0, 0, 1⟩ := by
      intro q
      ext <;> simp [V3.dot] <;> ring
    rw [l, l, this]
  · have := key ⟨0, 1, 0⟩ (by simp [V3.dot]) (by
      have hm : -(⟨0, 1, 0⟩ : V3 ℝ) = ⟨0, -1, 0⟩ := by ext <;> simp
      rw [hm]
      exact h2 e2)
    simp only [mapOk]
    have l : ∀ q : V3 ℝ, (⟨q.x, -q.y, q.z⟩ : V3 ℝ) = q - (2 * q.dot ⟨0, 1, 0⟩) • ⟨0, 1, 0⟩ := by
      intro q
      ext <;> simp [V3.dot] <;> ring
    rw [l, l, this]
  · have := key ⟨1, 0, 0⟩ (by simp [V3.dot]) (by
      have hm : -(⟨1, 0, 0⟩ : V3 ℝ) = ⟨-1, 0, 0⟩ := by ext <;> simp
      rw [hm]
      exact h3 e3)
    simp only [mapOk]
    have l : ∀ q : V3 ℝ, (⟨-q.x, q.y, q.z⟩ : V3 ℝ) = q - (2 * q.dot ⟨1, 0, 0⟩) • ⟨1, 0, 0⟩ := by
      intro q
      ext <;> simp [V3.dot] <;> ring
    rw [l, l, this]
  · rfl

theorem segPoint_rotated (v : Corners (V3 ℝ)) (e x : ℝ) :
    segPoint (v.map' T.map) e x = T.map (segPoint v e x) := by
  unfold segPoint Corners.map'
  simp only [T.add, T.smul, T.sub]

/-- The relative chordwise position of an intersection does not depend on how the segment is turned. -/
theorem xsiInterpol_rotated (v : Corners (V3 ℝ)) : xsiInterpol (v.map' T.map) = xsiInterpol v := by
  funext a b e
  unfold xsiInterpol planeLineIntersect
  simp only [segPoint_rotated]
  have h3 : (v.map' T.map).b - (v.map' T.map).a = T.map (v.b - v.a) := (T.sub _ _).symm
  have h4 : (v.map' T.map).d - (v.map' T.map).a = T.map (v.d - v.a) := (T.sub _ _).symm
  simp only [h3, h4, ← T.sub, T.cross, T.dot, ← T.smul, ← T.add, T.norm]

theorem orderMirrored_rotated (v : Corners (V3 ℝ)) (sym : ℕ) :
    orderMirrored (v.map' T.map) sym = mapOk (Corners.map' T.map) (orderMirrored v sym) := by
  unfold orderMirrored
  split_ifs <;> rfl

theorem mapE_rotated {P : Type*} {f f' : P → Except PyErr (V3 ℝ)}
    (h : ∀ p, f' p = mapOk T.map (f p)) (v : Corners P) :
    v.mapE f' = mapOk (Corners.map' T.map) (v.mapE f) := by
  unfold Corners.mapE
  rw [h, h, h, h]
  cases f v.a <;> cases f v.b <;> cases f v.c <;> cases f v.d <;> rfl

variable {T}

theorem deformedPoint_rotated {g : GeoEnv ℝ} (h : T.KeepsPlane g.symmetry) (e x : ℝ)
    (m : Bool) : (g.rotated T).deformedPoint e x m = mapOk T.map (g.deformedPoint e x m) := by
  unfold GeoEnv.deformedPoint
  have e1 : segPoint (g.rotated T).vertices e x = T.map (segPoint g.vertices e x) :=
    segPoint_rotated _ _ _ _
  have e2 : (g.rotated T).symmetry = g.symmetry := rfl
  simp only [e1, e2, mirrorPoint_rotated h]
  generalize segPoint g.vertices e x = p
  cases m with
  | false =>
    simp only [Bool.false_eq_true, if_false]
    have e3 : (g.rotated T).defField = g.defField.map T.field := rfl
    rw [e3]
    cases g.defField with
    | none => rfl
    | some f => simp only [Option.map_some, mapOk, Rotation.field, T.inv_map]
  | true =>
    simp only [if_true]
    have e3 : (g.rotated T).defFieldMirror = g.defFieldMirror.map T.field := rfl
    rw [e3]
    cases mirrorPoint p g.symmetry with
    | error e => rfl
    | ok p =>
      simp only [mapOk]
      cases g.defFieldMirror with
      | none => rfl
      | some f => simp only [Option.map_some, Rotation.field, T.inv_map]

theorem absVertices_rotated {g : GeoEnv ℝ} (h : T.KeepsPlane g.symmetry) (s : Strip ℝ)
    (m : Bool) : s.absVertices (g.rotated T) m = mapOk (Corners.map' T.map) (s.absVertices g m) := by
  unfold Strip.absVertices
  have e1 : (g.rotated T).isDeformed = g.isDeformed := by
    unfold GeoEnv.isDeformed GeoEnv.rotated
    simp
  have e2 : (g.rotated T).symmetry = g.symmetry := rfl
  rw [e1, e2]
  by_cases hd : g.isDeformed = true
  · rw [if_pos hd, if_pos hd, mapE_rotated T (fun p : ℝ × ℝ => deformedPoint_rotated h p.1 p.2 m)]
    generalize Corners.mapE _ _ = v
    cases v with
    | error e => rfl
    | ok v =>
      simp only [mapOk]
      cases m with
      | false => rfl
      | true =>
        simp only [if_true]
        rw [orderMirrored_rotated]
        rfl
  · rw [if_neg hd, if_neg hd]
    dsimp only
    have e3 : (⟨(g.rotated T).vertices.a + s.etaA • ((g.rotated T).vertices.b - (g.rotated T).vertices.a),
        (g.rotated T).vertices.a + s.etaB • ((g.rotated T).vertices.b - (g.rotated T).vertices.a),
        (g.rotated T).vertices.d + s.etaC • ((g.rotated T).vertices.c - (g.rotated T).vertices.d),
        (g.rotated T).vertices.d + s.etaD • ((g.rotated T).vertices.c - (g.rotated T).vertices.d)⟩ :
          Corners (V3 ℝ)) = Corners.map' T.map
        ⟨g.vertices.a + s.etaA • (g.vertices.b - g.vertices.a),
          g.vertices.a + s.etaB • (g.vertices.b - g.vertices.a),
          g.vertices.d + s.etaC • (g.vertices.c - g.vertices.d),
          g.vertices.d + s.etaD • (g.vertices.c - g.vertices.d)⟩ := by
      unfold GeoEnv.rotated Corners.map'
      simp only [T.add, T.smul, T.sub]
    rw [e3]
    generalize (⟨g.vertices.a + s.etaA • (g.vertices.b - g.vertices.a),
          g.vertices.a + s.etaB • (g.vertices.b - g.vertices.a),
          g.vertices.d + s.etaC • (g.vertices.c - g.vertices.d),
          g.vertices.d + s.etaD • (g.vertices.c - g.vertices.d)⟩ : Corners (V3 ℝ)) = w
    cases m with
    | false => rfl
    | true =>
      simp only [if_true]
      unfold mirrorVertices
      have e4 : (w.map' T.map).mapE (mirrorPoint · g.symmetry) =
          mapOk (Corners.map' T.map) (w.mapE (mirrorPoint · g.symmetry)) := by
        rw [← mapE_rotated T (f' := fun p => mirrorPoint (T.map p) g.symmetry)
          (fun p => mirrorPoint_rotated h p)]
        rfl
      rw [e4]
      cases w.mapE (mirrorPoint · g.symmetry) with
      | error e => rfl
      | ok v =>
        simp only [mapOk]
        rw [orderMirrored_rotated]
        rfl

theorem subareaVertices_rotated {g : GeoEnv ℝ} (h : T.KeepsPlane g.symmetry)
    (s : Strip ℝ) (q : Quad ℝ) (m : Bool) :
    subareaVertices (g.rotated T) s q m = mapOk (Corners.map' T.map) (subareaVertices g s q m) := by
  unfold subareaVertices
  rw [absVertices_rotated h]
  have e2 : (g.rotated T).symmetry = g.symmetry := rfl
  rw [e2]
  cases s.absVertices g m with
  | error e => rfl
  | ok sd =>
    simp only [mapOk]
    generalize (if m = true then orderMirrored ⟨q.xsiA, q.xsiB, q.xsiC, q.xsiD⟩ g.symmetry
      else .ok ⟨q.xsiA, q.xsiB, q.xsiC, q.xsiD⟩ : Except PyErr (Corners ℝ)) = x
    cases x with
    | error e => rfl
    | ok x =>
      simp only [Except.ok.injEq]
      unfold Corners.map'
      simp only [T.add, T.smul, T.sub]

theorem hingeAxis_rotated {g : GeoEnv ℝ} (h : T.KeepsPlane g.symmetry) (s : Strip ℝ)
    (h1 h2 : ℝ) (m : Bool) :
    hingeAxis (g.rotated T) s h1 h2 m = mapOk T.map (hingeAxis g s h1 h2 m) := by
  unfold hingeAxis hingeVertices
  rw [absVertices_rotated h]
  have e2 : (g.rotated T).symmetry = g.symmetry := rfl
  rw [e2]
  cases s.absVertices g m with
  | error e => rfl
  | ok sd =>
    simp only [mapOk, Except.ok.injEq]
    unfold Corners.map'
    simp only [T.add, T.smul, T.sub]

theorem camberAxis_rotated (v : Corners (V3 ℝ)) :
    camberAxis (v.map' T.map) = T.map (camberAxis v) := by
  rw [camberAxis_eq, camberAxis_eq]
  unfold Corners.map' unit
  simp only [← T.sub, T.cross, T.norm, ← T.smul]

theorem rotate_rotated (axis : V3 ℝ) (theta : ℝ) (v : V3 ℝ) :
    rotate (T.map axis) theta (T.map v) = (rotate axis theta v).map T.map := by
  unfold rotate
  rw [T.norm]
  split_ifs
  · rfl
  · simp only [Option.map_some, ← T.smul, T.cross, T.dot, ← T.add]

theorem applyRotation_rotated (r : Option (V3 ℝ × ℝ)) (v : Option (V3 ℝ)) :
    applyRotation (r.map fun x => (T.map x.1, x.2)) (v.map T.map) = (applyRotation r v).map T.map := by
  unfold applyRotation
  cases r with
  | none => rfl
  | some r =>
    obtain ⟨axis, angle⟩ := r
    cases v with
    | none => rfl
    | some v => exact rotate_rotated _ _ _

/-- Points of a panel turned. -/
def PanelPts.rotated (T : Rotation) (g : PanelPts ℝ) : PanelPts ℝ :=
  ⟨T.map g.p, T.map g.q, T.map g.r, T.map g.s, T.map g.v1, T.map g.v2, T.map g.v3, T.map g.v4,
    T.map g.col, T.map g.mid⟩

/-- Data of a panel turned. -/
def Panel.rotated (T : Rotation) (g : Panel) : Panel :=
  ⟨T.map g.v1, T.map g.v2, T.map g.v3, T.map g.v4, T.map g.col, T.map g.mid, T.map g.n, g.area⟩

theorem panelPts_rotated (pts : Corners (V3 ℝ)) (leg : V3 ℝ) (nS nC : ℤ) (i j : ℕ) :
    panelPts (Coef.of (pts.map' T.map)) (T.map leg) nS nC i j =
      (panelPts (Coef.of pts) leg nS nC i j).rotated T := by
  have hat : ∀ a b : ℝ, (Coef.of (pts.map' T.map)).at a b = T.map ((Coef.of pts).at a b) := by
    intro a b
    unfold Coef.at Coef.of Corners.map'
    simp only [T.add, T.smul, T.sub]
  unfold panelPts PanelPts.rotated
  simp only [hat]
  simp only [T.add, T.smul]

theorem crossVec_rotated (g : PanelPts ℝ) : (g.rotated T).crossVec = T.map g.crossVec := by
  unfold PanelPts.crossVec PanelPts.rotated
  simp only [← T.smul, ← T.sub, T.cross]

theorem normal_rotated (g : PanelPts ℝ) : (g.rotated T).normal = T.map g.normal := by
  unfold PanelPts.normal
  rw [crossVec_rotated, T.norm, T.smul]

theorem finNormal_rotated (g : PanelPts ℝ) : (g.rotated T).finNormal = g.finNormal.map T.map := by
  unfold PanelPts.finNormal
  rw [crossVec_rotated, T.norm, normal_rotated]
  split_ifs <;> rfl

theorem toPanel_rotated (g : PanelPts ℝ) : (g.rotated T).toPanel = g.toPanel.rotated T := by
  have hs : (g.rotated T).spanVec = T.map g.spanVec := by
    unfold PanelPts.spanVec PanelPts.rotated
    simp only [T.add, T.smul, T.sub]
  have hch : (g.rotated T).chordVec = T.map g.chordVec := by
    unfold PanelPts.chordVec PanelPts.rotated
    simp only [T.add, T.smul, T.sub]
  unfold PanelPts.toPanel Panel.rotated PanelPts.area
  rw [normal_rotated, hs, hch, T.norm, T.norm]
  rfl

theorem latticeFrom_rotated (leg : V3 ℝ) (l : List (SubInput ℝ)) (hl : ∀ u ∈ l, u.sym = 0) :
    ∀ start : ℤ, latticeFrom (T.map leg) start (l.map fun u => { u with pts := u.pts.map' T.map }) =
      (latticeFrom leg start l).map fun kp => (kp.1, kp.2.rotated T) := by
  induction l with
  | nil => intro start; rfl
  | cons u l ih =>
    intro start
    have hu := hl u (by simp)
    simp only [List.map_cons]
    unfold latticeFrom
    simp only [hu, gt_iff_lt, lt_irrefl, if_false]
    rw [List.map_append, ih fun u hu => hl u (List.mem_cons_of_mem _ hu)]
    congr 1
    unfold passPanels
    rw [List.map_flatMap]
    congr 1
    funext i
    rw [List.map_map]
    congr 1
    funext j
    simp only [Function.comp, panelPts_rotated]

theorem entryParts_rotated (env : LatticeEnv) (ac : PAircraft ℝ) (e : BookEntry) :
    entryParts (env.rotated T) ac e =
      (entryParts env ac e).map fun p => { p with geo := p.geo.rotated T } := by
  unfold entryParts
  cases ac.wings[e.path.wing]? with
  | none => rfl
  | some w =>
    simp only
    cases w.segments[e.path.seg]? with
    | none => rfl
    | some s =>
      simp only
      cases s.strips[e.path.strip]? with
      | none => rfl
      | some d =>
        simp only
        cases d.subareas[e.path.sub]? <;> rfl

/-- All normals turned. -/
def normalsRotated (T : Rotation) (n : ℤ → Option (V3 ℝ)) : ℤ → Option (V3 ℝ) := fun k => (n k).map T.map

section
variable {env : LatticeEnv} (h : ∀ m k, T.KeepsPlane (env.geo m k).symmetry)
include h

theorem entryCorners_rotated (ac : PAircraft ℝ) (e : BookEntry) :
    entryCorners (env.rotated T) ac e = mapOk (Corners.map' T.map) (entryCorners env ac e) := by
  unfold entryCorners
  rw [entryParts_rotated]
  cases hp : entryParts env ac e with
  | none => rfl
  | some p =>
    simp only [Option.map_some]
    exact subareaVertices_rotated (by rw [entryParts_geo hp]; exact h _ _) _ _ _

theorem mapE_corners_rotated (ac : PAircraft ℝ) (es : List BookEntry) :
    mapE (entryCorners (env.rotated T) ac) es =
      mapOk (List.map (Corners.map' T.map)) (mapE (entryCorners env ac) es) := by
  induction es with
  | nil => rfl
  | cons e es ih =>
    unfold mapE
    rw [ih, entryCorners_rotated h]
    cases entryCorners env ac e with
    | error x => rfl
    | ok c =>
      simp only [mapOk]
      cases mapE (entryCorners env ac) es with
      | error x => rfl
      | ok cs => rfl

theorem rotateEntry_rotated (ac : PAircraft ℝ) (e : BookEntry) (n : ℤ → Option (V3 ℝ)) :
    rotateEntry (env.rotated T) ac e (normalsRotated T n) =
      mapOk (normalsRotated T) (rotateEntry env ac e n) := by
  unfold rotateEntry
  rw [entryParts_rotated]
  cases hp : entryParts env ac e with
  | none => rfl
  | some p =>
    have hg : T.KeepsPlane p.geo.symmetry := by rw [entryParts_geo hp]; exact h _ _
    simp only [Option.map_some]
    have e1 : hingeRotation (env.rotated T) { p with geo := p.geo.rotated T } e.mirror =
        mapOk (Option.map fun x => (T.map x.1, x.2)) (hingeRotation env p e.mirror) := by
      unfold hingeRotation
      simp only [hingeAxis_rotated hg]
      cases p.sub.ctrl with
      | none => rfl
      | some c =>
        simp only
        cases p.strip.hinge p.sub.type with
        | none => rfl
        | some hh =>
          simp only
          cases hingeAxis p.geo p.strip hh.1 hh.2 e.mirror with
          | error x => rfl
          | ok axis =>
            simp only [mapOk]
            show (match sideDeflection (env.deflection p.wing.uid c.uid) e.mirror with
              | none => _
              | some d => _) = _
            cases sideDeflection (env.deflection p.wing.uid c.uid) e.mirror with
            | none => rfl
            | some d =>
              simp only
              split_ifs <;> rfl
    rw [e1, subareaVertices_rotated hg]
    cases hingeRotation env p e.mirror with
    | error x => rfl
    | ok r =>
      cases subareaVertices p.geo p.strip p.sub.quad e.mirror with
      | error x => rfl
      | ok v =>
        simp only [mapOk, Except.ok.injEq]
        funext i
        unfold normalsRotated
        have e2 : ∀ num k, camberRotation { p with geo := p.geo.rotated T } (v.map' T.map) num k =
            (camberRotation p v num k).map fun x => (T.map x.1, x.2) := by
          intro num k
          unfold camberRotation
          simp only
          cases (collocationXsi p.sub.quad num)[k]? with
          | none => rfl
          | some xsi =>
            simp only [camberAxis_rotated]
            split_ifs <;> rfl
        simp only [e2, applyRotation_rotated]
        split_ifs <;> rfl

theorem rotateAll_rotated (ac : PAircraft ℝ) (es : List BookEntry) :
    ∀ n, rotateAll (env.rotated T) ac es (normalsRotated T n) =
      mapOk (normalsRotated T) (rotateAll env ac es n) := by
  induction es with
  | nil => intro n; rfl
  | cons e es ih =>
    intro n
    unfold rotateAll
    rw [rotateEntry_rotated h]
    cases rotateEntry env ac e n with
    | error x => rfl
    | ok n' => exact ih n'

/-- The lattice of the turned aircraft in turned flow. -/
theorem genLattice_rotated {doRot : Bool} {alpha beta alpha' beta' : ℝ} {ac : PAircraft ℝ}
    {l : LatticeData} (hleg : trailLeg alpha' beta' = T.map (trailLeg alpha beta))
    (hl : genLattice env doRot alpha beta ac = .ok l) :
    genLattice (env.rotated T) doRot alpha' beta' ac =
      .ok ⟨l.book, fun k => (l.pts k).map (PanelPts.rotated T), normalsRotated T l.normal⟩ := by
  obtain ⟨cs, k1, k2, k3, k4, k5, k6⟩ := genLattice_ok hl
  have hin : l.book.inputsOf (cs.map (Corners.map' T.map)) =
      (l.book.inputsOf cs).map fun u => { u with pts := u.pts.map' T.map } := by
    unfold Book.inputsOf
    rw [List.zipWith_map_left, List.map_zipWith]
  have hsym : ∀ u ∈ l.book.inputsOf cs, u.sym = 0 := by
    intro u hu
    unfold Book.inputsOf at hu
    rw [← List.map_uncurry_zip_eq_zipWith] at hu
    obtain ⟨x, -, rfl⟩ := List.mem_map.1 hu
    rfl
  have hpts : ∀ k, lastPanel (vlmLattice (trailLeg alpha' beta')
      (l.book.inputsOf (cs.map (Corners.map' T.map)))) k = (l.pts k).map (PanelPts.rotated T) := by
    intro k
    rw [k4, hin, hleg]
    unfold vlmLattice
    rw [latticeFrom_rotated _ _ hsym, lastPanel_map]
  have hn0 : (fun k => (lastPanel (vlmLattice (trailLeg alpha' beta')
      (l.book.inputsOf (cs.map (Corners.map' T.map)))) k).bind PanelPts.finNormal) =
      normalsRotated T fun k => (l.pts k).bind PanelPts.finNormal := by
    funext k
    rw [hpts]
    show _ = ((l.pts k).bind PanelPts.finNormal).map T.map
    cases l.pts k with
    | none => rfl
    | some g => simp only [Option.map_some, Option.bind_some, finNormal_rotated]
  have := genLattice_build (env := env.rotated T) (doRot := doRot) (alpha := alpha') (beta := beta')
    (cs := cs.map (Corners.map' T.map)) (n := normalsRotated T l.normal) k1
    (by rw [mapE_corners_rotated h, k2]; rfl) k3 (by
      rw [hn0, rotateAll_rotated h]
      cases doRot with
      | false =>
        simp only [Bool.false_eq_true, if_false]
        rw [k5 rfl]
      | true =>
        simp only [if_true]
        rw [k6 rfl]
        rfl)
  rw [this]
  congr 2
  funext k
  exact hpts k

end

theorem panel_rotated {l : LatticeData} {k : ℕ} {g : Panel} (h : l.panel k = some g) :
    LatticeData.panel ⟨l.book, fun k => (l.pts k).map (PanelPts.rotated T), normalsRotated T l.normal⟩ k =
      some (g.rotated T) := by
  obtain ⟨q, n, h1, h2, rfl⟩ := panelAt_some h
  unfold LatticeData.panel LatticeData.panelAt normalsRotated
  simp only [h1, h2, Option.map_some, toPanel_rotated]
  rfl

end

/-! ## Solver -/

section
variable {T : Rotation} {n : ℕ}

theorem kernel_rotated (eps : ℝ) (x a b : V3 ℝ) :
    kernel eps (T.map x) (T.map a) (T.map b) = T.map (kernel eps x a b) := by
  unfold kernel kernelDen
  simp only [← T.sub, T.cross, T.dot, T.norm, T.smul]

theorem KernelOk_rotated (eps : ℝ) (x a b : V3 ℝ) :
    KernelOk eps (T.map x) (T.map a) (T.map b) ↔ KernelOk eps x a b := by
  unfold KernelOk kernelDen
  simp only [← T.sub, T.dot, T.norm]

theorem horseshoe_rotated (eps : ℝ) (x : V3 ℝ) (g : Panel) :
    horseshoe eps (T.map x) (g.rotated T) = T.map (horseshoe eps x g) := by
  unfold horseshoe Panel.rotated
  simp only [kernel_rotated, T.add, T.zero]

theorem HorseshoeOk_rotated (eps : ℝ) (x : V3 ℝ) (g : Panel) :
    HorseshoeOk eps (T.map x) (g.rotated T) ↔ HorseshoeOk eps x g := by
  unfold HorseshoeOk Panel.rotated
  simp only [KernelOk_rotated]

theorem FlowState.Rotated.dir {s s' : FlowState} (h : s.Rotated T s') :
    freestreamDir (deg2rad s'.alpha) (deg2rad s'.beta) =
      T.map (freestreamDir (deg2rad s.alpha) (deg2rad s.beta)) := by
  have h1 : ∀ a b, pyFreestream 1 a b = freestreamDir (deg2rad a) (deg2rad b) := by
    intro a b
    unfold pyFreestream freestreamDir deg2rad
    ext <;> simp
  have := h.direction
  rwa [h1, h1] at this

theorem FlowState.Rotated.leg {s s' : FlowState} (h : s.Rotated T s') :
    trailLeg s'.alpha s'.beta = T.map (trailLeg s.alpha s.beta) := by
  unfold trailLeg
  rw [h.dir, T.smul]

theorem FlowState.Rotated.onset {s s' : FlowState} (h : s.Rotated T s') (arm : V3 ℝ) :
    velWind s' + velRot s' (T.map arm) = T.map (velWind s + velRot s arm) := by
  have e1 : ∀ s : FlowState, velWind s = (-s.airspeed) • freestreamDir (deg2rad s.alpha) (deg2rad s.beta) := by
    intro s
    unfold velWind
    ext <;> simp
  have e2 : ∀ (s : FlowState) (r : V3 ℝ), velRot s r = (⟨s.p, s.q, s.r⟩ : V3 ℝ).cross r := by
    intro s r
    unfold velRot
    ext <;> simp
  rw [e1, e1, e2, e2, h.dir, h.rates, h.airspeed, T.cross, ← T.smul, ← T.add]

theorem downwash_rotated (eps : ℝ) (P : Fin n → Panel) :
    vlmDownwash eps (fun i => (P i).rotated T) = vlmDownwash eps P := by
  unfold vlmDownwash
  have e1 : ∀ i j, (horseshoe eps ((P i).rotated T).col ((P j).rotated T)).dot ((P i).rotated T).n =
      (horseshoe eps (P i).col (P j)).dot (P i).n := by
    intro i j
    show (horseshoe eps (T.map (P i).col) ((P j).rotated T)).dot (T.map (P i).n) = _
    rw [horseshoe_rotated, T.dot]
  have e2 : ∀ i j, HorseshoeOk eps ((P i).rotated T).col ((P j).rotated T) ↔
      HorseshoeOk eps (P i).col (P j) := fun i j => HorseshoeOk_rotated _ _ _
  by_cases hok : ∀ i j, HorseshoeOk eps (P i).col (P j)
  · rw [if_pos hok, if_pos fun i j => (e2 i j).2 (hok i j)]
    simp only [e1]
  · rw [if_neg hok, if_neg fun h => hok fun i j => (e2 i j).1 (h i j)]

theorem boundary_rotated {s s' : FlowState} (h : s.Rotated T s') (r : Refs) (P : Fin n → Panel) :
    vlmBoundary s' (r.rotated T) (fun i => (P i).rotated T) = vlmBoundary s r P := by
  funext i
  show (velWind s' + velRot s' (T.map (P i).col - T.map r.cg)).dot (T.map (P i).n) = _
  rw [← T.sub, h.onset, T.dot]
  rfl

/-- What happens to the results. -/
structure Results.Rotated {n n' : ℕ} (T : Rotation) (s s' : FlowState) (r : Refs) (R : Results n)
    (R' : Results n') : Prop where
  force : R'.ftot = T.map R.ftot
  moment : R'.mtot = T.map R.mtot
  wind : R.wind = bodyToWind s R.ftot
  wind' : R'.wind = bodyToWind s' R'.ftot
  coeffs : R.coeffs = vlmCoeffs s r R.ftot R.mtot
  coeffs' : R'.coeffs = vlmCoeffs s' (r.rotated T) R'.ftot R'.mtot

theorem results_rotated {s s' : FlowState} (h : s.Rotated T s') (r : Refs) (eps : ℝ) (P : Fin n → Panel)
    (gamma : Fin n → ℝ) {R : Results n} (hR : vlmResults eps s r P gamma = some R) :
    ∃ R', vlmResults eps s' (r.rotated T) (fun i => (P i).rotated T) gamma = some R' ∧
      R.Rotated T s s' r R' := by
  obtain ⟨h1, rfl⟩ := vlmResults_some hR
  have hok : ∀ i j, HorseshoeOk eps ((P i).rotated T).mid ((P j).rotated T) :=
    fun i j => (HorseshoeOk_rotated eps _ _).2 (h1 i j)
  have hi : ∀ i, inwash eps (fun i => (P i).rotated T) gamma (T.map (P i).mid) =
      T.map (inwash eps P gamma (P i).mid) := by
    intro i
    rw [inwash_eq, inwash_eq, T.sum]
    refine Finset.sum_congr rfl fun j _ => ?_
    rw [horseshoe_rotated, T.smul]
  have hv : ∀ i, panelVel eps s' (r.rotated T) (fun i => (P i).rotated T) gamma i =
      T.map (panelVel eps s r P gamma i) := by
    intro i
    show inwash eps (fun i => (P i).rotated T) gamma (T.map (P i).mid) -
      (velWind s' + velRot s' (T.map (P i).mid - T.map r.cg)) = _
    rw [hi, ← T.sub, h.onset, ← T.sub]
    rfl
  have hf : ∀ i, panelForce eps s' (r.rotated T) (fun i => (P i).rotated T) gamma i =
      T.map (panelForce eps s r P gamma i) := by
    intro i
    rw [panelForce_eq, panelForce_eq, hv, h.density]
    show (s.rho * gamma i) • (T.map (panelVel eps s r P gamma i)).cross (T.map (P i).v3 - T.map (P i).v2) = _
    rw [← T.sub, T.cross, T.smul]
  have hm : ∀ i, panelMoment eps s' (r.rotated T) (fun i => (P i).rotated T) gamma i =
      T.map (panelMoment eps s r P gamma i) := by
    intro i
    unfold panelMoment
    rw [hf]
    show (T.map (P i).mid - T.map r.rp).cross _ = _
    rw [← T.sub, T.cross]
  refine ⟨_, vlmResults_mk hok s' _ gamma, ?_, ?_, rfl, rfl, rfl, rfl⟩
  · show ∑ i, panelForce eps s' (r.rotated T) (fun i => (P i).rotated T) gamma i =
      T.map (∑ i, panelForce eps s r P gamma i)
    rw [T.sum]
    exact Finset.sum_congr rfl fun i _ => hf i
  · show ∑ i, panelMoment eps s' (r.rotated T) (fun i => (P i).rotated T) gamma i =
      T.map (∑ i, panelMoment eps s r P gamma i)
    rw [T.sum]
    exact Finset.sum_congr rfl fun i _ => hm i

theorem bodyToWind_drag (s : FlowState) (f : V3 ℝ) :
    (bodyToWind s f).x = f.dot (freestreamDir (deg2rad s.alpha) (deg2rad s.beta)) := by
  unfold bodyToWind freestreamDir V3.dot
  simp only
  ring

theorem bodyToWind_sq (s : FlowState) (f : V3 ℝ) :
    (bodyToWind s f).x ^ 2 + ((bodyToWind s f).y ^ 2 + (bodyToWind s f).z ^ 2) = f.dot f := by
  have h1 := Real.sin_sq_add_cos_sq (deg2rad s.alpha)
  have h2 := Real.sin_sq_add_cos_sq (deg2rad s.beta)
  unfold bodyToWind V3.dot
  simp only
  generalize Real.sin (deg2rad s.alpha) = sa at *
  generalize Real.cos (deg2rad s.alpha) = ca at *
  generalize Real.sin (deg2rad s.beta) = sb at *
  generalize Real.cos (deg2rad s.beta) = cb at *
  have e1 : cb ^ 2 = 1 - sb ^ 2 := by linarith
  have e2 : ca ^ 2 = 1 - sa ^ 2 := by linarith
  ring_nf
  simp only [e1, e2]
  ring

theorem wind_rotated {s s' : FlowState} (h : s.Rotated T s') (f : V3 ℝ) :
    (bodyToWind s' (T.map f)).x = (bodyToWind s f).x ∧
    (bodyToWind s' (T.map f)).y ^ 2 + (bodyToWind s' (T.map f)).z ^ 2 =
      (bodyToWind s f).y ^ 2 + (bodyToWind s f).z ^ 2 := by
  have e1 : (bodyToWind s' (T.map f)).x = (bodyToWind s f).x := by
    rw [bodyToWind_drag, bodyToWind_drag, h.dir, T.dot]
  refine ⟨e1, ?_⟩
  have e2 := bodyToWind_sq s' (T.map f)
  have e3 := bodyToWind_sq s f
  rw [T.dot, e1] at e2
  linarith

end

/-! ## Runs -/

theorem cdiv_fin {x d c : ℝ} (h : asFlt (cdiv x d) = .fin c) : d ≠ 0 ∧ c = x / d := by
  unfold cdiv at h
  split_ifs at h with hd
  · cases h
  · exact ⟨hd, by cases h; rfl⟩

/-- **C144**: if the aircraft with its deformation and the reference points are turned in space, together
with the direction of the flow and the axis of rotation, the run still finishes, and all loads turn with
them: forces, moments and force coefficients are the turned vectors, drag and drag coefficient are the same
and so is the magnitude of the force across the flow.  Mirrored wings can only be turned about an axis
which keeps the plane of symmetry. -/
theorem C144_rotated (env : RunEnv) (hd : Lapack env.dgesv) (T : Rotation)
    (hT : ∀ m k, T.KeepsPlane (env.lat.geo m k).symmetry) (ac : PAircraft ℝ) (st st' : FlightSt ℝ)
    (hnum : st'.num = st.num)
    (hm : ∀ i < st.num, ∀ s, st.ValuesAt i s → ∃ s', st'.ValuesAt i s' ∧ s.Rotated T s')
    (out : RunOut) (h : standardRun env ac st = .ok out) :
    ∃ out', standardRun (env.rotated T) ac st' = .ok out' ∧ ∀ i < st.num, RotatedLoads T out out' i := by
  obtain ⟨out', h', hv⟩ := run_transfer (env := env) (env' := env.rotated T) hd hd (ac2 := ac)
    (st' := st') hnum (fun i a a' => a.s.Rotated T a'.s ∧ a.R.Rotated T a.s a'.s env.refs a'.R) (by
      intro ac' hac
      refine ⟨ac', hac, ?_⟩
      rintro i hi ⟨s, l, P, A, g, R⟩ ha
      obtain ⟨s', ⟨v1, v2, v3, v4, v5, v6, v7⟩, hs⟩ := hm i hi s
        ⟨ha.airspeed, ha.density, ha.alpha, ha.beta, ha.rateP, ha.rateQ, ha.rateR⟩
      obtain ⟨R', r1, r2⟩ := results_rotated hs env.refs env.eps P g (R := R) ha.results
      have hb := boundary_rotated hs env.refs P
      refine ⟨⟨s', ⟨l.book, fun k => (l.pts k).map (PanelPts.rotated T), normalsRotated T l.normal⟩,
        fun k => (P k).rotated T, A, g, R'⟩, ⟨v1, v2, v3, v4, v5, v6, v7,
          genLattice_rotated hT hs.leg ha.lattice, ha.nonempty,
          fun k => panel_rotated (ha.panels k), (downwash_rotated env.eps P).trans ha.matrix, ?_, ?_, r1⟩,
        hs, r2⟩
      · intro hu
        show Solves A (vlmBoundary s' (env.refs.rotated T) fun k => (P k).rotated T) g
        rw [hb]
        exact ha.solved hu
      · intro hu
        show g = vlmBoundary s' (env.refs.rotated T) fun k => (P k).rotated T
        rw [hb]
        exact ha.singular hu) h
  refine ⟨out', h', ?_⟩
  intro i hi
  obtain ⟨ac', a, a', -, -, ⟨hs, r⟩, v1, v2⟩ := hv i hi
  have g1 : ∀ d ∈ runColumns, ∀ c, out.value d.1 i = some (.fin c) → d.2 a = .fin c := by
    intro d hd c hc
    rw [v1 d hd] at hc
    exact Option.some.inj hc
  have hq : dynPressure a'.s = dynPressure a.s := by
    unfold dynPressure
    rw [hs.airspeed, hs.density]
  obtain ⟨w1, w2⟩ := wind_rotated hs a.R.ftot
  have hw' : a'.R.wind = bodyToWind a'.s (T.map a.R.ftot) := by rw [r.wind', r.force]
  have hc' : a'.R.coeffs = vlmCoeffs a'.s (env.refs.rotated T) (T.map a.R.ftot) (T.map a.R.mtot) := by
    rw [r.coeffs', r.force, r.moment]
  have mem : ∀ {n : String} {f : Analysis → Flt ℝ}, (n, f) ∈ runColumns →
      out.value n i = some (f a) ∧ out'.value n i = some (f a') := fun hm => ⟨v1 _ hm, v2 _ hm⟩
  have hx : ("Fx", fun a : Analysis => (.fin a.R.ftot.x : Flt ℝ)) ∈ runColumns := by simp [runColumns]
  have hy : ("Fy", fun a : Analysis => (.fin a.R.ftot.y : Flt ℝ)) ∈ runColumns := by simp [runColumns]
  have hz : ("Fz", fun a : Analysis => (.fin a.R.ftot.z : Flt ℝ)) ∈ runColumns := by simp [runColumns]
  have mx : ("Mx", fun a : Analysis => (.fin a.R.mtot.x : Flt ℝ)) ∈ runColumns := by simp [runColumns]
  have my : ("My", fun a : Analysis => (.fin a.R.mtot.y : Flt ℝ)) ∈ runColumns := by simp [runColumns]
  have mz : ("Mz", fun a : Analysis => (.fin a.R.mtot.z : Flt ℝ)) ∈ runColumns := by simp [runColumns]
  have wx : ("FD", fun a : Analysis => (.fin a.R.wind.x : Flt ℝ)) ∈ runColumns := by simp [runColumns]
  have wy : ("FC", fun a : Analysis => (.fin a.R.wind.y : Flt ℝ)) ∈ runColumns := by simp [runColumns]
  have wz : ("FL", fun a : Analysis => (.fin a.R.wind.z : Flt ℝ)) ∈ runColumns := by simp [runColumns]
  have cx : ("Cx", fun a : Analysis => asFlt a.R.coeffs.cx) ∈ runColumns := by simp [runColumns]
  have cy : ("Cy", fun a : Analysis => asFlt a.R.coeffs.cy) ∈ runColumns := by simp [runColumns]
  have cz : ("Cz", fun a : Analysis => asFlt a.R.coeffs.cz) ∈ runColumns := by simp [runColumns]
  have cD : ("CD", fun a : Analysis => asFlt a.R.coeffs.cD) ∈ runColumns := by simp [runColumns]
  have cC : ("CC", fun a : Analysis => asFlt a.R.coeffs.cC) ∈ runColumns := by simp [runColumns]
  have cL : ("CL", fun a : Analysis => asFlt a.R.coeffs.cL) ∈ runColumns := by simp [runColumns]
  have har : (env.refs.rotated T).area = env.refs.area := rfl
  refine ⟨⟨a.R.ftot, ⟨(mem hx).1, (mem hy).1, (mem hz).1⟩, ?_⟩,
    ⟨a.R.mtot, ⟨(mem mx).1, (mem my).1, (mem mz).1⟩, ?_⟩,
    ⟨a.R.wind, a'.R.wind, ⟨(mem wx).1, (mem wy).1, (mem wz).1⟩, ⟨(mem wx).2, (mem wy).2, (mem wz).2⟩,
      by rw [hw', r.wind, w1], by rw [hw', r.wind, w2]⟩, ⟨_, (mem cD).1, ?_⟩, ?_, ?_⟩
  · rw [← r.force]
    exact ⟨(mem hx).2, (mem hy).2, (mem hz).2⟩
  · rw [← r.moment]
    exact ⟨(mem mx).2, (mem my).2, (mem mz).2⟩
  · rw [(mem cD).2, hc', r.coeffs]
    unfold vlmCoeffs
    simp only [hq, har, w1]
  · rintro c ⟨c1, c2, c3⟩
    have k1 := g1 _ cx _ c1
    have k2 := g1 _ cy _ c2
    have k3 := g1 _ cz _ c3
    simp only [r.coeffs, vlmCoeffs] at k1 k2 k3
    obtain ⟨hd, k1⟩ := cdiv_fin k1
    obtain ⟨-, k2⟩ := cdiv_fin k2
    obtain ⟨-, k3⟩ := cdiv_fin k3
    have e : T.map c = ((if dynPressure a.s = 0 then 1 else dynPressure a.s) * env.refs.area)⁻¹ •
        T.map a.R.ftot := by
      rw [← T.smul]
      congr 1
      ext
      · simp only [smul_x, k1]; ring
      · simp only [smul_y, k2]; ring
      · simp only [smul_z, k3]; ring
    refine ⟨?_, ?_, ?_⟩
    · rw [(mem cx).2, hc', e]
      unfold vlmCoeffs cdiv
      simp only [hq, har, if_neg hd, asFlt, smul_x, div_eq_inv_mul]
    · rw [(mem cy).2, hc', e]
      unfold vlmCoeffs cdiv
      simp only [hq, har, if_neg hd, asFlt, smul_y, div_eq_inv_mul]
    · rw [(mem cz).2, hc', e]
      unfold vlmCoeffs cdiv
      simp only [hq, har, if_neg hd, asFlt, smul_z, div_eq_inv_mul]
  · rintro c ⟨c1, c2, c3⟩
    have k1 := g1 _ cD _ c1
    have k2 := g1 _ cC _ c2
    have k3 := g1 _ cL _ c3
    simp only [r.coeffs, vlmCoeffs] at k1 k2 k3
    obtain ⟨hd, k1⟩ := cdiv_fin k1
    obtain ⟨-, k2⟩ := cdiv_fin k2
    obtain ⟨-, k3⟩ := cdiv_fin k3
    refine ⟨((if dynPressure a.s = 0 then 1 else dynPressure a.s) * env.refs.area)⁻¹ •
      bodyToWind a'.s (T.map a.R.ftot), ⟨?_, ?_, ?_⟩, ?_, ?_⟩
    · rw [(mem cD).2, hc']
      unfold vlmCoeffs cdiv
      simp only [hq, har, if_neg hd, asFlt, smul_x, div_eq_inv_mul]
    · rw [(mem cC).2, hc']
      unfold vlmCoeffs cdiv
      simp only [hq, har, if_neg hd, asFlt, smul_y, div_eq_inv_mul]
    · rw [(mem cL).2, hc']
      unfold vlmCoeffs cdiv
      simp only [hq, har, if_neg hd, asFlt, smul_z, div_eq_inv_mul]
    · simp only [smul_x, k1, w1]
      ring
    · simp only [smul_y, smul_z, k2, k3, mul_pow, div_pow]
      rw [← mul_add, w2]
      ring

/-! ## Turning about the axes -/

/-- Turning about the y-axis by an angle in degree. -/
noncomputable def Rotation.pitch (d : ℝ) : Rotation where
  map p := ⟨Real.cos (deg2rad d) * p.x - Real.sin (deg2rad d) * p.z, p.y,
    Real.sin (deg2rad d) * p.x + Real.cos (deg2rad d) * p.z⟩
  inv p := ⟨Real.cos (deg2rad d) * p.x + Real.sin (deg2rad d) * p.z, p.y,
    -(Real.sin (deg2rad d)) * p.x + Real.cos (deg2rad d) * p.z⟩
  map_inv p := by
    have := Real.sin_sq_add_cos_sq (deg2rad d)
    ext
    · simp only
      linear_combination p.x * this
    · rfl
    · simp only
      linear_combination p.z * this
  inv_map p := by
    have := Real.sin_sq_add_cos_sq (deg2rad d)
    ext
    · simp only
      linear_combination p.x * this
    · rfl
    · simp only
      linear_combination p.z * this
  add p q := by ext <;> simp <;> ring
  smul k p := by ext <;> simp <;> ring
  dot p q := by
    have := Real.sin_sq_add_cos_sq (deg2rad d)
    unfold V3.dot
    simp only
    linear_combination (p.x * q.x + p.z * q.z) * this
  cross p q := by
    have := Real.sin_sq_add_cos_sq (deg2rad d)
    ext
    · simp only [cross_x, cross_z]
      ring
    · simp only [cross_y]
      linear_combination (p.z * q.x - p.x * q.z) * this
    · simp only [cross_x, cross_z]
      ring

/-- Turning about the y-axis is a change of the angle of attack, in flight without rotation. -/
theorem pitch_flow (d : ℝ) (s : FlowState) (hp : s.p = 0) (hr : s.r = 0) :
    s.Rotated (Rotation.pitch d) { s with alpha := s.alpha + d } := by
  refine ⟨rfl, rfl, ?_, ?_⟩
  · have e : (s.alpha + d) * (Real.pi / 180) = s.alpha * (Real.pi / 180) + d * (Real.pi / 180) := by ring
    unfold pyFreestream Rotation.pitch deg2rad
    ext
    · simp only [smul_x, smul_z, e, Real.cos_add]
      ring
    · rfl
    · simp only [smul_x, smul_z, e, Real.sin_add]
      ring
  · unfold Rotation.pitch
    ext <;> simp [hp, hr]

theorem pitch_keeps (d : ℝ) {sym : ℕ} (h : sym = 0 ∨ sym = 2) : (Rotation.pitch d).KeepsPlane sym := by
  refine ⟨by omega, fun _ => .inl ?_, by omega⟩
  unfold Rotation.pitch
  ext <;> simp

/-- The flight states of the examples with the angle of attack increased by thirty degrees. -/
noncomputable def steepStates : FlightSt ℝ :=
  ⟨fun p => if p = "airspeed" then some [.num (.fin 10), .num (.fin 20)]
    else if p = "alpha" then some [.num (.fin 30), .num (.fin 35)]
    else if p = "density" then some [.num (.fin 1), .num (.fin 1)]
    else some [.num (.fin 0), .num (.fin 0)], 2⟩

/-- Example for C144: the wing of the examples turned nose down by thirty degrees about the y-axis, and the
flow with it; the force is turned and the drag is the same. -/
example : ∃ out out' x f, standardRun exampleEnv onePanelAc runStates = .ok out ∧
    standardRun (exampleEnv.rotated (Rotation.pitch 30)) onePanelAc steepStates = .ok out' ∧
    out.value "CD" 1 = some x ∧ out'.value "CD" 1 = some x ∧
    out.vector "Fx" "Fy" "Fz" 1 f ∧ out'.vector "Fx" "Fy" "Fz" 1 ((Rotation.pitch 30).map f) ∧
    0 < ((exampleEnv.rotated (Rotation.pitch 30)).lat.geo 0 0).vertices.d.z := by
  obtain ⟨out, h⟩ := example_run
  have hval : ∀ i < 2, ∀ s, runStates.ValuesAt i s → ∃ s', steepStates.ValuesAt i s' ∧
      s.Rotated (Rotation.pitch 30) s' := by
    intro i hi s hs
    obtain ⟨v, rho, al, be, p, q, r⟩ := s
    obtain ⟨h1, h2, h3, h4, h5, h6, h7⟩ := hs
    obtain rfl | rfl : i = 0 ∨ i = 1 := by omega
    · cases h1; cases h2; cases h3; cases h4; cases h5; cases h6; cases h7
      refine ⟨⟨10, 1, 0 + 30, 0, 0, 0, 0⟩, ?_, pitch_flow 30 ⟨10, 1, 0, 0, 0, 0, 0⟩ rfl rfl⟩
      rw [zero_add]
      exact ⟨rfl, rfl, rfl, rfl, rfl, rfl, rfl⟩
    · cases h1; cases h2; cases h3; cases h4; cases h5; cases h6; cases h7
      refine ⟨⟨20, 1, 5 + 30, 0, 0, 0, 0⟩, ?_, pitch_flow 30 ⟨20, 1, 5, 0, 0, 0, 0⟩ rfl rfl⟩
      rw [show (5 : ℝ) + 30 = 35 by norm_num]
      exact ⟨rfl, rfl, rfl, rfl, rfl, rfl, rfl⟩
  obtain ⟨out', h', hv⟩ := C144_rotated exampleEnv exactDgesv_lapack (Rotation.pitch 30)
    (fun m k => pitch_keeps 30 (.inr rfl)) onePanelAc runStates steepStates rfl hval out h
  obtain ⟨⟨f, f1, f2⟩, -, -, ⟨x, x1, x2⟩, -, -⟩ := hv 1 (by simp [runStates])
  refine ⟨out, out', x, f, h, h', x1, x2, f1, f2, ?_⟩
  have hs : 0 < Real.sin (deg2rad 30) := by
    refine Real.sin_pos_of_pos_of_lt_pi ?_ ?_ <;> unfold deg2rad <;> linarith [Real.pi_pos]
  simp only [RunEnv.rotated, LatticeEnv.rotated, GeoEnv.rotated, Corners.map', exampleEnv, flatLat,
    flatGeo, Rotation.pitch]
  linarith

end Verif
