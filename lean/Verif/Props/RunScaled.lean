import Verif.Props.RunMoved
import Verif.Props.TwistedRun

/-!
# Property C120: geometrically similar aircraft

The trailing legs of the vortices are 10000 long whatever the size of the aircraft
(`c_lattice.cpp:55`), so the coefficients depend on the size, and on the unit of length.
-/

set_option linter.unnecessarySeqFocus false
set_option linter.unusedSectionVars false

namespace Verif

open V3

/-! ## Specification -/

/-- Corners with coordinates multiplied by `k`. -/
def Corners.scaled (k : ℝ) (v : Corners (V3 ℝ)) : Corners (V3 ℝ) :=
  ⟨k • v.a, k • v.b, k • v.c, k • v.d⟩

/-- Segment corners and deformation field `k` times as large. -/
noncomputable def GeoEnv.scaled (k : ℝ) (g : GeoEnv ℝ) : GeoEnv ℝ :=
  { g with
    vertices := g.vertices.scaled k
    defField := g.defField.map fun f p => k • f (k⁻¹ • p)
    defFieldMirror := g.defFieldMirror.map fun f p => k • f (k⁻¹ • p) }

/-- All segments `k` times as large. -/
noncomputable def LatticeEnv.scaled (k : ℝ) (env : LatticeEnv) : LatticeEnv :=
  { env with geo := fun m j => (env.geo m j).scaled k }

/-- Reference values `k` times as large. -/
def Refs.scaled (k : ℝ) (c : Refs) : Refs :=
  ⟨k • c.cg, k • c.rp, k ^ 2 * c.area, k * c.span, k * c.chord⟩

/-- Aircraft and reference values `k` times as large. -/
noncomputable def RunEnv.scaled (k : ℝ) (env : RunEnv) : RunEnv :=
  { env with lat := env.lat.scaled k, refs := env.refs.scaled k }

/-- Lengths that the panelling reads; relative positions (`interp`) are the same, see
`xsiInterpol_scaled`. -/
noncomputable def PSegment.scaled (k : ℝ) (s : PSegment ℝ) : PSegment ℝ :=
  { s with span := k * s.span, dist := fun e1 x1 e2 x2 => k * s.dist e1 x1 e2 x2 }

/-- The same for a wing. -/
noncomputable def PWing.scaled (k : ℝ) (w : PWing ℝ) : PWing ℝ :=
  { w with segments := w.segments.map (PSegment.scaled k) }

/-- The same for the aircraft. -/
noncomputable def PAircraft.scaled (k : ℝ) (ac : PAircraft ℝ) : PAircraft ℝ :=
  { ac with wings := ac.wings.map (PWing.scaled k) }

/-- Flight state `i` of the second collection has the same airspeed, density and angles, and the rates
divided by `k`: tips and tails of an aircraft `k` times as large move at the same speed. -/
def SlowerAt (k : ℝ) (st st' : FlightSt ℝ) (i : ℕ) : Prop :=
  (∀ p ∈ ["airspeed", "density", "alpha", "beta"], EntryTimes 1 st st' p i) ∧
  ∀ p ∈ ["rate_P", "rate_Q", "rate_R"], EntryTimes k⁻¹ st st' p i

/-- An analysis as the code does it, but with trailing legs of length `L`. -/
structure Analysis.WakeOf (env : RunEnv) (ac : PAircraft ℝ) (L : ℝ) (a : Analysis) : Prop where
  lattice : genLattice env.lat env.doRot a.s.alpha a.s.beta ac = .ok a.l
  nonempty : a.l.num ≠ 0
  panels : ∀ k : Fin a.l.num, ∃ g, a.l.panel k = some g ∧
    a.P k = g.withLeg (L • freestreamDir (deg2rad a.s.alpha) (deg2rad a.s.beta))
  matrix : vlmDownwash env.eps a.P = some a.A
  solved : IsUnit a.A.det → Solves a.A (vlmBoundary a.s env.refs a.P) a.g
  results : vlmResults env.eps a.s env.refs a.P a.g = some a.R

/-- Flight state `i` of a collection, as the solver reads it. -/
def FlowAt (st : FlightSt ℝ) (i : ℕ) (s : FlowState) : Prop :=
  st.aero.entry "airspeed" i = .ok (.fin s.airspeed) ∧ st.aero.entry "density" i = .ok (.fin s.rho) ∧
  st.aero.entry "alpha" i = .ok (.fin s.alpha) ∧ st.aero.entry "beta" i = .ok (.fin s.beta) ∧
  st.aero.entry "rate_P" i = .ok (.fin s.p) ∧ st.aero.entry "rate_Q" i = .ok (.fin s.q) ∧
  st.aero.entry "rate_R" i = .ok (.fin s.r)

/-- The flow with rates divided by `k`. -/
noncomputable def FlowState.slower (k : ℝ) (s : FlowState) : FlowState :=
  { s with p := k⁻¹ * s.p, q := k⁻¹ * s.q, r := k⁻¹ * s.r }

/-- Geometrically similar aircraft have the same coefficients. -/
def SizeDoesNotMatter : Prop :=
  ∀ (env : RunEnv) (_ : Lapack env.dgesv) (k : ℝ) (_ : 0 < k) (ac : PAircraft ℝ)
    (st st' : FlightSt ℝ) (_ : st'.num = st.num) (_ : ∀ i < st.num, SlowerAt k st st' i)
    (out out' : RunOut), standardRun env ac st = .ok out →
    standardRun (env.scaled k) (ac.scaled k) st' = .ok out' →
    ∀ i < st.num, ∀ c ∈ coeffNames, out'.value c i = out.value c i

/-! ## Panelling -/

theorem mapE_comm {α β α' β' : Type} {f : α → Except PyErr β} {f' : α' → Except PyErr β'}
    {g : α → α'} {h : β → β'} (hf : ∀ a, f' (g a) = mapOk h (f a)) (l : List α) :
    mapE f' (l.map g) = mapOk (List.map h) (mapE f l) := by
  induction l with
  | nil => rfl
  | cons a l ih =>
    simp only [List.map_cons]
    unfold mapE
    rw [hf, ih]
    cases f a with
    | error e => rfl
    | ok b =>
      simp only [mapOk]
      cases mapE f l <;> rfl

section
variable {k : ℝ} (hk : 0 < k)
include hk

theorem wingSpan_scaled (w : PWing ℝ) : (w.scaled k).span = k * w.span := by
  unfold PWing.span PWing.scaled
  simp only [List.foldl_map]
  have : ∀ (l : List (PSegment ℝ)) (x : ℝ),
      l.foldl (fun acc s => acc + |(s.scaled k).span|) (k * x) =
        k * l.foldl (fun acc s => acc + |s.span|) x := by
    intro l
    induction l with
    | nil => intro x; rfl
    | cons s l ih =>
      intro x
      simp only [List.foldl_cons]
      have e : k * x + |(s.scaled k).span| = k * (x + |s.span|) := by
        show k * x + |k * s.span| = _
        rw [abs_mul, abs_of_pos hk]
        ring
      rw [e, ih]
  have := this w.segments 0
  rwa [mul_zero] at this

theorem segAutopanels_scaled (c s : ℤ) (x : ℝ) (g : PSegment ℝ) :
    (g.scaled k).setAutopanels (k * x) c s = mapOk (PSegment.scaled k) (g.setAutopanels x c s) := by
  have hr : ∀ y : ℝ, spanRatio (k * y) (k * x) = spanRatio y x := by
    intro y
    unfold spanRatio
    rw [mul_div_mul_left _ _ hk.ne']
    simp [hk.ne']
  obtain ⟨uid, span, numS, numC, interp, dist, strips⟩ := g
  unfold PSegment.setAutopanels PSegment.scaled
  cases numC <;> cases numS <;> simp only [reduceCtorEq, if_true, if_false, hr] <;>
    first
      | rfl
      | (cases spanRatio span x <;> rfl)

theorem setAutopanels_scaled (c s : ℤ) (ac : PAircraft ℝ) :
    setAutopanels c s (ac.scaled k) = mapOk (PAircraft.scaled k) (setAutopanels c s ac) := by
  unfold setAutopanels
  have : mapE (PWing.setAutopanels c s) (ac.scaled k).wings =
      mapOk (List.map (PWing.scaled k)) (mapE (PWing.setAutopanels c s) ac.wings) := by
    refine mapE_comm (fun w => ?_) ac.wings
    unfold PWing.setAutopanels
    rw [wingSpan_scaled hk]
    have : mapE (PSegment.setAutopanels (k * w.span) c s) (w.scaled k).segments =
        mapOk (List.map (PSegment.scaled k)) (mapE (PSegment.setAutopanels w.span c s) w.segments) :=
      mapE_comm (fun g => segAutopanels_scaled hk c s _ g) w.segments
    rw [this]
    cases mapE (PSegment.setAutopanels w.span c s) w.segments <;> rfl
  rw [this]
  cases mapE (PWing.setAutopanels c s) ac.wings <;> rfl

theorem update_scaled (uid : String) {f f' : PSegment ℝ → Except PyErr (List (Strip ℝ))}
    (hf : ∀ s, f' (s.scaled k) = f s) (l : List (PSegment ℝ)) :
    PSegment.update uid f' (l.map (PSegment.scaled k)) =
      mapOk (List.map (PSegment.scaled k)) (PSegment.update uid f l) := by
  induction l with
  | nil => rfl
  | cons s l ih =>
    simp only [List.map_cons]
    unfold PSegment.update
    rw [hf, ih]
    have e : (s.scaled k).uid = s.uid := rfl
    rw [e]
    split_ifs
    · cases f s <;> rfl
    · cases PSegment.update uid f l <;> rfl

theorem rowLengths_scaled {d d' : String → ℝ → ℝ → ℝ → ℝ → Option ℝ}
    (hd : ∀ u a b c e, d' u a b c e = (d u a b c e).map (k * ·)) (rows : List (SegRow ℝ)) :
    ∀ l, rowLengths d' (k * l) rows =
      mapOk (List.map fun p => (k * p.1, k * p.2)) (rowLengths d l rows) := by
  induction rows with
  | nil => intro l; rfl
  | cons r rows ih =>
    intro l
    unfold rowLengths
    rw [hd]
    cases d r.uid r.etaI r.xsiI r.etaO r.xsiO with
    | none => rfl
    | some x =>
      simp only [Option.map_some]
      rw [← mul_add, ih]
      cases rowLengths d (l + x) rows <;> rfl

theorem adjustRows_scaled {d d' : String → ℝ → ℝ → ℝ → ℝ → Option ℝ}
    (hd : ∀ u a b c e, d' u a b c e = (d u a b c e).map (k * ·)) (c : PControl ℝ) (h1 h2 : ℝ)
    (rows : List (SegRow ℝ)) : adjustRows d' c h1 h2 rows = adjustRows d c h1 h2 rows := by
  unfold adjustRows
  split_ifs
  · have := rowLengths_scaled hk hd rows 0
    rw [mul_zero] at this
    rw [this]
    cases rowLengths d 0 rows with
    | error e => rfl
    | ok ls =>
      simp only [mapOk, Except.ok.injEq]
      rw [List.getLast?_map, List.zipWith_map_right]
      have e : ((ls.getLast?.map fun p => (k * p.1, k * p.2)).map Prod.snd).getD 0 =
          k * (ls.getLast?.map Prod.snd).getD 0 := by
        cases ls.getLast? <;> simp
      rw [e]
      simp only [linInterpol, mul_div_mul_left _ _ hk.ne']
  · rfl

theorem applyRows_scaled (c : Control) (rows : List (SegRow ℝ)) : ∀ l : List (PSegment ℝ),
    applyRows c rows (l.map (PSegment.scaled k)) =
      mapOk (List.map (PSegment.scaled k)) (applyRows c rows l) := by
  induction rows with
  | nil => intro l; rfl
  | cons r rows ih =>
    intro l
    unfold applyRows
    rw [update_scaled hk r.uid (f := fun s => asExcept
        (addSubdivisionForControl s.interp r.etaI r.etaO c r.xsiI r.xsiO (some r.hI) (some r.hO)
          s.strips)) (fun s => rfl)]
    cases PSegment.update r.uid (fun s => asExcept
        (addSubdivisionForControl s.interp r.etaI r.etaO c r.xsiI r.xsiO (some r.hI) (some r.hO)
          s.strips)) l with
    | error e => rfl
    | ok l' => exact ih l'

theorem placeControl_scaled (c : PControl ℝ) (l : List (PSegment ℝ)) :
    placeControl c (l.map (PSegment.scaled k)) =
      mapOk (List.map (PSegment.scaled k)) (placeControl c l) := by
  unfold placeControl
  split_ifs
  · exact update_scaled hk c.segInner (f := fun s => asExcept
      (addSubdivisionForControl s.interp c.etaInner c.etaOuter c.control c.xsiInner c.xsiOuter
        c.hInner c.hOuter s.strips)) (fun s => rfl) l
  · cases c.hInner with
    | none => rfl
    | some h1 =>
      cases c.hOuter with
      | none => rfl
      | some h2 =>
        simp only
        have e : (l.map (PSegment.scaled k)).map PSegment.uid = l.map PSegment.uid := by
          rw [List.map_map]
          rfl
        rw [e, adjustRows_scaled hk (d := segDist l) (by
          intro u a b x y
          unfold segDist
          rw [List.find?_map, Option.map_map, Option.map_map]
          rfl)]
        cases adjustRows (segDist l) c h1 h2 (collectRows c h1 h2 ((c.xsiInner + c.xsiOuter) / 2)
            ((h1 + h2) / 2) false (l.map PSegment.uid)) with
        | error e => rfl
        | ok rows => exact applyRows_scaled hk c.control rows l

theorem placeControls_scaled (cs : List (PControl ℝ)) : ∀ l : List (PSegment ℝ),
    placeControls cs (l.map (PSegment.scaled k)) =
      mapOk (List.map (PSegment.scaled k)) (placeControls cs l) := by
  induction cs with
  | nil => intro l; rfl
  | cons c cs ih =>
    intro l
    unfold placeControls
    rw [placeControl_scaled hk]
    cases placeControl c l with
    | error e => rfl
    | ok l' => exact ih l'

theorem addSpanLines_scaled (s : PSegment ℝ) :
    (s.scaled k).addSpanLines = mapOk (PSegment.scaled k) s.addSpanLines := by
  obtain ⟨uid, span, numS, numC, interp, dist, strips⟩ := s
  unfold PSegment.addSpanLines PSegment.scaled
  cases numS with
  | none => rfl
  | some n =>
    simp only
    split_ifs
    · rfl
    · cases addLines interp (spanLines n.toNat) strips <;> rfl

theorem prePanelling_scaled (ac : PAircraft ℝ) :
    prePanelling (ac.scaled k) = mapOk (PAircraft.scaled k) (prePanelling ac) := by
  unfold prePanelling
  have e1 : mapE (fun w : PWing ℝ => w.mapSegments (placeControls w.controls)) (ac.scaled k).wings =
      mapOk (List.map (PWing.scaled k))
        (mapE (fun w : PWing ℝ => w.mapSegments (placeControls w.controls)) ac.wings) := by
    refine mapE_comm (fun w => ?_) ac.wings
    unfold PWing.mapSegments
    have : placeControls (w.scaled k).controls (w.scaled k).segments =
        mapOk (List.map (PSegment.scaled k)) (placeControls w.controls w.segments) :=
      placeControls_scaled hk _ _
    rw [this]
    cases placeControls w.controls w.segments <;> rfl
  rw [e1]
  cases mapE (fun w : PWing ℝ => w.mapSegments (placeControls w.controls)) ac.wings with
  | error e => rfl
  | ok ws =>
    simp only [mapOk]
    have e2 : mapE (fun w : PWing ℝ => w.mapSegments (mapE PSegment.addSpanLines))
        (ws.map (PWing.scaled k)) = mapOk (List.map (PWing.scaled k))
        (mapE (fun w : PWing ℝ => w.mapSegments (mapE PSegment.addSpanLines)) ws) := by
      refine mapE_comm (fun w => ?_) ws
      unfold PWing.mapSegments
      have : mapE PSegment.addSpanLines (w.scaled k).segments =
          mapOk (List.map (PSegment.scaled k)) (mapE PSegment.addSpanLines w.segments) :=
        mapE_comm (fun s => addSpanLines_scaled hk s) w.segments
      rw [this]
      cases mapE PSegment.addSpanLines w.segments <;> rfl
    rw [e2]
    cases mapE (fun w : PWing ℝ => w.mapSegments (mapE PSegment.addSpanLines)) ws <;> rfl

theorem Panelled.scaled {env : RunEnv} {ac ac' : PAircraft ℝ} (h : Panelled env ac ac') :
    Panelled env (ac.scaled k) (ac'.scaled k) := by
  obtain ⟨ac1, h1, h2⟩ := h
  exact ⟨ac1.scaled k, by rw [setAutopanels_scaled hk, h1]; rfl, by
    rw [prePanelling_scaled hk, h2]; rfl⟩

theorem PAircraft.scaled_inv (ac : PAircraft ℝ) : (ac.scaled k).scaled k⁻¹ = ac := by
  have h1 : ∀ s : PSegment ℝ, (s.scaled k).scaled k⁻¹ = s := by
    rintro ⟨uid, span, numS, numC, interp, dist, strips⟩
    unfold PSegment.scaled
    simp only [inv_mul_cancel_left₀ hk.ne']
  have h2 : ∀ w : PWing ℝ, (w.scaled k).scaled k⁻¹ = w := by
    rintro ⟨uid, sym, segs, ctrls⟩
    unfold PWing.scaled
    simp only [List.map_map, Function.comp_def, h1, List.map_id']
  obtain ⟨ws⟩ := ac
  unfold PAircraft.scaled
  simp only [List.map_map, Function.comp_def, h2, List.map_id']

end

/-! ## Lattice -/

theorem segPoint_scaled (k : ℝ) (v : Corners (V3 ℝ)) (e x : ℝ) :
    segPoint (v.scaled k) e x = k • segPoint v e x := by
  unfold segPoint Corners.scaled
  ext <;> vsimp <;> ring

/-- The relative chordwise position of an intersection does not depend on the size of the segment, so
neither does the panelling. -/
theorem xsiInterpol_scaled {k : ℝ} (hk : 0 < k) (v : Corners (V3 ℝ)) :
    xsiInterpol (v.scaled k) = xsiInterpol v := by
  funext a b e
  unfold xsiInterpol planeLineIntersect
  simp only [segPoint_scaled]
  have h3 : (v.scaled k).b - (v.scaled k).a = k • (v.b - v.a) := by
    unfold Corners.scaled
    ext <;> vsimp <;> ring
  have h4 : (v.scaled k).d - (v.scaled k).a = k • (v.d - v.a) := by
    unfold Corners.scaled
    ext <;> vsimp <;> ring
  rw [h3, h4]
  generalize v.b - v.a = ab
  generalize v.d - v.a = ad
  generalize segPoint v a.1 a.2 = p
  generalize segPoint v b.1 b.2 = q
  generalize segPoint v e 0 = u
  generalize segPoint v e 1 = w
  have h1 : ∀ p q : V3 ℝ, k • p - k • q = k • (p - q) := by
    intro p q
    ext <;> vsimp <;> ring
  have h5 : ((k • ab).cross (k • ad)).cross (k • w - k • u) =
      k ^ 3 • (ab.cross ad).cross (w - u) := by
    ext <;> vsimp <;> ring
  rw [h5]
  generalize (ab.cross ad).cross (w - u) = m
  have h6 : (k ^ 3 • m).dot (k • u - k • p) / (k ^ 3 • m).dot (k • p - k • q) =
      m.dot (u - p) / m.dot (p - q) := by
    have e1 : (k ^ 3 • m).dot (k • u - k • p) = k ^ 4 * m.dot (u - p) := by vsimp; ring
    have e2 : (k ^ 3 • m).dot (k • p - k • q) = k ^ 4 * m.dot (p - q) := by vsimp; ring
    rw [e1, e2, mul_div_mul_left _ _ (pow_ne_zero 4 hk.ne')]
  rw [h6]
  generalize m.dot (u - p) / m.dot (p - q) = t
  have h7 : k • p + t • (k • p - k • q) - k • u = k • (p + t • (p - q) - u) := by
    ext <;> vsimp <;> ring
  rw [h7, h1, norm_smul, norm_smul, mul_div_mul_left _ _ (abs_ne_zero.2 hk.ne')]

theorem mirrorPoint_scaled (k : ℝ) (sym : ℕ) (p : V3 ℝ) :
    mirrorPoint (k • p) sym = mapOk (k • ·) (mirrorPoint p sym) := by
  unfold mirrorPoint
  split_ifs
  · simp only [mapOk, Except.ok.injEq]
    ext <;> simp
  · simp only [mapOk, Except.ok.injEq]
    ext <;> simp
  · simp only [mapOk, Except.ok.injEq]
    ext <;> simp
  · rfl

theorem orderMirrored_scaled (k : ℝ) (v : Corners (V3 ℝ)) (sym : ℕ) :
    orderMirrored (v.scaled k) sym = mapOk (Corners.scaled k) (orderMirrored v sym) := by
  unfold orderMirrored
  split_ifs <;> rfl

theorem mapE_scaled {P : Type*} (k : ℝ) {f f' : P → Except PyErr (V3 ℝ)}
    (h : ∀ p, f' p = mapOk (k • ·) (f p)) (v : Corners P) :
    v.mapE f' = mapOk (Corners.scaled k) (v.mapE f) := by
  unfold Corners.mapE
  rw [h, h, h, h]
  cases f v.a <;> cases f v.b <;> cases f v.c <;> cases f v.d <;> rfl

section
variable {k : ℝ} (hk : 0 < k)
include hk

theorem V3.inv_smul_smul (p : V3 ℝ) : k⁻¹ • k • p = p := by
  ext <;> simp only [smul_x, smul_y, smul_z] <;> exact inv_mul_cancel_left₀ hk.ne' _

theorem deformedPoint_scaled (g : GeoEnv ℝ) (e x : ℝ) (m : Bool) :
    (g.scaled k).deformedPoint e x m = mapOk (k • ·) (g.deformedPoint e x m) := by
  unfold GeoEnv.deformedPoint
  have e1 : segPoint (g.scaled k).vertices e x = k • segPoint g.vertices e x := segPoint_scaled _ _ _ _
  have e2 : (g.scaled k).symmetry = g.symmetry := rfl
  simp only [e1, e2, mirrorPoint_scaled]
  generalize segPoint g.vertices e x = p
  cases m with
  | false =>
    simp only [Bool.false_eq_true, if_false]
    have e3 : (g.scaled k).defField = g.defField.map fun f p => k • f (k⁻¹ • p) := rfl
    rw [e3]
    cases g.defField with
    | none => rfl
    | some f => simp only [Option.map_some, mapOk, V3.inv_smul_smul hk]
  | true =>
    simp only [if_true]
    have e3 : (g.scaled k).defFieldMirror = g.defFieldMirror.map fun f p => k • f (k⁻¹ • p) := rfl
    rw [e3]
    cases mirrorPoint p g.symmetry with
    | error e => rfl
    | ok p =>
      simp only [mapOk]
      cases g.defFieldMirror with
      | none => rfl
      | some f => simp only [Option.map_some, V3.inv_smul_smul hk]

theorem absVertices_scaled (g : GeoEnv ℝ) (s : Strip ℝ) (m : Bool) :
    s.absVertices (g.scaled k) m = mapOk (Corners.scaled k) (s.absVertices g m) := by
  unfold Strip.absVertices
  have e1 : (g.scaled k).isDeformed = g.isDeformed := by
    unfold GeoEnv.isDeformed GeoEnv.scaled
    simp
  have e2 : (g.scaled k).symmetry = g.symmetry := rfl
  rw [e1, e2]
  by_cases hd : g.isDeformed = true
  · rw [if_pos hd, if_pos hd, mapE_scaled k (fun p : ℝ × ℝ => deformedPoint_scaled hk g p.1 p.2 m)]
    generalize Corners.mapE _ _ = v
    cases v with
    | error e => rfl
    | ok v =>
      simp only [mapOk]
      cases m with
      | false => rfl
      | true =>
        simp only [if_true]
        rw [orderMirrored_scaled]
        rfl
  · rw [if_neg hd, if_neg hd]
    dsimp only
    have e3 : (⟨(g.scaled k).vertices.a + s.etaA • ((g.scaled k).vertices.b - (g.scaled k).vertices.a),
        (g.scaled k).vertices.a + s.etaB • ((g.scaled k).vertices.b - (g.scaled k).vertices.a),
        (g.scaled k).vertices.d + s.etaC • ((g.scaled k).vertices.c - (g.scaled k).vertices.d),
        (g.scaled k).vertices.d + s.etaD • ((g.scaled k).vertices.c - (g.scaled k).vertices.d)⟩ :
          Corners (V3 ℝ)) = Corners.scaled k
        ⟨g.vertices.a + s.etaA • (g.vertices.b - g.vertices.a),
          g.vertices.a + s.etaB • (g.vertices.b - g.vertices.a),
          g.vertices.d + s.etaC • (g.vertices.c - g.vertices.d),
          g.vertices.d + s.etaD • (g.vertices.c - g.vertices.d)⟩ := by
      unfold GeoEnv.scaled Corners.scaled
      ext <;> vsimp <;> ring
    rw [e3]
    generalize (⟨g.vertices.a + s.etaA • (g.vertices.b - g.vertices.a),
          g.vertices.a + s.etaB • (g.vertices.b - g.vertices.a),
          g.vertices.d + s.etaC • (g.vertices.c - g.vertices.d),
          g.vertices.d + s.etaD • (g.vertices.c - g.vertices.d)⟩ : Corners (V3 ℝ)) = w
    cases m with
    | false => rfl
    | true =>
      simp only [if_true]
      unfold mirrorVertices
      have e4 : (w.scaled k).mapE (mirrorPoint · g.symmetry) =
          mapOk (Corners.scaled k) (w.mapE (mirrorPoint · g.symmetry)) := by
        rw [← mapE_scaled k (f' := fun p => mirrorPoint (k • p) g.symmetry)
          (fun p => mirrorPoint_scaled k _ p)]
        rfl
      rw [e4]
      cases w.mapE (mirrorPoint · g.symmetry) with
      | error e => rfl
      | ok v =>
        simp only [mapOk]
        rw [orderMirrored_scaled]
        rfl

theorem subareaVertices_scaled (g : GeoEnv ℝ) (s : Strip ℝ) (q : Quad ℝ) (m : Bool) :
    subareaVertices (g.scaled k) s q m = mapOk (Corners.scaled k) (subareaVertices g s q m) := by
  unfold subareaVertices
  rw [absVertices_scaled hk]
  have e2 : (g.scaled k).symmetry = g.symmetry := rfl
  rw [e2]
  cases s.absVertices g m with
  | error e => rfl
  | ok sd =>
    simp only [mapOk]
    generalize (if m = true then orderMirrored ⟨q.xsiA, q.xsiB, q.xsiC, q.xsiD⟩ g.symmetry
      else .ok ⟨q.xsiA, q.xsiB, q.xsiC, q.xsiD⟩ : Except PyErr (Corners ℝ)) = x
    cases x with
    | error e => rfl
    | ok x =>
      simp only [Except.ok.injEq]
      unfold Corners.scaled
      ext <;> vsimp <;> ring

theorem hingeAxis_scaled (g : GeoEnv ℝ) (s : Strip ℝ) (h1 h2 : ℝ) (m : Bool) :
    hingeAxis (g.scaled k) s h1 h2 m = mapOk (k • ·) (hingeAxis g s h1 h2 m) := by
  unfold hingeAxis hingeVertices
  rw [absVertices_scaled hk]
  have e2 : (g.scaled k).symmetry = g.symmetry := rfl
  rw [e2]
  cases s.absVertices g m with
  | error e => rfl
  | ok sd =>
    simp only [mapOk, Except.ok.injEq]
    unfold Corners.scaled
    ext <;> vsimp <;> ring

theorem camberAxis_scaled (v : Corners (V3 ℝ)) : camberAxis (v.scaled k) = camberAxis v := by
  rw [camberAxis_eq, camberAxis_eq, ← unit_smul (pow_pos hk 3) (((v.b - v.a).cross (v.d - v.a)).cross (v.d - v.a))]
  congr 1
  unfold Corners.scaled
  ext <;> vsimp <;> ring

theorem rotate_axis_scaled (axis v : V3 ℝ) (t : ℝ) : rotate (k • axis) t v = rotate axis t v := by
  have hn : (k • axis).norm = 0 ↔ axis.norm = 0 := by
    rw [norm_smul, abs_of_pos hk]
    simp [hk.ne']
  by_cases h : axis.norm = 0
  · unfold rotate
    rw [if_pos h, if_pos (hn.2 h)]
  · rw [rotate_ne h, rotate_ne (fun e => h (hn.1 e)), unit_smul hk]

end

/-- Points of a panel `k` times as large. -/
def PanelPts.scaled (k : ℝ) (g : PanelPts ℝ) : PanelPts ℝ :=
  ⟨k • g.p, k • g.q, k • g.r, k • g.s, k • g.v1, k • g.v2, k • g.v3, k • g.v4, k • g.col, k • g.mid⟩

/-- The panel `k` times as large, as read by the solver. -/
def Panel.scaled (k : ℝ) (g : Panel) : Panel :=
  ⟨k • g.v1, k • g.v2, k • g.v3, k • g.v4, k • g.col, k • g.mid, g.n, k ^ 2 * g.area⟩

theorem panelPts_scaled (k : ℝ) (pts : Corners (V3 ℝ)) (leg : V3 ℝ) (nS nC : ℤ) (i j : ℕ) :
    panelPts (Coef.of (pts.scaled k)) (k • leg) nS nC i j =
      (panelPts (Coef.of pts) leg nS nC i j).scaled k := by
  have hat : ∀ a b : ℝ, (Coef.of (pts.scaled k)).at a b = k • (Coef.of pts).at a b := by
    intro a b
    unfold Coef.at Coef.of Corners.scaled
    ext <;> vsimp <;> ring
  unfold panelPts PanelPts.scaled
  simp only [hat]
  generalize (Coef.of pts).at _ _ = p1
  generalize (Coef.of pts).at _ _ = p2
  generalize (Coef.of pts).at _ _ = p3
  generalize (Coef.of pts).at _ _ = p4
  ext <;> vsimp <;> ring

theorem crossVec_scaled (k : ℝ) (g : PanelPts ℝ) : (g.scaled k).crossVec = k ^ 2 • g.crossVec := by
  unfold PanelPts.crossVec PanelPts.scaled
  ext <;> vsimp <;> ring

theorem finNormal_scaled {k : ℝ} (hk : 0 < k) (g : PanelPts ℝ) :
    (g.scaled k).finNormal = g.finNormal := by
  unfold PanelPts.finNormal PanelPts.normal
  have e : (1 / g.crossVec.norm) • g.crossVec = unit g.crossVec := rfl
  have e' : (1 / (k ^ 2 • g.crossVec).norm) • k ^ 2 • g.crossVec = unit (k ^ 2 • g.crossVec) := rfl
  rw [crossVec_scaled, e, e', unit_smul (pow_pos hk 2), norm_smul, abs_of_pos (pow_pos hk 2)]
  simp [hk.ne']

theorem area_scaled {k : ℝ} (hk : 0 < k) (g : PanelPts ℝ) : (g.scaled k).area = k ^ 2 * g.area := by
  have hs : (g.scaled k).spanVec = k • g.spanVec := by
    unfold PanelPts.spanVec PanelPts.scaled
    ext <;> vsimp <;> ring
  have hch : (g.scaled k).chordVec = k • g.chordVec := by
    unfold PanelPts.chordVec PanelPts.scaled
    ext <;> vsimp <;> ring
  unfold PanelPts.area
  rw [hs, hch, norm_smul, norm_smul, abs_of_pos hk]
  ring

theorem latticeFrom_scaled (k : ℝ) (leg : V3 ℝ) (l : List (SubInput ℝ)) (hl : ∀ u ∈ l, u.sym = 0) :
    ∀ start : ℤ, latticeFrom (k • leg) start (l.map fun u => { u with pts := u.pts.scaled k }) =
      (latticeFrom leg start l).map fun kp => (kp.1, kp.2.scaled k) := by
  induction l with
  | nil => intro start; rfl
  | cons u l ih =>
    intro start
    have hu := hl u (by simp)
    simp only [List.map_cons]
    unfold latticeFrom
    simp only [hu, gt_iff_lt, lt_irrefl, if_false]
    rw [List.map_append, ih fun u hu => hl u (List.mem_cons_of_mem _ hu)]
    congr 1
    unfold passPanels
    rw [List.map_flatMap]
    congr 1
    funext i
    rw [List.map_map]
    congr 1
    funext j
    simp only [Function.comp, panelPts_scaled]

/-- What the larger aircraft's lattice entries refer to. -/
noncomputable def EntryParts.scaled (k : ℝ) (p : EntryParts) : EntryParts :=
  { p with wing := p.wing.scaled k, geo := p.geo.scaled k }

theorem entryParts_scaled (k : ℝ) (env : LatticeEnv) (ac : PAircraft ℝ) (e : BookEntry) :
    entryParts (env.scaled k) (ac.scaled k) e = (entryParts env ac e).map (EntryParts.scaled k) := by
  unfold entryParts PAircraft.scaled
  rw [List.getElem?_map]
  cases ac.wings[e.path.wing]? with
  | none => rfl
  | some w =>
    simp only [Option.map_some]
    unfold PWing.scaled
    simp only [List.getElem?_map]
    cases w.segments[e.path.seg]? with
    | none => rfl
    | some s =>
      simp only [Option.map_some]
      have : (s.scaled k).strips = s.strips := rfl
      rw [this]
      cases s.strips[e.path.strip]? with
      | none => rfl
      | some d =>
        simp only
        cases d.subareas[e.path.sub]? <;> rfl

theorem enum_map {α β : Type*} (f : α → β) (l : List α) :
    ∀ n, enumFrom' n (l.map f) = (enumFrom' n l).map fun p => (p.1, f p.2) := by
  induction l with
  | nil => intro n; rfl
  | cons a l ih => intro n; simp only [List.map_cons, enumFrom', ih]

theorem nested_map {α β α' β' : Type*} {f : α → List β} {f' : α' → List β'} {g : α → α'}
    {h : β → β'} (hf : ∀ a, f' (g a) = (f a).map h) (l : List α) :
    nested f' (l.map g) = (nested f l).map fun p => (h p.1, g p.2) := by
  induction l with
  | nil => rfl
  | cons a l ih =>
    simp only [List.map_cons, nested, hf, ih, List.map_append, List.map_map]
    rfl

theorem genBook_scaled (k : ℝ) (ac : PAircraft ℝ) : genBook (ac.scaled k) = genBook ac := by
  have h1 : allWings (ac.scaled k) = (allWings ac).map fun p => (p.1, p.2.scaled k) :=
    enum_map _ _ _
  have h2 : allSegments (ac.scaled k) = (allSegments ac).map
      fun p => ((p.1.1, p.1.2.scaled k), (p.2.1, p.2.2.scaled k)) := by
    unfold allSegments
    rw [h1]
    exact nested_map (f := fun w : ℕ × PWing ℝ => enumFrom' 0 w.2.segments)
      (f' := fun w : ℕ × PWing ℝ => enumFrom' 0 w.2.segments)
      (h := fun p : ℕ × PSegment ℝ => (p.1, p.2.scaled k))
      (fun a => enum_map (PSegment.scaled k) a.2.segments 0) _
  have h3 : allSubdivisions (ac.scaled k) = (allSubdivisions ac).map
      fun p => (p.1, ((p.2.1.1, p.2.1.2.scaled k), (p.2.2.1, p.2.2.2.scaled k))) := by
    unfold allSubdivisions
    rw [h2]
    exact nested_map (f := fun s : (ℕ × PSegment ℝ) × (ℕ × PWing ℝ) => enumFrom' 0 s.1.2.strips)
      (f' := fun s : (ℕ × PSegment ℝ) × (ℕ × PWing ℝ) => enumFrom' 0 s.1.2.strips)
      (h := fun p => p) (fun a => by simp only [List.map_id']; rfl) _
  have h4 : allSubareas (ac.scaled k) = (allSubareas ac).map
      fun p => (p.1, (p.2.1, ((p.2.2.1.1, p.2.2.1.2.scaled k), (p.2.2.2.1, p.2.2.2.2.scaled k)))) := by
    unfold allSubareas
    rw [h3]
    exact nested_map
      (f := fun s : (ℕ × Strip ℝ) × (ℕ × PSegment ℝ) × (ℕ × PWing ℝ) => enumFrom' 0 s.1.2.subareas)
      (f' := fun s : (ℕ × Strip ℝ) × (ℕ × PSegment ℝ) × (ℕ × PWing ℝ) => enumFrom' 0 s.1.2.subareas)
      (h := fun p => p) (fun a => by simp only [List.map_id']) _
  unfold genBook
  rw [h4]
  generalize Book.empty = b
  induction allSubareas ac generalizing b with
  | nil => rfl
  | cons t l ih =>
    simp only [List.map_cons]
    unfold countFrom
    have : countStep b (t.1, (t.2.1, ((t.2.2.1.1, t.2.2.1.2.scaled k),
        (t.2.2.2.1, t.2.2.2.2.scaled k)))) = countStep b t := rfl
    rw [this]
    cases countStep b t with
    | error e => rfl
    | ok b' => exact ih b'

section
variable {k : ℝ} (hk : 0 < k)
include hk

theorem mapE_corners_scaled (env : LatticeEnv) (ac : PAircraft ℝ) (es : List BookEntry) :
    mapE (entryCorners (env.scaled k) (ac.scaled k)) es =
      mapOk (List.map (Corners.scaled k)) (mapE (entryCorners env ac) es) := by
  have h1 : ∀ e, entryCorners (env.scaled k) (ac.scaled k) e =
      mapOk (Corners.scaled k) (entryCorners env ac e) := by
    intro e
    unfold entryCorners
    rw [entryParts_scaled]
    cases entryParts env ac e with
    | none => rfl
    | some p => exact subareaVertices_scaled hk _ _ _ _
  have := mapE_comm (g := fun e => e) h1 es
  rwa [List.map_id'] at this

theorem rotateEntry_scaled (env : LatticeEnv) (ac : PAircraft ℝ) (e : BookEntry)
    (n : ℤ → Option (V3 ℝ)) :
    rotateEntry (env.scaled k) (ac.scaled k) e n = rotateEntry env ac e n := by
  unfold rotateEntry
  rw [entryParts_scaled]
  cases entryParts env ac e with
  | none => rfl
  | some p =>
    simp only [Option.map_some]
    have e1 : hingeRotation (env.scaled k) (p.scaled k) e.mirror =
        mapOk (Option.map fun r => (k • r.1, r.2)) (hingeRotation env p e.mirror) := by
      unfold hingeRotation EntryParts.scaled LatticeEnv.scaled PWing.scaled
      simp only [hingeAxis_scaled hk]
      cases p.sub.ctrl with
      | none => rfl
      | some c =>
        simp only
        cases p.strip.hinge p.sub.type with
        | none => rfl
        | some h =>
          simp only
          cases hingeAxis p.geo p.strip h.1 h.2 e.mirror with
          | error x => rfl
          | ok axis =>
            simp only [mapOk]
            cases sideDeflection (env.deflection p.wing.uid c.uid) e.mirror with
            | none => rfl
            | some d =>
              simp only [Except.ok.injEq]
              split_ifs <;> rfl
    have e2 : subareaVertices (p.scaled k).geo (p.scaled k).strip (p.scaled k).sub.quad e.mirror =
        mapOk (Corners.scaled k) (subareaVertices p.geo p.strip p.sub.quad e.mirror) :=
      subareaVertices_scaled hk _ _ _ _
    rw [e1, e2]
    cases hingeRotation env p e.mirror with
    | error x => rfl
    | ok r =>
      cases subareaVertices p.geo p.strip p.sub.quad e.mirror with
      | error x => rfl
      | ok v =>
        simp only [mapOk]
        have e3 : ∀ v : Option (V3 ℝ), applyRotation (r.map fun r => (k • r.1, r.2)) v =
            applyRotation r v := by
          intro v
          cases r with
          | none => rfl
          | some r =>
            unfold applyRotation
            simp only [Option.map_some]
            cases v with
            | none => rfl
            | some v => exact rotate_axis_scaled hk _ _ _
        have e4 : ∀ a b, camberRotation (p.scaled k) (v.scaled k) a b = camberRotation p v a b := by
          intro a b
          unfold camberRotation
          simp only [camberAxis_scaled hk]
          rfl
        simp only [e3, e4]

theorem rotateAll_scaled (env : LatticeEnv) (ac : PAircraft ℝ) (es : List BookEntry) :
    ∀ n, rotateAll (env.scaled k) (ac.scaled k) es n = rotateAll env ac es n := by
  induction es with
  | nil => intro n; rfl
  | cons e es ih =>
    intro n
    unfold rotateAll
    rw [rotateEntry_scaled hk]
    cases rotateEntry env ac e n with
    | error x => rfl
    | ok n' => exact ih n'

/-- The lattice of the larger aircraft: its trailing legs are not larger. -/
theorem genLattice_scaled {env : LatticeEnv} {doRot : Bool} {alpha beta : ℝ} {ac : PAircraft ℝ}
    {l : LatticeData} (hl : genLattice env doRot alpha beta ac = .ok l) :
    genLattice (env.scaled k) doRot alpha beta (ac.scaled k) = .ok { l with
      pts := fun i => (l.pts i).map fun g =>
        (g.withLeg (k⁻¹ • trailLeg alpha beta)).scaled k } := by
  obtain ⟨cs, k1, k2, k3, k4, k5, k6⟩ := genLattice_ok hl
  have hin : l.book.inputsOf (cs.map (Corners.scaled k)) =
      (l.book.inputsOf cs).map fun u => { u with pts := u.pts.scaled k } := by
    unfold Book.inputsOf
    rw [List.zipWith_map_left, List.map_zipWith]
  have hsym : ∀ u ∈ l.book.inputsOf cs, u.sym = 0 := by
    intro u hu
    unfold Book.inputsOf at hu
    rw [← List.map_uncurry_zip_eq_zipWith] at hu
    obtain ⟨x, -, rfl⟩ := List.mem_map.1 hu
    rfl
  have hpts : ∀ i, lastPanel (vlmLattice (trailLeg alpha beta)
      (l.book.inputsOf (cs.map (Corners.scaled k)))) i = (l.pts i).map fun g =>
        (g.withLeg (k⁻¹ • trailLeg alpha beta)).scaled k := by
    intro i
    have e : trailLeg alpha beta = k • k⁻¹ • trailLeg alpha beta := by
      ext <;> simp only [smul_x, smul_y, smul_z] <;> exact (mul_inv_cancel_left₀ hk.ne' _).symm
    rw [k4, hin]
    unfold vlmLattice
    conv_lhs => rw [e]
    rw [latticeFrom_scaled k _ _ hsym, lastPanel_map,
      latticeFrom_leg (trailLeg alpha beta) (k⁻¹ • trailLeg alpha beta), lastPanel_leg, Option.map_map]
    rfl
  have hn0 : (fun i => (lastPanel (vlmLattice (trailLeg alpha beta)
      (l.book.inputsOf (cs.map (Corners.scaled k)))) i).bind PanelPts.finNormal) =
      fun i => (l.pts i).bind PanelPts.finNormal := by
    funext i
    rw [hpts]
    cases l.pts i with
    | none => rfl
    | some g =>
      simp only [Option.map_some, Option.bind_some, finNormal_scaled hk]
      rfl
  have := genLattice_build (env := env.scaled k) (doRot := doRot) (alpha := alpha) (beta := beta)
    (cs := cs.map (Corners.scaled k)) (n := l.normal) ((genBook_scaled k ac).trans k1)
    (by rw [mapE_corners_scaled hk, k2]; rfl) k3 (by
      rw [hn0, rotateAll_scaled hk]
      cases doRot with
      | false => exact k5 rfl
      | true => exact k6 rfl)
  rw [this]
  congr 2
  funext i
  exact hpts i

theorem panel_scaled {l : LatticeData} {leg : V3 ℝ} {i : ℕ} {g : Panel} (h : l.panel i = some g) :
    LatticeData.panel { l with pts := fun i => (l.pts i).map fun g => (g.withLeg leg).scaled k } i =
      some ((g.withLeg leg).scaled k) := by
  obtain ⟨q, n, h1, h2, rfl⟩ := panelAt_some h
  unfold LatticeData.panel LatticeData.panelAt
  simp only [h1, h2, Option.map_some]
  unfold PanelPts.toPanel Panel.withLeg Panel.scaled
  simp only [area_scaled hk]
  rfl

theorem LatticeEnv.scaled_inv (env : LatticeEnv) : (env.scaled k).scaled k⁻¹ = env := by
  have h0 := V3.inv_smul_smul hk
  have h1 : ∀ v : Corners (V3 ℝ), (v.scaled k).scaled k⁻¹ = v := by
    intro v
    unfold Corners.scaled
    simp only [h0]
  have h2 : ∀ f : Option (DefField ℝ), ((f.map fun f p => k • f (k⁻¹ • p)).map
      fun (f : DefField ℝ) p => k⁻¹ • f (k⁻¹⁻¹ • p)) = f := by
    intro f
    cases f with
    | none => rfl
    | some f =>
      simp only [Option.map_some, inv_inv, h0]
  have h3 : ∀ g : GeoEnv ℝ, (g.scaled k).scaled k⁻¹ = g := by
    rintro ⟨v, s, f, f'⟩
    unfold GeoEnv.scaled
    simp only [h1, h2]
  obtain ⟨geo, d, c⟩ := env
  unfold LatticeEnv.scaled
  simp only [h3]

end

/-! ## Solver -/

section
variable {k : ℝ} (hk : 0 < k)
include hk

theorem kernelDen_scaled (eps : ℝ) (r1 r2 : V3 ℝ) :
    kernelDen eps (k • r1) (k • r2) = k ^ 2 * kernelDen eps r1 r2 := by
  unfold kernelDen
  rw [norm_smul, norm_smul, abs_of_pos hk]
  have : (k • r1).dot (k • r2) = k ^ 2 * r1.dot r2 := by vsimp; ring
  rw [this]
  ring

theorem V3.smul_sub_smul (x a : V3 ℝ) : k • x - k • a = k • (x - a) := by
  ext <;> vsimp <;> ring

theorem kernel_scaled (eps : ℝ) (x a b : V3 ℝ) :
    kernel eps (k • x) (k • a) (k • b) = k⁻¹ • kernel eps x a b := by
  unfold kernel
  simp only [V3.smul_sub_smul hk, kernelDen_scaled hk, norm_smul, abs_of_pos hk]
  generalize kernelDen eps (x - a) (x - b) = d
  have hc : (k • (x - a)).cross (k • (x - b)) = k ^ 2 • (x - a).cross (x - b) := by
    ext <;> vsimp <;> ring
  rw [hc]
  generalize (x - a).cross (x - b) = w
  generalize (x - a).norm = n1
  generalize (x - b).norm = n2
  have e : 1 / (4 * Real.pi) * (1 / (k ^ 2 * d)) * (1 / (k * n1) + 1 / (k * n2)) * k ^ 2 =
      k⁻¹ * (1 / (4 * Real.pi) * (1 / d) * (1 / n1 + 1 / n2)) := by
    have h1 : 1 / (k * n1) + 1 / (k * n2) = k⁻¹ * (1 / n1 + 1 / n2) := by
      rw [one_div, one_div, mul_inv, mul_inv, one_div, one_div]
      ring
    have h2 : 1 / (k ^ 2 * d) = (k ^ 2)⁻¹ * (1 / d) := by
      rw [one_div, mul_inv, one_div]
    rw [h1, h2]
    have h3 : (k ^ 2)⁻¹ * k ^ 2 = 1 := inv_mul_cancel₀ (pow_ne_zero 2 hk.ne')
    linear_combination (1 / (4 * Real.pi) * (1 / d) * (k⁻¹ * (1 / n1 + 1 / n2))) * h3
  ext <;> simp only [smul_x, smul_y, smul_z] <;> rw [← mul_assoc, e] <;> ring

theorem kernelOk_scaled (eps : ℝ) (x a b : V3 ℝ) :
    KernelOk eps (k • x) (k • a) (k • b) ↔ KernelOk eps x a b := by
  unfold KernelOk
  simp only [V3.smul_sub_smul hk, kernelDen_scaled hk, norm_smul, abs_of_pos hk]
  simp [hk.ne']

theorem horseshoe_scaled (eps : ℝ) (x : V3 ℝ) (g : Panel) :
    horseshoe eps (k • x) (g.scaled k) = k⁻¹ • horseshoe eps x g := by
  rw [horseshoe_eq, horseshoe_eq]
  unfold Panel.scaled
  simp only [kernel_scaled hk]
  ext <;> vsimp <;> ring

theorem horseshoeOk_scaled (eps : ℝ) (x : V3 ℝ) (g : Panel) :
    HorseshoeOk eps (k • x) (g.scaled k) ↔ HorseshoeOk eps x g := by
  unfold HorseshoeOk Panel.scaled
  simp only [kernelOk_scaled hk]

variable {n : ℕ}

theorem downwash_scaled {eps : ℝ} {P : Fin n → Panel} {A : Matrix (Fin n) (Fin n) ℝ}
    (h : vlmDownwash eps (fun i => (P i).scaled k) = some A) :
    vlmDownwash eps P = some (k • A) := by
  obtain ⟨h1, h2⟩ := vlmDownwash_some h
  unfold vlmDownwash
  rw [if_pos fun i j => (horseshoeOk_scaled hk _ _ _).1 (h1 i j)]
  congr 1
  funext i j
  show _ = k * A i j
  rw [h2]
  have e : horseshoe eps ((P i).scaled k).col ((P j).scaled k) =
      k⁻¹ • horseshoe eps (P i).col (P j) := horseshoe_scaled hk _ _ _
  rw [e]
  have e2 : ((P i).scaled k).n = (P i).n := rfl
  rw [e2]
  generalize horseshoe eps (P i).col (P j) = w
  generalize (P i).n = m
  have : (k⁻¹ • w).dot m = k⁻¹ * w.dot m := by vsimp; ring
  rw [this, mul_inv_cancel_left₀ hk.ne']

theorem velRot_slower (s : FlowState) (x c : V3 ℝ) :
    velRot (s.slower k) (k • x - k • c) = velRot s (x - c) := by
  unfold velRot FlowState.slower
  have := hk.ne'
  ext <;> vsimp <;> field_simp

theorem boundary_scaled (s : FlowState) (c : Refs) (P : Fin n → Panel) :
    vlmBoundary (s.slower k) (c.scaled k) (fun i => (P i).scaled k) = vlmBoundary s c P := by
  funext i
  show (velWind s + velRot (s.slower k) (k • (P i).col - k • c.cg)).dot (P i).n = _
  rw [velRot_slower hk]
  rfl

theorem results_larger {eps : ℝ} {s : FlowState} {c : Refs} {P : Fin n → Panel} {g : Fin n → ℝ}
    {R : Results n}
    (h : vlmResults eps (s.slower k) (c.scaled k) (fun i => (P i).scaled k) g = some R) :
    ∃ R', vlmResults eps s c P (k⁻¹ • g) = some R' ∧ R.ftot = k ^ 2 • R'.ftot ∧
      R.mtot = k ^ 3 • R'.mtot ∧ R.wind = k ^ 2 • R'.wind ∧ R.coeffs = R'.coeffs := by
  obtain ⟨hok, rfl⟩ := vlmResults_some h
  have hok' : ∀ i j, HorseshoeOk eps (P i).mid (P j) := fun i j =>
    (horseshoeOk_scaled hk _ _ _).1 (hok i j)
  have hv : ∀ i, panelVel eps (s.slower k) (c.scaled k) (fun i => (P i).scaled k) g i =
      panelVel eps s c P (k⁻¹ • g) i := by
    intro i
    show inwash eps _ g (k • (P i).mid) - (velWind s +
      velRot (s.slower k) (k • (P i).mid - k • c.cg)) = _
    rw [velRot_slower hk, inwash_eq]
    unfold panelVel
    rw [inwash_eq]
    congr 1
    refine Finset.sum_congr rfl fun j _ => ?_
    rw [horseshoe_scaled hk]
    show g j • k⁻¹ • _ = (k⁻¹ * g j) • _
    generalize horseshoe eps (P i).mid (P j) = w
    ext <;> vsimp <;> ring
  have hf : ∀ i, panelForce eps (s.slower k) (c.scaled k) (fun i => (P i).scaled k) g i =
      k ^ 2 • panelForce eps s c P (k⁻¹ • g) i := by
    intro i
    rw [panelForce_eq, panelForce_eq, hv]
    generalize panelVel eps s c P (k⁻¹ • g) i = v
    show (s.rho * g i) • v.cross (k • (P i).v3 - k • (P i).v2) =
      k ^ 2 • (s.rho * (k⁻¹ * g i)) • v.cross ((P i).v3 - (P i).v2)
    have := hk.ne'
    ext <;> vsimp <;> field_simp
  have hm : ∀ i, panelMoment eps (s.slower k) (c.scaled k) (fun i => (P i).scaled k) g i =
      k ^ 3 • panelMoment eps s c P (k⁻¹ • g) i := by
    intro i
    unfold panelMoment
    rw [hf]
    generalize panelForce eps s c P (k⁻¹ • g) i = f
    show (k • (P i).mid - k • c.rp).cross (k ^ 2 • f) = _
    ext <;> vsimp <;> ring
  have hF : ∑ i, panelForce eps (s.slower k) (c.scaled k) (fun i => (P i).scaled k) g i =
      k ^ 2 • ∑ i, panelForce eps s c P (k⁻¹ • g) i := by
    rw [smul_sum']
    exact Finset.sum_congr rfl fun i _ => hf i
  have hM : ∑ i, panelMoment eps (s.slower k) (c.scaled k) (fun i => (P i).scaled k) g i =
      k ^ 3 • ∑ i, panelMoment eps s c P (k⁻¹ • g) i := by
    rw [smul_sum']
    exact Finset.sum_congr rfl fun i _ => hm i
  have hW : ∀ f : V3 ℝ, bodyToWind (s.slower k) (k ^ 2 • f) = k ^ 2 • bodyToWind s f := by
    intro f
    unfold bodyToWind FlowState.slower
    ext <;> vsimp <;> ring
  refine ⟨_, vlmResults_mk hok' _ _ _, hF, hM, ?_, ?_⟩
  · simp only [sumResults]
    rw [hF, hW]
  · simp only [sumResults]
    rw [hF, hM]
    generalize (∑ i, panelForce eps s c P (k⁻¹ • g) i) = F
    generalize (∑ i, panelMoment eps s c P (k⁻¹ • g) i) = M
    have h2 : k ^ 2 ≠ 0 := pow_ne_zero 2 hk.ne'
    have h3 : k ^ 3 ≠ 0 := pow_ne_zero 3 hk.ne'
    have hc : ∀ {m : ℝ} (_ : m ≠ 0) (x y : ℝ), cdiv (m * x) (m * y) = cdiv x y := by
      intro m hm x y
      unfold cdiv
      rw [mul_div_mul_left _ _ hm]
      simp [hm]
    have hq : dynPressure (s.slower k) = dynPressure s := rfl
    unfold vlmCoeffs
    simp only [hq, hW, smul_x, smul_y, smul_z]
    generalize (if dynPressure s = 0 then 1 else dynPressure s) = q
    have e1 : q * (c.scaled k).area = k ^ 2 * (q * c.area) := by
      show q * (k ^ 2 * c.area) = _
      ring
    have e2 : q * (c.scaled k).area * (c.scaled k).span = k ^ 3 * (q * c.area * c.span) := by
      show q * (k ^ 2 * c.area) * (k * c.span) = _
      ring
    have e3 : q * (c.scaled k).area * (c.scaled k).chord = k ^ 3 * (q * c.area * c.chord) := by
      show q * (k ^ 2 * c.area) * (k * c.chord) = _
      ring
    rw [e2, e3, e1]
    simp only [hc h2, hc h3]

end

/-- The analyses of the code are those with trailing legs of length 10000. -/
theorem Analysis.Of.wake {env : RunEnv} {ac : PAircraft ℝ} {st : FlightSt ℝ} {i : ℕ}
    {a : Analysis} (h : a.Of env ac st i) : FlowAt st i a.s ∧ a.WakeOf env ac 10000 := by
  refine ⟨⟨h.airspeed, h.density, h.alpha, h.beta, h.rateP, h.rateQ, h.rateR⟩,
    ⟨h.lattice, h.nonempty, fun j => ⟨a.P j, h.panels j, ?_⟩, h.matrix, h.solved, h.results⟩⟩
  exact (panel_leg h.lattice (h.panels j)).symm

/-- The analysis of the larger aircraft. -/
theorem Analysis.Of.smaller {env : RunEnv} {ac : PAircraft ℝ} {st : FlightSt ℝ} {i : ℕ} {k : ℝ}
    (hk : 0 < k) {a : Analysis} (h : a.Of (env.scaled k) (ac.scaled k) st i) :
    ∃ b : Analysis, FlowAt st i (b.s.slower k) ∧ b.WakeOf env ac (10000 / k) ∧
      (IsUnit b.A.det ↔ IsUnit a.A.det) ∧ a.R.ftot = k ^ 2 • b.R.ftot ∧
      a.R.mtot = k ^ 3 • b.R.mtot ∧ a.R.wind = k ^ 2 • b.R.wind ∧ a.R.coeffs = b.R.coeffs := by
  obtain ⟨s', l', P', A, g, R⟩ := a
  obtain ⟨c1, c2, c3, c4, c5, c6, c7, hl, hne, hp, hA, hs, -, hR⟩ := h
  simp only at c1 c2 c3 c4 c5 c6 c7 hl hne hp hA hs hR
  obtain ⟨s, rfl⟩ : ∃ s : FlowState, s' = s.slower k := by
    refine ⟨{ s' with p := k * s'.p, q := k * s'.q, r := k * s'.r }, ?_⟩
    cases s'
    unfold FlowState.slower
    simp only [inv_mul_cancel_left₀ hk.ne']
  have hl2 := genLattice_scaled (inv_pos.2 hk) (env := env.lat.scaled k) hl
  rw [LatticeEnv.scaled_inv hk, PAircraft.scaled_inv hk] at hl2
  set Q : Fin l'.num → Panel := fun j => (P' j).scaled k⁻¹ with hQ
  have hPQ : P' = fun j => (Q j).scaled k := by
    funext j
    have e1 : ∀ p : V3 ℝ, k • k⁻¹ • p = p := by
      intro p
      ext <;> simp only [smul_x, smul_y, smul_z] <;> exact mul_inv_cancel_left₀ hk.ne' _
    have e2 : ∀ x : ℝ, k ^ 2 * (k⁻¹ ^ 2 * x) = x := by
      intro x
      have := hk.ne'
      field_simp
    simp only [hQ, Panel.scaled, e1, e2]
  rw [hPQ] at hA hs hR
  obtain ⟨R', r1, r2⟩ := results_larger hk hR
  have hdet : IsUnit (k • A).det ↔ IsUnit A.det := by
    rw [Matrix.det_smul, isUnit_iff_ne_zero, isUnit_iff_ne_zero, Fintype.card_fin]
    constructor
    · exact right_ne_zero_of_mul
    · exact mul_ne_zero (pow_ne_zero _ hk.ne')
  refine ⟨⟨s, { l' with pts := fun i => (l'.pts i).map fun g =>
      (g.withLeg (k⁻¹⁻¹ • trailLeg (s.slower k).alpha (s.slower k).beta)).scaled k⁻¹ },
    Q, k • A, k⁻¹ • g, R'⟩, ⟨c1, c2, c3, c4, c5, c6, c7⟩, ⟨hl2, hne, fun j => ?_,
    downwash_scaled hk hA, fun hu => ?_, r1⟩, hdet, r2⟩
  · refine ⟨_, panel_scaled (inv_pos.2 hk) (hp j), ?_⟩
    have e1 := panel_leg hl (hp j)
    have e2 : trailLeg (s.slower k).alpha (s.slower k).beta =
      (10000 : ℝ) • freestreamDir (deg2rad s.alpha) (deg2rad s.beta) := rfl
    rw [e2] at e1
    have e3 : (10000 / k) • freestreamDir (deg2rad s.alpha) (deg2rad s.beta) =
        k⁻¹ • (10000 : ℝ) • freestreamDir (deg2rad s.alpha) (deg2rad s.beta) := by
      generalize freestreamDir (deg2rad s.alpha) (deg2rad s.beta) = u
      ext <;> vsimp <;> ring
    show Q j = Panel.withLeg ((10000 / k) • freestreamDir (deg2rad s.alpha) (deg2rad s.beta)) _
    rw [e3]
    simp only [hQ]
    conv_lhs => rw [← e1]
    generalize (10000 : ℝ) • freestreamDir (deg2rad s.alpha) (deg2rad s.beta) = w
    unfold Panel.withLeg Panel.scaled
    simp only [Panel.mk.injEq, and_self, and_true, true_and]
    constructor <;> ext <;> vsimp <;> ring
  · have := hs (hdet.1 hu)
    have e : vlmBoundary (s.slower k) (env.scaled k).refs (fun j => (Q j).scaled k) =
      vlmBoundary s env.refs Q := boundary_scaled hk _ _ _
    rw [e] at this
    show (k • A).mulVec (k⁻¹ • g) = _
    rw [Matrix.smul_mulVec, Matrix.mulVec_smul, smul_smul, mul_inv_cancel₀ hk.ne', one_smul]
    exact this

/-- **C120**, what holds: a run of an aircraft `k` times as large gives, for each flight state with a
regular system, the results that the original aircraft would have with trailing legs of length
`10000 / k` — the same coefficients, forces times `k²`, moments times `k³`.  Missing: the trailing legs
should grow with the aircraft. -/
theorem C120_scaled_partial (env : RunEnv) (hd : Lapack env.dgesv) (k : ℝ) (hk : 0 < k)
    (ac : PAircraft ℝ) (st' : FlightSt ℝ) (out' : RunOut)
    (h : standardRun (env.scaled k) (ac.scaled k) st' = .ok out') :
    ∃ ac', Panelled env ac ac' ∧ ∀ i < st'.num, ∃ a : Analysis, FlowAt st' i (a.s.slower k) ∧
      a.WakeOf env ac' (10000 / k) ∧ (IsUnit a.A.det →
        (∀ c ∈ runColumns, c.1 ∈ coeffNames → out'.value c.1 i = some (c.2 a)) ∧
        ∀ c ∈ runColumns, c.1 ∈ loadNames → ∃ x, c.2 a = .fin x ∧
          out'.value c.1 i = some (.fin ((if c.1 ∈ ["Mx", "My", "Mz"] then k ^ 3 else k ^ 2) * x))) := by
  obtain ⟨-, ac2, h1, h2⟩ := (C93_finishes_iff (env.scaled k) hd (ac.scaled k) st').1 ⟨out', h⟩
  have h3 := Panelled.scaled (inv_pos.2 hk) h1
  rw [PAircraft.scaled_inv hk] at h3
  refine ⟨ac2.scaled k⁻¹, h3, ?_⟩
  have e : (ac2.scaled k⁻¹).scaled k = ac2 := by
    have := PAircraft.scaled_inv (inv_pos.2 hk) ac2
    rwa [inv_inv] at this
  intro i hi
  obtain ⟨a', ha'⟩ := h2 i hi
  have hv := C93_values (env.scaled k) hd (ac.scaled k) ac2 st' out' h h1 i hi a' ha'
  rw [← e] at ha'
  obtain ⟨a, a1, a2, -, a4, a5, a6, a7⟩ := ha'.smaller hk
  refine ⟨a, a1, a2, fun _ => ⟨?_, ?_⟩⟩
  · intro c hc hn
    rw [hv c hc]
    simp only [runColumns, List.mem_cons, List.not_mem_nil, or_false] at hc
    rcases hc with rfl | rfl | rfl | rfl | rfl | rfl | rfl | rfl | rfl | rfl | rfl | rfl | rfl |
      rfl | rfl | rfl | rfl | rfl <;> first
      | (simp [coeffNames] at hn; done)
      | simp only [a7]
  · intro c hc hn
    rw [hv c hc]
    simp only [runColumns, List.mem_cons, List.not_mem_nil, or_false] at hc
    rcases hc with rfl | rfl | rfl | rfl | rfl | rfl | rfl | rfl | rfl | rfl | rfl | rfl | rfl |
      rfl | rfl | rfl | rfl | rfl <;> first
      | (simp [loadNames] at hn; done)
      | exact ⟨_, rfl, by simp [a4, a5, a6]⟩

/-! ## A wing as long as its wake -/

/-- Level flight with a pitch rate. -/
noncomputable def pitching (q : ℝ) : FlightSt ℝ :=
  ⟨fun p => if p = "airspeed" then some [.num (.fin 10)] else if p = "density" then some [.num (.fin 1)]
    else if p = "rate_Q" then some [.num (.fin q)] else some [.num (.fin 0)], 1⟩

theorem pitching_flow {q : ℝ} {s : FlowState} (h : FlowAt (pitching q) 0 s) :
    s = ⟨10, 1, 0, 0, 0, q, 0⟩ := by
  obtain ⟨h1, h2, h3, h4, h5, h6, h7⟩ := h
  have e1 : (pitching q).aero.entry "airspeed" 0 = .ok (.fin 10) := rfl
  have e2 : (pitching q).aero.entry "density" 0 = .ok (.fin 1) := rfl
  have e3 : (pitching q).aero.entry "alpha" 0 = .ok (.fin 0) := rfl
  have e4 : (pitching q).aero.entry "beta" 0 = .ok (.fin 0) := rfl
  have e5 : (pitching q).aero.entry "rate_P" 0 = .ok (.fin 0) := rfl
  have e6 : (pitching q).aero.entry "rate_Q" 0 = .ok (.fin q) := rfl
  have e7 : (pitching q).aero.entry "rate_R" 0 = .ok (.fin 0) := rfl
  rw [e1] at h1
  rw [e2] at h2
  rw [e3] at h3
  rw [e4] at h4
  rw [e5] at h5
  rw [e6] at h6
  rw [e7] at h7
  simp only [Except.ok.injEq, Flt.fin.injEq] at h1 h2 h3 h4 h5 h6 h7
  cases s
  simp_all

/-- Influence of the panel on itself with trailing legs of length `L` in the plane of the wing. -/
noncomputable def ownInfluence (L : ℝ) : ℝ :=
  (horseshoe (1/1000000) (flatPanel ⟨L, 0, 0⟩ 0).col (flatPanel ⟨L, 0, 0⟩ 0)).dot
    (flatPanel ⟨L, 0, 0⟩ 0).n

/-- Lift coefficient of the pitching wing. -/
theorem pitching_lift {m : ℕ} (hm : m = 1) {P : Fin m → Panel} {A : Matrix (Fin m) (Fin m) ℝ}
    {g : Fin m → ℝ} {R : Results m} {L : ℝ} (hP : ∀ j, P j = flatPanel ⟨L, 0, 0⟩ 0)
    (h0 : ownInfluence L ≠ 0) (hA : vlmDownwash (1/1000000) P = some A)
    (hs : IsUnit A.det → Solves A (vlmBoundary ⟨10, 1, 0, 0, 0, 1, 0⟩ exampleEnv.refs P) g)
    (hR : vlmResults (1/1000000) ⟨10, 1, 0, 0, 0, 1, 0⟩ exampleEnv.refs P g = some R) :
    IsUnit A.det ∧ R.coeffs.cL = some (9/12500 / ownInfluence L) := by
  subst hm
  obtain ⟨-, hA'⟩ := vlmDownwash_some hA
  have hA0 : A 0 0 = ownInfluence L := by
    rw [hA', hP]
    rfl
  have hu : IsUnit A.det := by
    rw [Matrix.det_fin_one, isUnit_iff_ne_zero, hA0]
    exact h0
  refine ⟨hu, ?_⟩
  obtain ⟨p2, p3, p1, p4, pc, pm, pn⟩ := flatPanel_pts ⟨L, 0, 0⟩ 0
  have hg : g 0 = 9/200 / ownInfluence L := by
    have := congrFun (hs hu) 0
    simp only [Matrix.mulVec, dotProduct, Fin.sum_univ_one, Fin.isValue, hA0] at this
    have hb : vlmBoundary ⟨10, 1, 0, 0, 0, 1, 0⟩ exampleEnv.refs P 0 = 9/200 := by
      unfold vlmBoundary velWind velRot freestreamDir deg2rad exampleEnv
      simp only [hP, pc, pn]
      vsimp
      norm_num
    rw [hb] at this
    rw [eq_div_iff h0, mul_comm]
    exact this
  obtain ⟨-, rfl⟩ := vlmResults_some hR
  have hv : (panelVel (1/1000000) ⟨10, 1, 0, 0, 0, 1, 0⟩ exampleEnv.refs P g 0).x = 10 := by
    unfold panelVel
    rw [inwash_eq]
    simp only [Fin.sum_univ_one, Fin.isValue, hP]
    obtain ⟨h1, -⟩ := horseshoe_inplane (1/1000000) (x := (flatPanel ⟨L, 0, 0⟩ 0).mid)
      (g := flatPanel ⟨L, 0, 0⟩ 0) (by rw [pm]) (by rw [p1]) (by rw [p2]) (by rw [p3]) (by rw [p4])
    simp only [sub_x, smul_x, h1, add_x]
    unfold velWind velRot freestreamDir deg2rad exampleEnv
    rw [pm]
    vsimp
    norm_num
  have hf : (panelForce (1/1000000) ⟨10, 1, 0, 0, 0, 1, 0⟩ exampleEnv.refs P g 0).z =
      9/250 / ownInfluence L := by
    rw [panelForce_eq]
    simp only [smul_z, cross_z, hv, hP, p2, p3, sub_x, sub_y, hg]
    ring
  simp only [sumResults, Fin.sum_univ_one, Fin.isValue]
  generalize panelForce (1/1000000) ⟨10, 1, 0, 0, 0, 1, 0⟩ exampleEnv.refs P g 0 = f at hf
  generalize panelMoment (1/1000000) ⟨10, 1, 0, 0, 0, 1, 0⟩ exampleEnv.refs P g 0 = mo
  unfold vlmCoeffs bodyToWind cdiv dynPressure deg2rad exampleEnv
  simp only [hf]
  norm_num
  ring

/-- Its value; `r` is the distance of the collocation point from the ends of the trailing legs. -/
theorem ownInfluence_eq {L r : ℝ} (hr : 0 ≤ r) (e : (3/100 - L) ^ 2 + 1/625 = r ^ 2) :
    ownInfluence L = 1 / (4 * Real.pi) *
      (1 / (-7/10000 + 1/400 * (1 + 1/1000000)) * 40 * (6/2500) +
        2 * (1 / (3/100 * (3/100 - L) + 1/625 + r * (1/20) * (1 + 1/1000000)) * (1 / r + 20) *
          (L / 25))) := by
  obtain ⟨p2, p3, p1, p4, pc, -, pn⟩ := flatPanel_pts ⟨L, 0, 0⟩ 0
  unfold ownInfluence
  rw [horseshoe_eq, p1, p2, p3, p4, pc, pn]
  rw [kernel_value (k1 := r) (k2 := 1/20) (b := ⟨3/200, 0, 0⟩) _ _ _ hr (by norm_num)
      (by vsimp; linear_combination e) (by vsimp; norm_num),
    kernel_value (k1 := 1/20) (k2 := 1/20) (a := ⟨3/200, 0, 0⟩) _ _ _ (by norm_num) (by norm_num)
      (by vsimp; norm_num) (by vsimp; norm_num),
    kernel_value (k1 := 1/20) (k2 := r) (a := ⟨3/200, 0 + 2/25, 0⟩) _ _ _ (by norm_num) hr
      (by vsimp; norm_num) (by vsimp; linear_combination e)]
  have d1 : (⟨9/200, 0 + 1/25, 0⟩ - ⟨3/200 + L, 0 + 0, 0⟩ : V3 ℝ).dot
      (⟨9/200, 0 + 1/25, 0⟩ - ⟨3/200, 0, 0⟩) = 3/100 * (3/100 - L) + 1/625 := by vsimp; ring
  have d2 : (⟨9/200, 0 + 1/25, 0⟩ - ⟨3/200, 0, 0⟩ : V3 ℝ).dot
      (⟨9/200, 0 + 1/25, 0⟩ - ⟨3/200, 0 + 2/25, 0⟩) = -7/10000 := by vsimp; norm_num
  have d3 : (⟨9/200, 0 + 1/25, 0⟩ - ⟨3/200, 0 + 2/25, 0⟩ : V3 ℝ).dot
      (⟨9/200, 0 + 1/25, 0⟩ - ⟨3/200 + L, 0 + 2/25 + 0, 0⟩) = 3/100 * (3/100 - L) + 1/625 := by
    vsimp; ring
  rw [d1, d2, d3, mul_comm (1/20) r, add_comm (1 / (1/20)) (1 / r)]
  have hc : 1 / (1 / 20 : ℝ) = 20 := by norm_num
  rw [hc]
  generalize 1 / (3/100 * (3/100 - L) + 1/625 + r * (1/20) * (1 + 1/1000000)) = x
  generalize 1 / (4 * Real.pi) = c
  generalize 1 / r = y
  vsimp
  ring

theorem ownInfluence_short : ownInfluence (3/50) ≤ 1 / (4 * Real.pi) *
    (1 / (-7/10000 + 1/400 * (1 + 1/1000000)) * 40 * (6/2500) + 2 * 30) ∧ 0 < ownInfluence (3/50) := by
  have hp : 0 < 1 / (4 * Real.pi) := by have := Real.pi_pos; positivity
  rw [ownInfluence_eq (r := 1/20) (by norm_num) (by norm_num)]
  constructor
  · refine mul_le_mul_of_nonneg_left ?_ hp.le
    norm_num
  · refine mul_pos hp ?_
    norm_num

theorem ownInfluence_long : 1 / (4 * Real.pi) *
    (1 / (-7/10000 + 1/400 * (1 + 1/1000000)) * 40 * (6/2500) + 2 * 39) ≤ ownInfluence 10000 := by
  have hp : 0 < 1 / (4 * Real.pi) := by have := Real.pi_pos; positivity
  have hq : (0 : ℝ) ≤ (3/100 - 10000) ^ 2 + 1/625 := by positivity
  set r := Real.sqrt ((3/100 - 10000) ^ 2 + 1/625) with hr
  have e : ((3/100 - 10000) ^ 2 + 1/625 : ℝ) = r ^ 2 := (Real.sq_sqrt hq).symm
  have r1 : r ≤ 10000 := by
    rw [hr]
    refine Real.sqrt_le_iff.2 ⟨by norm_num, by norm_num⟩
  have r2 : 9999 ≤ r := by
    rw [hr]
    refine Real.le_sqrt_of_sq_le ?_
    norm_num
  rw [ownInfluence_eq (r := r) (by linarith) e]
  refine mul_le_mul_of_nonneg_left ?_ hp.le
  have hden : 0 < 3/100 * (3/100 - 10000) + 1/625 + r * (1/20) * (1 + 1/1000000) := by nlinarith
  have hx : 1 / 201 ≤ 1 / (3/100 * (3/100 - 10000) + 1/625 + r * (1/20) * (1 + 1/1000000)) := by
    refine one_div_le_one_div_of_le hden ?_
    nlinarith
  have hy : 0 ≤ 1 / r := by positivity
  have : (39 : ℝ) ≤ 1 / (3/100 * (3/100 - 10000) + 1/625 + r * (1/20) * (1 + 1/1000000)) *
      (1 / r + 20) * (10000 / 25) := by
    generalize 1 / (3/100 * (3/100 - 10000) + 1/625 + r * (1/20) * (1 + 1/1000000)) = x at hx
    nlinarith
  linarith

theorem ownInfluence_shorter : ownInfluence (3/50) < ownInfluence 10000 := by
  have hp : 0 < 1 / (4 * Real.pi) := by have := Real.pi_pos; positivity
  refine lt_of_le_of_lt ownInfluence_short.1 (lt_of_lt_of_le ?_ ownInfluence_long)
  refine mul_lt_mul_of_pos_left ?_ hp
  linarith

/-- The analysis of the pitching wing with trailing legs of length `L`. -/
theorem pitching_wake {a : Analysis} {L : ℝ} (h : a.WakeOf exampleEnv singleAc L)
    (hs : a.s = ⟨10, 1, 0, 0, 0, 1, 0⟩) (h0 : ownInfluence L ≠ 0) :
    IsUnit a.A.det ∧ a.R.coeffs.cL = some (9/12500 / ownInfluence L) := by
  obtain ⟨hu, hn⟩ := single_ok
  obtain ⟨b, hb, he, hp⟩ := single_book
  obtain ⟨-, k1, -⟩ := genLattice_ok h.lattice
  rw [hb] at k1
  simp only [Except.ok.injEq] at k1
  have h2 : a.l.num = 1 := by unfold LatticeData.num; rw [← k1, hp]; rfl
  have hF := flat_lattice hu single_panelled hn (fun _ _ => rfl) (fun _ _ _ _ => rfl) (by
    intro t ht
    rw [single_subareas] at ht
    simp only [List.mem_cons, List.not_mem_nil, or_false] at ht
    subst ht
    exact ⟨rfl, rfl⟩) h.lattice
  rw [← k1, he] at hF
  have hF0 := hF _ (List.mem_cons_self ..) rfl 0 rfl
  refine pitching_lift h2 (fun j => ?_) h0 h.matrix (hs ▸ h.solved) (hs ▸ h.results)
  obtain ⟨g, g1, g2⟩ := h.panels j
  have hj : (j : ℕ) = 0 := by have := j.2; omega
  rw [hj, hF0] at g1
  rw [g2, ← Option.some.inj g1, hs]
  have e : L • freestreamDir (deg2rad 0) (deg2rad 0) = ⟨L, 0, 0⟩ := by
    unfold freestreamDir deg2rad
    ext <;> vsimp <;> norm_num
  show Panel.withLeg (L • freestreamDir (deg2rad 0) (deg2rad 0)) _ = _
  rw [e]
  rfl

/-- An analysis exists when no point lies on a vortex. -/
theorem analysis_build {env : RunEnv} {ac : PAircraft ℝ} {st : FlightSt ℝ} {i : ℕ} {s : FlowState}
    (hf : FlowAt st i s) {l : LatticeData} (hl : genLattice env.lat env.doRot s.alpha s.beta ac = .ok l)
    (h0 : l.num ≠ 0) {P : Fin l.num → Panel} (hp : ∀ k : Fin l.num, l.panel k = some (P k))
    (hc : ∀ i j, HorseshoeOk env.eps (P i).col (P j))
    (hm : ∀ i j, HorseshoeOk env.eps (P i).mid (P j)) : ∃ a : Analysis, a.Of env ac st i := by
  obtain ⟨f1, f2, f3, f4, f5, f6, f7⟩ := hf
  have hA : ∃ A, vlmDownwash env.eps P = some A := by
    unfold vlmDownwash
    rw [if_pos hc]
    exact ⟨_, rfl⟩
  obtain ⟨A, hA⟩ := hA
  have hR : ∀ g, ∃ R, vlmResults env.eps s env.refs P g = some R := by
    intro g
    unfold vlmResults
    rw [if_pos hm]
    exact ⟨_, rfl⟩
  by_cases hreg : IsUnit A.det
  · obtain ⟨R, hR⟩ := hR (A⁻¹.mulVec (vlmBoundary s env.refs P))
    refine ⟨⟨s, l, P, A, A⁻¹.mulVec (vlmBoundary s env.refs P), R⟩, f1, f2, f3, f4, f5, f6, f7, hl, h0,
      hp, hA, ?_, fun h => absurd hreg h, hR⟩
    intro _
    unfold Solves
    rw [Matrix.mulVec_mulVec, Matrix.mul_nonsing_inv A hreg, Matrix.one_mulVec]
  · obtain ⟨R, hR⟩ := hR (vlmBoundary s env.refs P)
    exact ⟨⟨s, l, P, A, vlmBoundary s env.refs P, R⟩, f1, f2, f3, f4, f5, f6, f7, hl, h0, hp, hA,
      fun h => absurd h hreg, fun _ => rfl, hR⟩

/-- The lattice of the wing in level flight. -/
theorem single_level : ∃ l : LatticeData, genLattice exampleEnv.lat exampleEnv.doRot 0 0 singleAc = .ok l ∧
    l.num = 1 ∧ l.panel 0 = some (flatPanel ⟨10000, 0, 0⟩ 0) := by
  obtain ⟨hu, hn⟩ := single_ok
  obtain ⟨l, hl⟩ := C76_lattice_generated _ _ hu single_panelled hn flatLat true 0 0
    (fun _ _ _ => .inr (.inl rfl))
  obtain ⟨b, hb, he, hp⟩ := single_book
  obtain ⟨-, k1, -⟩ := genLattice_ok hl
  rw [hb] at k1
  cases k1
  have hF := flat_lattice hu single_panelled hn (fun _ _ => rfl) (fun _ _ _ _ => rfl) (by
    intro t ht
    rw [single_subareas] at ht
    simp only [List.mem_cons, List.not_mem_nil, or_false] at ht
    subst ht
    exact ⟨rfl, rfl⟩) hl
  rw [he] at hF
  refine ⟨l, hl, by unfold LatticeData.num; rw [hp]; rfl, ?_⟩
  have := hF _ (List.mem_cons_self ..) rfl 0 rfl
  rwa [trailLeg_level] at this

theorem pitching_finishes (q : ℝ) : ∃ out, standardRun exampleEnv singleAc (pitching q) = .ok out := by
  refine (C93_finishes_iff exampleEnv exactDgesv_lapack _ _).2 ⟨by simp [pitching], singleAc,
    ⟨singleAc, single_autopanels, single_panelled⟩, ?_⟩
  intro i hi
  obtain rfl : i = 0 := by simpa [pitching] using hi
  obtain ⟨l, hl, h2, h3⟩ := single_level
  refine analysis_build (s := ⟨10, 1, 0, 0, 0, q, 0⟩) (P := fun _ => flatPanel ⟨10000, 0, 0⟩ 0)
    ⟨rfl, rfl, rfl, rfl, rfl, rfl, rfl⟩ hl (by omega) ?_ ?_ ?_
  · intro j
    have hj : (j : ℕ) = 0 := by have := j.2; omega
    rw [hj, h3]
  · intro i j
    refine flat_horseshoeOk exampleEnv_eps rfl (.inl rfl) (.inl rfl) ?_
    rw [(flatPanel_pts _ _).2.2.2.2.1]
  · intro i j
    refine flat_horseshoeOk exampleEnv_eps rfl (.inl rfl) (.inl rfl) ?_
    rw [(flatPanel_pts _ _).2.2.2.2.2.1]

theorem pitching_scaled_finishes {k : ℝ} (hk : 0 < k) (q : ℝ) :
    ∃ out, standardRun (exampleEnv.scaled k) (singleAc.scaled k) (pitching q) = .ok out := by
  refine (C93_finishes_iff (exampleEnv.scaled k) exactDgesv_lapack _ _).2 ⟨by simp [pitching],
    singleAc.scaled k, Panelled.scaled hk ⟨singleAc, single_autopanels, single_panelled⟩, ?_⟩
  intro i hi
  obtain rfl : i = 0 := by simpa [pitching] using hi
  obtain ⟨l, hl, h2, h3⟩ := single_level
  have e : (flatPanel ⟨10000, 0, 0⟩ 0).withLeg (k⁻¹ • trailLeg 0 0) =
      flatPanel ⟨k⁻¹ * 10000, 0, 0⟩ 0 := by
    rw [trailLeg_level]
    have : (k⁻¹ • ⟨10000, 0, 0⟩ : V3 ℝ) = ⟨k⁻¹ * 10000, 0, 0⟩ := by ext <;> vsimp <;> ring
    rw [this]
    rfl
  refine analysis_build (s := ⟨10, 1, 0, 0, 0, q, 0⟩) (env := exampleEnv.scaled k)
    (P := fun _ => (flatPanel ⟨k⁻¹ * 10000, 0, 0⟩ 0).scaled k)
    ⟨rfl, rfl, rfl, rfl, rfl, rfl, rfl⟩ (genLattice_scaled hk hl) (by show l.num ≠ 0; omega) ?_ ?_ ?_
  · intro j
    have hj : (j : ℕ) = 0 := by have : (j : ℕ) < l.num := j.2; omega
    rw [hj, ← e]
    exact panel_scaled hk h3
  · intro i j
    refine (horseshoeOk_scaled hk _ _ _).2
      (flat_horseshoeOk exampleEnv_eps rfl (.inl rfl) (.inl rfl) ?_)
    rw [(flatPanel_pts _ _).2.2.2.2.1]
  · intro i j
    refine (horseshoeOk_scaled hk _ _ _).2
      (flat_horseshoeOk exampleEnv_eps rfl (.inl rfl) (.inl rfl) ?_)
    rw [(flatPanel_pts _ _).2.2.2.2.2.1]

theorem single_panelled_unique {ac : PAircraft ℝ} (h : Panelled exampleEnv singleAc ac) :
    ac = singleAc := h.unique ⟨singleAc, single_autopanels, single_panelled⟩

/-- A case for `C120_scaled_partial`: a wing 500000 / 3 times as large as the example, so that its chord is
as long as its trailing legs, with a pitch rate in proportion.  Its lift coefficient is that of the small
wing with trailing legs of 6 cm. -/
theorem pitching_large {out : RunOut} (h : standardRun (exampleEnv.scaled (500000/3))
    (singleAc.scaled (500000/3)) (pitching ((500000/3)⁻¹ * 1)) = .ok out) :
    out.value "CL" 0 = some (.fin (9/12500 / ownInfluence (3/50))) := by
  obtain ⟨ac', h1, h2⟩ := C120_scaled_partial _ exactDgesv_lapack _ (by norm_num) _ _ _ h
  cases single_panelled_unique h1
  obtain ⟨a, a1, a2, a3⟩ := h2 0 (by simp [pitching])
  have hs : a.s = ⟨10, 1, 0, 0, 0, 1, 0⟩ := by
    have := pitching_flow a1
    obtain ⟨⟨v, rho, al, be, p, q, r⟩, l, P, A, g, R⟩ := a
    simp only [FlowState.slower, FlowState.mk.injEq] at this ⊢
    obtain ⟨t1, t2, t3, t4, t5, t6, t7⟩ := this
    exact ⟨t1, t2, t3, t4, by linarith, by linarith, by linarith⟩
  have e : (10000 / (500000/3) : ℝ) = 3/50 := by norm_num
  rw [e] at a2
  obtain ⟨u, v⟩ := pitching_wake a2 hs ownInfluence_short.2.ne'
  have := (a3 u).1 ("CL", fun a => asFlt a.R.coeffs.cL) (by simp [runColumns]) (by simp [coeffNames])
  refine this.trans ?_
  show some (asFlt a.R.coeffs.cL) = _
  rw [v]
  rfl

theorem pitching_small {out : RunOut} (h : standardRun exampleEnv singleAc (pitching 1) = .ok out) :
    out.value "CL" 0 = some (.fin (9/12500 / ownInfluence 10000)) := by
  obtain ⟨-, ac', h1, h2⟩ := (C93_finishes_iff exampleEnv exactDgesv_lapack _ _).1 ⟨out, h⟩
  obtain ⟨a, ha⟩ := h2 0 (by simp [pitching])
  have hv := C93_values exampleEnv exactDgesv_lapack _ ac' _ out h h1 0 (by simp [pitching]) a ha
  cases single_panelled_unique h1
  obtain ⟨w1, w2⟩ := ha.wake
  obtain ⟨-, v⟩ := pitching_wake w2 (pitching_flow w1)
    (by have := ownInfluence_shorter; have := ownInfluence_short.2; linarith)
  have := hv ("CL", fun a => asFlt a.R.coeffs.cL) (by simp [runColumns])
  refine this.trans ?_
  show some (asFlt a.R.coeffs.cL) = _
  rw [v]
  rfl

/-- The case meets the hypotheses of `C120_scaled_partial`, and its system is regular. -/
example : ∃ out, standardRun (exampleEnv.scaled (500000/3)) (singleAc.scaled (500000/3))
    (pitching ((500000/3)⁻¹ * 1)) = .ok out ∧
      out.value "CL" 0 = some (.fin (9/12500 / ownInfluence (3/50))) := by
  obtain ⟨out, h⟩ := pitching_scaled_finishes (k := 500000/3) (by norm_num) ((500000/3)⁻¹ * 1)
  exact ⟨out, h, pitching_large h⟩

/-- **C120** is *false*: the trailing legs do not grow with the aircraft.  A wing with a chord of 6 cm
pitching in level flight and the same wing with a chord of 10 km (or of 10 m, given in millimetres) have
different lift coefficients. -/
theorem C120_size_false : ¬ SizeDoesNotMatter := by
  intro hall
  obtain ⟨out, h⟩ := pitching_finishes 1
  obtain ⟨out', h'⟩ := pitching_scaled_finishes (k := 500000/3) (by norm_num) ((500000/3)⁻¹ * 1)
  have := hall exampleEnv exactDgesv_lapack (500000/3) (by norm_num) singleAc (pitching 1)
    (pitching ((500000/3)⁻¹ * 1)) rfl (by
      intro i hi
      obtain rfl : i = 0 := by simpa [pitching] using hi
      constructor
      · intro p hp x hx
        rw [one_mul, ← hx]
        simp only [List.mem_cons, List.not_mem_nil, or_false] at hp
        rcases hp with rfl | rfl | rfl | rfl <;> rfl
      · intro p hp x hx
        simp only [List.mem_cons, List.not_mem_nil, or_false] at hp
        rcases hp with rfl | rfl | rfl
        · have e : (pitching 1).aero.entry "rate_P" 0 = .ok (.fin 0) := rfl
          rw [e] at hx
          cases hx
          rw [mul_zero]
          rfl
        · have e : (pitching 1).aero.entry "rate_Q" 0 = .ok (.fin 1) := rfl
          rw [e] at hx
          cases hx
          rfl
        · have e : (pitching 1).aero.entry "rate_R" 0 = .ok (.fin 0) := rfl
          rw [e] at hx
          cases hx
          rw [mul_zero]
          rfl) out out' h h' 0 (by simp [pitching]) "CL" (by simp [coeffNames])
  rw [pitching_large h', pitching_small h] at this
  simp only [Option.some.injEq, Flt.fin.injEq] at this
  have h1 := ownInfluence_short.2
  have h2 := ownInfluence_shorter
  have h3 : 0 < ownInfluence 10000 := h1.trans h2
  rw [div_eq_div_iff h1.ne' h3.ne'] at this
  linarith

end Verif
