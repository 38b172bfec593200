import Verif.Model.Vec
import Verif.Model.Strips

/-!
# Geometry of segments, strips and subareas

Model of the coordinate maps and of the mirroring in
`/repo/src/lib/pytornado/objects/aircraft.py`.  The model is generic in the number type except
where lengths occur.
-/

namespace Verif

/-- Four corner points in the order a, b, c, d (dictionary `vertices`,
`objects/aircraft.py:580-584`). -/
@[ext] structure Corners (P : Type*) where
  a : P
  b : P
  c : P
  d : P
  deriving DecidableEq, Repr

section
variable {K : Type*} [Field K]

/-- `get_abs_segment_point_coords` (`aircraft.py:2033-2056`). -/
def segPoint (v : Corners (V3 K)) (eta xsi : K) : V3 K :=
  let aEta := v.a + eta • (v.b - v.a)
  let dEta := v.d + eta • (v.c - v.d)
  aEta + xsi • (dEta - aEta)

/-- `mirror_point` (`aircraft.py:2096-2116`); integer flags only (the wing symmetry). -/
def mirrorPoint (p : V3 K) (plane : ℕ) : Except PyErr (V3 K) :=
  if plane = 1 then .ok ⟨p.x, p.y, -p.z⟩
  else if plane = 2 then .ok ⟨p.x, -p.y, p.z⟩
  else if plane = 3 then .ok ⟨-p.x, p.y, p.z⟩
  else .error .valueError

/-- `order_mirrored_vertex_points` (`aircraft.py:2119-2142`). -/
def orderMirrored {P : Type*} (v : Corners P) (plane : ℕ) : Except PyErr (Corners P) :=
  if plane = 1 then .ok v
  else if plane = 2 then .ok ⟨v.b, v.a, v.d, v.c⟩
  else if plane = 3 then .ok ⟨v.d, v.c, v.b, v.a⟩
  else .error .valueError

/-- Do a function that may raise at each corner, in the order a, b, c, d. -/
def Corners.mapE {P Q : Type*} (f : P → Except PyErr Q) (v : Corners P) :
    Except PyErr (Corners Q) :=
  match f v.a, f v.b, f v.c, f v.d with
  | .ok a, .ok b, .ok c, .ok d => .ok ⟨a, b, c, d⟩
  | .error e, _, _, _ => .error e
  | _, .error e, _, _ => .error e
  | _, _, .error e, _ => .error e
  | _, _, _, .error e => .error e

/-- `mirror_vertices` (`aircraft.py:2145-2166`). -/
def mirrorVertices (v : Corners (V3 K)) (plane : ℕ) : Except PyErr (Corners (V3 K)) :=
  match v.mapE (mirrorPoint · plane) with
  | .error e => .error e
  | .ok w => orderMirrored w plane

/-- A deformation field as used by `get_deformed_point(point, def_field)` of the external package
`aeroframe`: which point goes where.  Simplification: an arbitrary function. -/
abbrev DefField (K : Type*) := V3 K → V3 K

/-- What the geometry of a strip depends on besides its relative coordinates: the corners of its
segment and symmetry and deformation of its wing (`aircraft.py:289-332`). -/
structure GeoEnv (K : Type*) where
  vertices : Corners (V3 K)
  symmetry : ℕ
  defField : Option (DefField K)
  defFieldMirror : Option (DefField K)

/-- `Wing.is_deformed` (`aircraft.py:327-332`; `None` counts as false). -/
def GeoEnv.isDeformed (g : GeoEnv K) : Bool := g.defField.isSome || g.defFieldMirror.isSome

/-- `WingSegment.get_deformed_segment_point` (`aircraft.py:952-981`). -/
def GeoEnv.deformedPoint (g : GeoEnv K) (eta xsi : K) (mirror : Bool) : Except PyErr (V3 K) :=
  let point := segPoint g.vertices eta xsi
  if mirror then
    match mirrorPoint point g.symmetry with
    | .error e => .error e
    | .ok p => .ok (match g.defFieldMirror with | none => p | some f => f p)
  else .ok (match g.defField with | none => point | some f => f point)

/-- `SegmentStrip.abs_vertices` (`aircraft.py:1583-1631`). -/
def Strip.absVertices (g : GeoEnv K) (s : Strip K) (mirror : Bool) :
    Except PyErr (Corners (V3 K)) :=
  if g.isDeformed then
    match Corners.mapE (fun p : K × K => g.deformedPoint p.1 p.2 mirror)
        ⟨(s.etaA, 0), (s.etaB, 0), (s.etaC, 1), (s.etaD, 1)⟩ with
    | .error e => .error e
    | .ok v => if mirror then orderMirrored v g.symmetry else .ok v
  else
    let v := g.vertices
    let w : Corners (V3 K) :=
      ⟨v.a + s.etaA • (v.b - v.a), v.a + s.etaB • (v.b - v.a),
       v.d + s.etaC • (v.c - v.d), v.d + s.etaD • (v.c - v.d)⟩
    if mirror then mirrorVertices w g.symmetry else .ok w

/-- `StripSubdivision.abs_vertices` (`aircraft.py:1845-1878`). -/
def subareaVertices (g : GeoEnv K) (s : Strip K) (q : Quad K) (mirror : Bool) :
    Except PyErr (Corners (V3 K)) :=
  match s.absVertices g mirror with
  | .error e => .error e
  | .ok sd =>
    match (if mirror then orderMirrored ⟨q.xsiA, q.xsiB, q.xsiC, q.xsiD⟩ g.symmetry
           else .ok ⟨q.xsiA, q.xsiB, q.xsiC, q.xsiD⟩ : Except PyErr (Corners K)) with
    | .error e => .error e
    | .ok x => .ok
      ⟨sd.a + x.a • (sd.d - sd.a), sd.b + x.b • (sd.c - sd.b),
       sd.b + x.c • (sd.c - sd.b), sd.a + x.d • (sd.d - sd.a)⟩

/-- `StripSubdivision.abs_hinge_vertices` (`aircraft.py:1880-1910`): inner and outer point. -/
def hingeVertices (g : GeoEnv K) (s : Strip K) (h1 h2 : K) (mirror : Bool) :
    Except PyErr (V3 K × V3 K) :=
  match s.absVertices g mirror with
  | .error e => .error e
  | .ok sd =>
    let h := if mirror ∧ g.symmetry = 2 then (h2, h1) else (h1, h2)
    .ok (sd.a + h.1 • (sd.d - sd.a), sd.b + h.2 • (sd.c - sd.b))

/-- `StripSubdivision.abs_hinge_axis` (`aircraft.py:1912-1929`). -/
def hingeAxis (g : GeoEnv K) (s : Strip K) (h1 h2 : K) (mirror : Bool) : Except PyErr (V3 K) :=
  match hingeVertices g s h1 h2 mirror with
  | .error e => .error e
  | .ok p => .ok (p.2 - p.1)

/-- `StripSubdivision.get_xsi_for_collocation_points` (`aircraft.py:2006-2030`). -/
def collocationXsi (q : Quad K) (numPanels : ℕ) : List K :=
  let xsiMidAB := (q.xsiA + q.xsiB) / 2
  let xsiMidCD := (q.xsiC + q.xsiD) / 2
  (List.range numPanels).map fun i : ℕ =>
    xsiMidAB + (((i : K) + 3 / 4) / (numPanels : K)) * (xsiMidCD - xsiMidAB)

/-- `get_plane_line_intersect(n, p0, dir, l0)` of the external package `commonlibs` by its
contract: the point of the line through `l0` with direction `dir` in the plane through `p0` with
normal `n`.  Only meaningful if `n` and `dir` are not perpendicular. -/
def planeLineIntersect (n p0 dir l0 : V3 K) : V3 K :=
  l0 + (n.dot (p0 - l0) / n.dot dir) • dir

end

/-- `StripSubdivision.abs_camber_line_rot_axis` (`aircraft.py:1931-1979`) for given corners:
`p_outer - p_inner`. -/
noncomputable def camberAxis (v : Corners (V3 ℝ)) : V3 ℝ :=
  let ab := v.b - v.a
  let ad := v.d - v.a
  let rotAxis := (ab.cross ad).cross ad
  (v.a + (1 / rotAxis.norm) • rotAxis) - v.a

/-- `xsi_interpol` (`aircraft.py:2059-2093`). -/
noncomputable def xsiInterpol (v : Corners (V3 ℝ)) : Interp ℝ := fun inner outer eta =>
  let pInner := segPoint v inner.1 inner.2
  let pOuter := segPoint v outer.1 outer.2
  let dir := pInner - pOuter
  let pUpper := segPoint v eta 0
  let pLower := segPoint v eta 1
  let segNormal := (v.b - v.a).cross (v.d - v.a)
  let planeNormal := segNormal.cross (pLower - pUpper)
  let pIntersect := planeLineIntersect planeNormal pUpper dir pInner
  (pIntersect - pUpper).norm / (pLower - pUpper).norm

end Verif
