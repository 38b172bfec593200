import Verif.Model.Aero

/-!
# Lattice generation as a whole, with normal rotations

Model of `gen_lattice` (`/repo/src/lib/pytornado/aero/vlm.py:230-418`) put together from its parts:
bookkeeping (`Model/Book`), corners of the subareas (`Model/Geometry`), the native generator
(`Model/Lattice`) and the rotations of panel normals at control surfaces and along the camber line.
Simplifications: exact real arithmetic, `none` for vectors that are not finite; the statistics of
the lattice are left out here (see `latticeStats`).
-/

namespace Verif

open scoped Classical in
/-- `axis_rot_matrix(axis, theta) @ v` of the external package `commonlibs` by its contract: the
rotation about the axis by the angle (radian), counterclockwise (Rodrigues' formula).  The package
divides by the length of the axis: `none` for an axis of length zero. -/
noncomputable def rotate (axis : V3 ℝ) (theta : ℝ) (v : V3 ℝ) : Option (V3 ℝ) :=
  if axis.norm = 0 then none
  else
    let u := (1 / axis.norm) • axis
    some (Real.cos theta • v + Real.sin theta • u.cross v + ((1 - Real.cos theta) * u.dot v) • u)

/-- What lattice generation reads of the aircraft besides the panelling data.  `geo` is indexed by
wing and segment number; `deflection` by wing and control uid: `deflection` and
`deflection_mirror` in degree (`None` allowed); `camber` by wing and segment number: the angle (degree)
`segment_airfoil.at_eta(eta).camber_line_angle(xsi)` of the external package `airfoils`. -/
structure LatticeEnv where
  geo : ℕ → ℕ → GeoEnv ℝ
  deflection : String → String → Option ℝ × Option ℝ
  camber : ℕ → ℕ → ℝ → ℝ → ℝ

/-- The objects a bookkeeping entry refers to. -/
structure EntryParts where
  wing : PWing ℝ
  strip : Strip ℝ
  sub : Subarea ℝ
  geo : GeoEnv ℝ
  camber : ℝ → ℝ → ℝ

/-- `entry.subarea` and its parents. -/
noncomputable def entryParts (env : LatticeEnv) (ac : PAircraft ℝ) (e : BookEntry) :
    Option EntryParts :=
  match ac.wings[e.path.wing]? with
  | none => none
  | some w =>
    match w.segments[e.path.seg]? with
    | none => none
    | some s =>
      match s.strips[e.path.strip]? with
      | none => none
      | some d =>
        match d.subareas[e.path.sub]? with
        | none => none
        | some a => some ⟨w, d, a, env.geo e.path.wing e.path.seg, env.camber e.path.wing e.path.seg⟩

/-- `rel_hinge_vertices` of a subarea with parent control (`aircraft.py:1711-1712`). -/
def Strip.hinge {K : Type*} (s : Strip K) (type : String) : Option (K × K) :=
  if type = "slat" then s.slat.map fun d => (d.h1, d.h2)
  else if type = "flap" then s.flap.map fun d => (d.h1, d.h2)
  else none

/-- Deflection that applies to an entry (`vlm.py:387-390`). -/
def sideDeflection (d : Option ℝ × Option ℝ) (mirror : Bool) : Option ℝ :=
  if mirror then d.2 else d.1

open scoped Classical in
/-- "Control surface deflections" (`vlm.py:383-398`) for an entry: axis and angle (radian) of the
rotation, or no rotation at all. -/
noncomputable def hingeRotation (env : LatticeEnv) (p : EntryParts) (mirror : Bool) :
    Except PyErr (Option (V3 ℝ × ℝ)) :=
  match p.sub.ctrl with
  | none => .ok none
  | some c =>
    match p.strip.hinge p.sub.type with
    | none => .error .typeError
    | some h =>
      match hingeAxis p.geo p.strip h.1 h.2 mirror with
      | .error e => .error e
      | .ok axis =>
        match sideDeflection (env.deflection p.wing.uid c.uid) mirror with
        | none => .ok none
        | some d => .ok (if d = 0 then none else some (axis, deg2rad d))

open scoped Classical in
/-- "Camber line" (`vlm.py:400-417`) for panel `k` of an entry with `num` panels and the given
corners. -/
noncomputable def camberRotation (p : EntryParts) (corners : Corners (V3 ℝ)) (num k : ℕ) :
    Option (V3 ℝ × ℝ) :=
  let etaM := (p.strip.etaA + p.strip.etaB) / 2
  match (collocationXsi p.sub.quad num)[k]? with
  | none => none
  | some xsi =>
    let angle := p.camber etaM xsi
    if angle = 0 then none else some (camberAxis corners, deg2rad angle)

/-- Apply a rotation, if there is one. -/
noncomputable def applyRotation (r : Option (V3 ℝ × ℝ)) (v : Option (V3 ℝ)) : Option (V3 ℝ) :=
  match r with
  | none => v
  | some (axis, angle) => v.bind (rotate axis angle)

/-- Body of the loop "rotate normals" (`vlm.py:378-417`) for one entry.  Simplification: the parent
objects exist (`entryParts` is `none` never for entries of the bookkeeping). -/
noncomputable def rotateEntry (env : LatticeEnv) (ac : PAircraft ℝ) (e : BookEntry)
    (n : ℤ → Option (V3 ℝ)) : Except PyErr (ℤ → Option (V3 ℝ)) :=
  match entryParts env ac e with
  | none => .error .attributeError
  | some p =>
    match hingeRotation env p e.mirror, subareaVertices p.geo p.strip p.sub.quad e.mirror with
    | .error x, _ => .error x
    | _, .error x => .error x
    | .ok hinge, .ok corners => .ok fun i =>
      if e.start ≤ i ∧ i < e.stop then
        applyRotation
          (camberRotation p corners (e.stop - e.start).toNat (i - e.start).toNat)
          (applyRotation hinge (n i))
      else n i

/-- The loop over `lattice.panel_bookkeeping` (`vlm.py:378-417`). -/
noncomputable def rotateAll (env : LatticeEnv) (ac : PAircraft ℝ) :
    List BookEntry → (ℤ → Option (V3 ℝ)) → Except PyErr (ℤ → Option (V3 ℝ))
  | [], n => .ok n
  | e :: rest, n =>
    match rotateEntry env ac e n with
    | .error x => .error x
    | .ok n' => rotateAll env ac rest n'

/-- Corners of the subarea of an entry (`vlm.py:337-347`). -/
noncomputable def entryCorners (env : LatticeEnv) (ac : PAircraft ℝ) (e : BookEntry) :
    Except PyErr (Corners (V3 ℝ)) :=
  match entryParts env ac e with
  | none => .error .attributeError
  | some p => subareaVertices p.geo p.strip p.sub.quad e.mirror

/-- The lattice object: bookkeeping, what `vlm_lattice` wrote for each panel number (`none`: nothing
written, the arrays keep their zeros), and the normals after the rotations. -/
structure LatticeData where
  book : Book
  pts : ℤ → Option (PanelPts ℝ)
  normal : ℤ → Option (V3 ℝ)

/-- Last panel written with number `k`. -/
def lastPanel {K : Type*} (l : List (ℤ × PanelPts K)) (k : ℤ) : Option (PanelPts K) :=
  ((l.filter fun w => decide (w.1 = k)).getLast?).map Prod.snd

open scoped Classical in
/-- Normal vector as computed by `vlm_lattice`; `none`: not finite (panel without area). -/
noncomputable def PanelPts.finNormal (g : PanelPts ℝ) : Option (V3 ℝ) :=
  if g.crossVec.norm = 0 then none else some g.normal

/-- `gen_lattice` (`vlm.py:230-418`) after `pre_panelling`; angles in degree; `doRot` is the setting
`_do_normal_rotations`. -/
noncomputable def genLattice (env : LatticeEnv) (doRot : Bool) (alpha beta : ℝ)
    (ac : PAircraft ℝ) : Except PyErr LatticeData :=
  match genBook ac with
  | .error x => .error x
  | .ok b =>
    match mapE (entryCorners env ac) b.entries with
    | .error x => .error x
    | .ok cs =>
      if b.numP < 0 then .error .valueError
      else
        let written := lastPanel (vlmLattice (trailLeg alpha beta) (b.inputsOf cs))
        let n0 : ℤ → Option (V3 ℝ) := fun k => (written k).bind PanelPts.finNormal
        if doRot then
          match rotateAll env ac b.entries n0 with
          | .error x => .error x
          | .ok n => .ok ⟨b, written, n⟩
        else .ok ⟨b, written, n0⟩

/-- Number of panels `lattice.info['num_panels']`. -/
def LatticeData.num (l : LatticeData) : ℕ := l.book.numP.toNat

/-- What the solver reads of panel number `i`; `none`: not finite. -/
noncomputable def LatticeData.panelAt (l : LatticeData) (i : ℤ) : Option Panel :=
  match l.pts i, l.normal i with
  | some g, some n => some { g.toPanel with n := n }
  | _, _ => none

/-- The same for a natural number. -/
noncomputable def LatticeData.panel (l : LatticeData) (k : ℕ) : Option Panel := l.panelAt k

end Verif
