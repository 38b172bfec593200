import Verif.Model.Strips
import Mathlib.Algebra.Order.Floor.Ring
import Mathlib.Data.Int.Cast.Lemmas

/-!
# Pre-panelling of an aircraft

Model of `set_autopanels` and `pre_panelling` in `/repo/src/lib/pytornado/aero/vlm.py`, with the
part of the aircraft object they read and write.  Neither function catches exceptions, so the
result is `Except PyErr` of the new aircraft.
-/

namespace Verif

section
variable (K : Type*)

/-- What the panelling reads of a `WingSegment` (`objects/aircraft.py:517-639`).  `interp` is
`xsi_interpol(self.vertices, ...)`, `dist e1 x1 e2 x2` the Euclidean distance of the segment
points `(e1, x1)` and `(e2, x2)` (`vlm.py:184-190`); both depend on the vertices only. -/
structure PSegment where
  uid : String
  span : K
  numS : Option ℤ
  numC : Option ℤ
  interp : Interp K
  dist : K → K → K → K → K
  strips : List (Strip K)

/-- What the panelling reads of a `WingControl` (`objects/aircraft.py:1342-1436`). -/
structure PControl where
  uid : String
  deviceType : String
  segInner : String
  segOuter : String
  etaInner : K
  etaOuter : K
  xsiInner : K
  xsiOuter : K
  hInner : Option K
  hOuter : Option K
  numC : Option ℤ

/-- `Wing` (`objects/aircraft.py:272-332`): segments and controls in insertion order. -/
structure PWing where
  uid : String
  symmetry : ℕ
  segments : List (PSegment K)
  controls : List (PControl K)

/-- `Aircraft.wings` (`objects/aircraft.py:83-120`) in insertion order. -/
structure PAircraft where
  wings : List (PWing K)

end

section
variable {K : Type*} [Field K] [LinearOrder K]

/-- The part of a control that is stored with a subarea. -/
def PControl.control (c : PControl K) : Control := ⟨c.uid, c.deviceType⟩

/-- `Wing.span` (`objects/aircraft.py:343-350`). -/
def PWing.span (w : PWing K) : K := w.segments.foldl (fun acc s => acc + |s.span|) 0

/-- `segment_span/wing_span` (`vlm.py:71`); a zero wing span raises (`ZeroDivisionError` for
Python floats; numpy floats give `nan` and `ceil` raises `ValueError`). -/
def spanRatio (segSpan wingSpan : K) : Except PyErr K :=
  if wingSpan = 0 then .error .zeroDivision else .ok (segSpan / wingSpan)

/-- Body of the first loop of `set_autopanels` (`vlm.py:62-71`) for a segment of a wing. -/
def PSegment.setAutopanels [FloorRing K] (wingSpan : K) (apC apS : ℤ) (s : PSegment K) :
    Except PyErr (PSegment K) :=
  let s1 := if s.numC = none then { s with numC := some apC } else s
  if s1.numS = none then
    match spanRatio s1.span wingSpan with
    | .error e => .error e
    | .ok q => .ok { s1 with numS := some ⌈q * (apS : K)⌉ }
  else .ok s1

/-- Body of the second loop of `set_autopanels` (`vlm.py:73-77`). -/
def PControl.setAutopanels (apC : ℤ) (c : PControl K) : PControl K :=
  if c.numC = none then { c with numC := some apC } else c

/-- `set_autopanels` (`vlm.py:49-77`) for one wing. -/
def PWing.setAutopanels [FloorRing K] (apC apS : ℤ) (w : PWing K) : Except PyErr (PWing K) :=
  match mapE (PSegment.setAutopanels w.span apC apS) w.segments with
  | .error e => .error e
  | .ok segs => .ok { w with
      segments := segs, controls := w.controls.map (PControl.setAutopanels apC) }

/-- `set_autopanels` (`vlm.py:49-77`).  Simplification: the two loops (all segments of all
wings, then all controls) are carried out wing by wing; they touch different objects. -/
def setAutopanels [FloorRing K] (apC apS : ℤ) (ac : PAircraft K) : Except PyErr (PAircraft K) :=
  match mapE (PWing.setAutopanels apC apS) ac.wings with
  | .error e => .error e
  | .ok ws => .ok { ac with wings := ws }

/-- Result of a mutating call that must not raise: the new strips or the exception. -/
def asExcept {α : Type*} (r : Except PyErr Unit × α) : Except PyErr α :=
  match r with
  | (.error e, _) => .error e
  | (.ok (), a) => .ok a

/-- `wing.segments[uid].<method>(...)` (`vlm.py:125, 213`): `KeyError` if there is no such
segment; otherwise that segment is changed in place. -/
def PSegment.update (uid : String) (f : PSegment K → Except PyErr (List (Strip K))) :
    List (PSegment K) → Except PyErr (List (PSegment K))
  | [] => .error .keyError
  | s :: rest =>
    if s.uid = uid then
      match f s with
      | .error e => .error e
      | .ok st => .ok ({ s with strips := st } :: rest)
    else
      match PSegment.update uid f rest with
      | .error e => .error e
      | .ok rest' => .ok (s :: rest')

/-- A row of `list_of_segments` (`vlm.py:135-143`). -/
@[ext] structure SegRow (K : Type*) where
  uid : String
  etaI : K
  etaO : K
  xsiI : K
  xsiO : K
  hI : K
  hO : K

/-- The loop over the segments in case B (`vlm.py:145-171`).  The first argument is the flag
`inner_set`; reaching the outer segment ends the loop. -/
def collectRows (c : PControl K) (h1 h2 xAvg hAvg : K) : Bool → List String → List (SegRow K)
  | _, [] => []
  | innerSet, uid :: rest =>
    if uid = c.segInner then
      ⟨uid, c.etaInner, 1, c.xsiInner, xAvg, h1, hAvg⟩ :: collectRows c h1 h2 xAvg hAvg true rest
    else if innerSet then
      if uid = c.segOuter then [⟨uid, 0, c.etaOuter, xAvg, c.xsiOuter, hAvg, h2⟩]
      else ⟨uid, 0, 1, xAvg, xAvg, hAvg, hAvg⟩ :: collectRows c h1 h2 xAvg hAvg true rest
    else collectRows c h1 h2 xAvg hAvg innerSet rest

/-- `lin_interpol((y0, y1), (0, l), x)` of `commonlibs` by its contract: the straight line
through `(0, y0)` and `(l, y1)` (`vlm.py:202-205`).  Only meaningful for `l ≠ 0`. -/
def linInterpol (y0 y1 l x : K) : K := y0 + (y1 - y0) * (x / l)

/-- `control_len` (`vlm.py:175-192`): start length of each row and the running total. -/
def rowLengths (dist : String → K → K → K → K → Option K) :
    K → List (SegRow K) → Except PyErr (List (K × K))
  | _, [] => .ok []
  | l, r :: rest =>
    match dist r.uid r.etaI r.xsiI r.etaO r.xsiO with
    | none => .error .keyError
    | some d =>
      match rowLengths dist (l + d) rest with
      | .error e => .error e
      | .ok ls => .ok ((l, l + d) :: ls)

/-- Re-adjustment of the chordwise positions at segment borders (`vlm.py:173-207`). -/
def adjustRows (dist : String → K → K → K → K → Option K) (c : PControl K) (h1 h2 : K)
    (rows : List (SegRow K)) : Except PyErr (List (SegRow K)) :=
  if c.xsiInner ≠ c.xsiOuter ∨ h1 ≠ h2 then
    match rowLengths dist 0 rows with
    | .error e => .error e
    | .ok ls =>
      let l := (ls.getLast?.map Prod.snd).getD 0
      .ok (List.zipWith (fun r p =>
        { r with
          xsiI := linInterpol c.xsiInner c.xsiOuter l p.1
          xsiO := linInterpol c.xsiInner c.xsiOuter l p.2
          hI := linInterpol h1 h2 l p.1
          hO := linInterpol h1 h2 l p.2 }) rows ls)
  else .ok rows

/-- "Finally, we create the subdivisions using our list" (`vlm.py:209-214`). -/
def applyRows (c : Control) : List (SegRow K) → List (PSegment K) → Except PyErr (List (PSegment K))
  | [], segs => .ok segs
  | r :: rest, segs =>
    match PSegment.update r.uid (fun s => asExcept
        (addSubdivisionForControl s.interp r.etaI r.etaO c r.xsiI r.xsiO (some r.hI) (some r.hO)
          s.strips)) segs with
    | .error e => .error e
    | .ok segs' => applyRows c rest segs'

/-- Distance function of the segments of a wing; `none` if the segment does not exist. -/
def segDist (segs : List (PSegment K)) (uid : String) (e1 x1 e2 x2 : K) : Option K :=
  (segs.find? (fun s => s.uid = uid)).map fun s => s.dist e1 x1 e2 x2

/-- Body of part one of `pre_panelling` for one control (`vlm.py:103-214`).  In case B a hinge
position `None` raises `TypeError` in line 153. -/
def placeControl (c : PControl K) (segs : List (PSegment K)) : Except PyErr (List (PSegment K)) :=
  if c.segInner = c.segOuter then
    PSegment.update c.segInner (fun s => asExcept
      (addSubdivisionForControl s.interp c.etaInner c.etaOuter c.control c.xsiInner c.xsiOuter
        c.hInner c.hOuter s.strips)) segs
  else
    match c.hInner, c.hOuter with
    | some h1, some h2 =>
      let rows := collectRows c h1 h2 ((c.xsiInner + c.xsiOuter) / 2) ((h1 + h2) / 2) false
        (segs.map PSegment.uid)
      match adjustRows (segDist segs) c h1 h2 rows with
      | .error e => .error e
      | .ok rows' => applyRows c.control rows' segs
    | _, _ => .error .typeError

/-- Part one for all controls of a wing. -/
def placeControls : List (PControl K) → List (PSegment K) → Except PyErr (List (PSegment K))
  | [], segs => .ok segs
  | c :: rest, segs =>
    match placeControl c segs with
    | .error e => .error e
    | .ok segs' => placeControls rest segs'

/-- Lines of `np.linspace(0, 1, n+1)` without the two ends (`vlm.py:224-226`); exact arithmetic. -/
def spanLines (n : ℕ) : List K := (List.range (n - 1)).map fun k : ℕ => ((k : K) + 1) / (n : K)

/-- Adding the lines one after another (`vlm.py:224-227`). -/
def addLines (interp : Interp K) : List K → List (Strip K) → Except PyErr (List (Strip K))
  | [], sds => .ok sds
  | e :: rest, sds =>
    match addSubdivision interp e e true sds with
    | (.error err, _) => .error err
    | (.ok _, sds') => addLines interp rest sds'

/-- Part two for one segment (`vlm.py:221-227`): `num_s = None` raises `TypeError`, a number
below -1 makes `np.linspace` raise `ValueError`, -1 and 0 give no interior lines. -/
def PSegment.addSpanLines (s : PSegment K) : Except PyErr (PSegment K) :=
  match s.numS with
  | none => .error .typeError
  | some n =>
    if n + 1 < 0 then .error .valueError
    else
      match addLines s.interp (spanLines n.toNat) s.strips with
      | .error e => .error e
      | .ok st => .ok { s with strips := st }

/-- Replace the segments of a wing by the result of an operation that may raise. -/
def PWing.mapSegments (f : List (PSegment K) → Except PyErr (List (PSegment K))) (w : PWing K) :
    Except PyErr (PWing K) :=
  match f w.segments with
  | .error e => .error e
  | .ok segs => .ok { w with segments := segs }

/-- `pre_panelling` (`vlm.py:80-227`): part one for all controls of all wings, then part two for
all segments. -/
def prePanelling (ac : PAircraft K) : Except PyErr (PAircraft K) :=
  match mapE (fun w => w.mapSegments (placeControls w.controls)) ac.wings with
  | .error e => .error e
  | .ok ws =>
    match mapE (fun w => w.mapSegments (mapE PSegment.addSpanLines)) ws with
    | .error e => .error e
    | .ok ws' => .ok { ac with wings := ws' }

end

end Verif
