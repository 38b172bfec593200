import Verif.Model.Geometry
import Verif.Model.Settings
import Mathlib.Analysis.SpecialFunctions.Trigonometric.Inverse
import Mathlib.Analysis.SpecialFunctions.Complex.Arg

/-!
# Building the aircraft object

Model of the container operations, of `WingSegment.generate`, `Wing.generate`,
`WingControl.check` and of area, span and size in
`/repo/src/lib/pytornado/objects/aircraft.py`.
-/

namespace Verif

/-! ## Containers -/

/-- Insertion-ordered dictionary `OrderedDict` with string keys. -/
abbrev ODict (α : Type*) := List (String × α)

/-- `uid in d`. -/
def ODict.has {α : Type*} (d : ODict α) (uid : String) : Bool := d.any fun e => e.1 == uid

/-- Constructor `X(uid)` of wing, segment and control: the setter of `uid` accepts strings only
(`aircraft.py:307-312`, `635-639`, `1426-1430`). -/
def uidSetter : PyVal → Except PyErr String
  | .str s => .ok s
  | _ => .error .typeError

/-- A control surface as the container sees it.  Simplification: the fresh object carries its own
name only; all other attributes are `None`. -/
structure ControlObj where
  uid : String
  deriving DecidableEq, Repr

/-- A wing segment as the container sees it. -/
structure SegmentObj where
  uid : String
  deriving DecidableEq, Repr

/-- A wing: name, symmetry, segments and controls (`aircraft.py:274-301`). -/
structure WingObj where
  uid : String
  symmetry : ℤ
  segments : ODict SegmentObj
  controls : ODict ControlObj
  deriving DecidableEq, Repr

/-- An aircraft: its wings (`aircraft.py:97-141`). -/
structure AircraftObj where
  wings : ODict WingObj
  deriving DecidableEq, Repr

/-- `Wing.__init__` (`aircraft.py:274-301`). -/
def WingObj.new (uid : String) : WingObj := ⟨uid, 0, [], []⟩

/-- `Aircraft.add_wing` (`aircraft.py:226-243`).  A non-string that counts as true is no key of
the dictionary and is refused by the constructor. -/
def AircraftObj.addWing (ac : AircraftObj) (uid : PyVal) : Except PyErr AircraftObj :=
  if !uid.truthy then .error .componentDefinition
  else
    match uidSetter uid with
    | .error e => .error e
    | .ok s =>
      if ac.wings.has s then .error .valueError
      else .ok { ac with wings := ac.wings ++ [(s, WingObj.new s)] }

/-- `Wing.add_segment` (`aircraft.py:352-369`). -/
def WingObj.addSegment (w : WingObj) (uid : PyVal) : Except PyErr WingObj :=
  if !uid.truthy then .error .componentDefinition
  else
    match uidSetter uid with
    | .error e => .error e
    | .ok s =>
      if w.segments.has s then .error .valueError
      else .ok { w with segments := w.segments ++ [(s, ⟨s⟩)] }

/-- `Wing.add_control` (`aircraft.py:371-388`). -/
def WingObj.addControl (w : WingObj) (uid : PyVal) : Except PyErr WingObj :=
  if !uid.truthy then .error .componentDefinition
  else
    match uidSetter uid with
    | .error e => .error e
    | .ok s =>
      if w.controls.has s then .error .valueError
      else .ok { w with controls := w.controls ++ [(s, ⟨s⟩)] }

/-- `Wing.symmetry` setter (`aircraft.py:321-325`). -/
def WingObj.setSymmetry (w : WingObj) (s : ℤ) : Except PyErr WingObj :=
  if s ∉ [0, 1, 2, 3] then .error .valueError else .ok { w with symmetry := s }

/-- One step of a program that builds an aircraft.  `segment` and `control` act on the wing
`self.wings[wing]`. -/
inductive BuildOp
  | wing (uid : PyVal)
  | segment (wing : String) (uid : PyVal)
  | control (wing : String) (uid : PyVal)
  | symmetry (wing : String) (s : ℤ)

/-- Apply a change to the wing with the given key. -/
def ODict.modifyE {α : Type*} (f : α → Except PyErr α) (uid : String) :
    ODict α → Except PyErr (ODict α)
  | [] => .error .keyError
  | (k, a) :: rest =>
    if k = uid then
      match f a with
      | .error e => .error e
      | .ok b => .ok ((k, b) :: rest)
    else
      match ODict.modifyE f uid rest with
      | .error e => .error e
      | .ok r => .ok ((k, a) :: r)

/-- Change the dictionary of wings. -/
def AircraftObj.onWing (ac : AircraftObj) (w : String) (f : WingObj → Except PyErr WingObj) :
    Except PyErr AircraftObj :=
  match ODict.modifyE f w ac.wings with
  | .error e => .error e
  | .ok ws => .ok ⟨ws⟩

/-- Outcome of one step. -/
def BuildOp.run : BuildOp → AircraftObj → Except PyErr AircraftObj
  | .wing uid, ac => ac.addWing uid
  | .segment w uid, ac => ac.onWing w (·.addSegment uid)
  | .control w uid, ac => ac.onWing w (·.addControl uid)
  | .symmetry w s, ac => ac.onWing w (·.setSymmetry s)

/-- The object after one step: a raised exception leaves it as it was. -/
def BuildOp.exec (op : BuildOp) (ac : AircraftObj) : AircraftObj :=
  match op.run ac with
  | .error _ => ac
  | .ok ac' => ac'

/-- A whole sequence of steps, starting with an empty aircraft. -/
def buildAll (ops : List BuildOp) : AircraftObj := ops.foldl (fun ac op => op.exec ac) ⟨[]⟩

/-! ## `WingSegment.generate` -/

/-- `segment.geometry` (`aircraft.py:593-604`). -/
structure SegGeo where
  innerChord : Option (Flt ℝ)
  innerAlpha : Option (Flt ℝ)
  innerBeta : Option (Flt ℝ)
  innerAxis : Option (Flt ℝ)
  outerChord : Option (Flt ℝ)
  outerAlpha : Option (Flt ℝ)
  outerBeta : Option (Flt ℝ)
  outerAxis : Option (Flt ℝ)
  span : Option (Flt ℝ)
  sweep : Option (Flt ℝ)
  dihedral : Option (Flt ℝ)

/-- A fresh segment: nothing given (`aircraft.py:593-604`). -/
def SegGeo.fresh : SegGeo := ⟨none, none, none, none, none, none, none, none, none, none, none⟩

/-- The values of the entries whose key contains neither `inner_` nor `outer_`. -/
def SegGeo.common (g : SegGeo) : List (Option (Flt ℝ)) := [g.span, g.sweep, g.dihedral]
/-- The values of the entries whose key contains `inner_`. -/
def SegGeo.inner (g : SegGeo) : List (Option (Flt ℝ)) :=
  [g.innerChord, g.innerAlpha, g.innerBeta, g.innerAxis]
/-- The values of the entries whose key contains `outer_`. -/
def SegGeo.outer (g : SegGeo) : List (Option (Flt ℝ)) :=
  [g.outerChord, g.outerAlpha, g.outerBeta, g.outerAxis]

open scoped Classical in
/-- Truth value of a float or `None`: zero and `None` are false. -/
noncomputable def given : Option (Flt ℝ) → Bool
  | none => false
  | some (.fin x) => x ≠ 0
  | some .nonfin => true

/-- The list `required` (`aircraft.py:1023-1038`). -/
noncomputable def SegGeo.required (g : SegGeo) : List String :=
  if (g.inner ++ g.outer ++ g.common).all given then ["a", "b", "c", "d", "ad", "bc", "abcd"]
  else if (g.outer ++ g.common).all given then ["ad", "abcd"]
  else if (g.inner ++ g.common).all given then ["bc", "abcd"]
  else ["abcd"]

/-- What `np.array(v, dtype=float)` makes of a vertex (`check_vertices`,
`aircraft.py:1308-1316`): `None` becomes an array without dimension holding NaN. -/
inductive NpVertex
  | array (p : V3 ℝ)
  | nan

/-- `check_vertices` (`aircraft.py:1308-1316`).  Simplification: the schema (external package
`schemadict`) is taken to let `None` pass; lists of three numbers are points. -/
def npVertex : Option (V3 ℝ) → NpVertex
  | none => .nan
  | some p => .array p

/-- `v is not None` for an array. -/
def NpVertex.notNone : NpVertex → Bool := fun _ => true

/-- `v[0], v[1], v[2]`: an array without dimension cannot be indexed. -/
def NpVertex.coords : NpVertex → Except PyErr (V3 ℝ)
  | .array p => .ok p
  | .nan => .error .indexError

/-- The string `provided` (`aircraft.py:1042`). -/
def providedKeys (v : Corners NpVertex) : String :=
  String.join (([("a", v.a), ("b", v.b), ("c", v.c), ("d", v.d)].filter (·.2.notNone)).map (·.1))

/-- A finite number in the given range, or `None` (entries of `GEOMETRY_SCHEMA`). -/
def inRange (lo hi : ℝ) : Option (Flt ℝ) → Prop
  | none => True
  | some (.fin x) => lo ≤ x ∧ x ≤ hi
  | some .nonfin => False

/-- `GEOMETRY_SCHEMA` (`aircraft.py:530-546`). -/
def SegGeo.schema (g : SegGeo) : Prop :=
  inRange (-90) 90 g.innerAlpha ∧ inRange (-90) 90 g.outerAlpha ∧
  inRange (-90) 90 g.innerBeta ∧ inRange (-90) 90 g.outerBeta ∧
  inRange 0 1 g.innerAxis ∧ inRange 0 1 g.outerAxis ∧
  inRange (-90) 90 g.sweep ∧ inRange (-180) 180 g.dihedral

/-- `check_geometry` before the schema (`aircraft.py:1318-1325`): default axis positions. -/
noncomputable def SegGeo.withAxes (g : SegGeo) : SegGeo :=
  { g with
    innerAxis := some (g.innerAxis.getD (.fin 0.25))
    outerAxis := some (g.outerAxis.getD (.fin 0.25)) }

/-- `degrees(x)`. -/
noncomputable def degrees (x : ℝ) : ℝ := x * (180 / Real.pi)
/-- `radians(x)`. -/
noncomputable def radians (x : ℝ) : ℝ := x * (Real.pi / 180)
/-- `atan2(y, x)`: the argument of the complex number `x + iy`. -/
noncomputable def atan2 (y x : ℝ) : ℝ := Complex.arg ⟨x, y⟩

/-- Numbers computed for one chord with chord vector `e` (`aircraft.py:1085-1100`,
`1131-1149`). -/
structure ChordData where
  r : ℝ
  chord : ℝ
  cosB : ℝ
  sinB : ℝ
  beta : ℝ
  alpha : ℝ
  tanA : ℝ

open scoped Classical in
/-- Chord data; `none` if the chord has no extent in the x-y plane: then `cos` and `sin` of the
angle `beta` are NaN and so are all angles of this chord. -/
noncomputable def chordData (e : V3 ℝ) : Option ChordData :=
  let r := √(e.x * e.x + e.y * e.y)
  if r = 0 then none
  else
    let cosB := e.x / r
    let sinB := e.y / r
    let alpha := -degrees (atan2 e.z (r * cosB))
    some ⟨r, e.norm, cosB, sinB, -degrees (Real.arcsin sinB), alpha, Real.tan (radians alpha)⟩

/-- `axi_y, axi_z` (`aircraft.py:1158-1168`): offset of the axis point on a chord. -/
noncomputable def axisOffset (k : ChordData) (axis : ℝ) : ℝ × ℝ :=
  (k.r * axis * k.sinB, k.r * axis * k.cosB * k.tanA)

/-- A value of the optional data as a Python float, NaN if there is none. -/
def optFlt {α : Type*} (f : α → ℝ) : Option α → Flt ℝ
  | none => .nonfin
  | some a => .fin (f a)

/-- Value of `geometry[..axis]` after `check_geometry`. -/
noncomputable def axisVal : Option (Flt ℝ) → ℝ
  | some (.fin x) => x
  | _ => 0.25

/-- `dihedral` (`aircraft.py:1158-1196`). -/
noncomputable def dihedralOf (b : V3 ℝ) (axI axO : ℝ) : Option ChordData → Option ChordData → Flt ℝ
  | some ki, some ko =>
    let axsY := (axisOffset ko axO).1 - (axisOffset ki axI).1
    let axsZ := (axisOffset ko axO).2 - (axisOffset ki axI).2
    .fin (degrees (atan2 (b.z + axsZ) (b.y + axsY)))
  | _, _ => .nonfin

/-- The geometry of a segment from its four vertices (`aircraft.py:1079-1196`, the branches taken
if all vertices are there). -/
noncomputable def derivedGeo (v : Corners (V3 ℝ)) (g : SegGeo) : SegGeo :=
  let inn := v.d - v.a
  let out := v.c - v.b
  let b := v.b - v.a
  let span := √(b.y * b.y + b.z * b.z)
  { innerChord := some (.fin inn.norm)
    innerAlpha := some (optFlt ChordData.alpha (chordData inn))
    innerBeta := some (optFlt ChordData.beta (chordData inn))
    innerAxis := g.innerAxis
    outerChord := some (.fin out.norm)
    outerAlpha := some (optFlt ChordData.alpha (chordData out))
    outerBeta := some (optFlt ChordData.beta (chordData out))
    outerAxis := g.outerAxis
    span := some (.fin span)
    sweep := some (.fin (degrees (atan2 b.x span)))
    dihedral := some (dihedralOf b (axisVal g.innerAxis) (axisVal g.outerAxis)
      (chordData inn) (chordData out)) }

/-- A segment after `generate`. -/
structure GenSegment where
  vertices : Corners (V3 ℝ)
  geometry : SegGeo

open scoped Classical in
/-- `WingSegment.generate` (`aircraft.py:983-1306`).  Simplifications: `check_airfoils`,
`check_panels` and `_import_airfoils` (external files) are left out; they can only raise.  The
code that computes vertices from geometry data (1059-1077, 1103-1121, 1206-1293) belongs to the
case `provided ≠ "abcd"`, which never occurs (see `C67`); it is not modelled and stands here as
`runtimeError`. -/
noncomputable def generateSegment (vertices : Corners (Option (V3 ℝ))) (geometry : SegGeo) :
    Except PyErr GenSegment :=
  let v : Corners NpVertex :=
    ⟨npVertex vertices.a, npVertex vertices.b, npVertex vertices.c, npVertex vertices.d⟩
  let g := geometry.withAxes
  if ¬ g.schema then .error .valueError
  else
    let provided := providedKeys v
    if provided = "" then .error .componentDefinition
    else if provided ∉ ["a", "b", "c", "d", "ad", "bc", "abcd"] then .error .componentDefinition
    else if provided ∉ g.required then .error .componentDefinition
    else if provided ≠ "abcd" then .error .runtimeError
    else
      match v.d.coords, v.a.coords, v.c.coords, v.b.coords with
      | .ok d, .ok a, .ok c, .ok b => .ok ⟨⟨a, b, c, d⟩, derivedGeo ⟨a, b, c, d⟩ g⟩
      | .error e, _, _, _ => .error e
      | _, .error e, _, _ => .error e
      | _, _, .error e, _ => .error e
      | _, _, _, .error e => .error e

/-! ## Spans, positions, areas -/

/-- `geometry['span']`, `geometry['inner_chord']` … of a generated segment. -/
def fltVal : Option (Flt ℝ) → ℝ
  | some (.fin x) => x
  | _ => 0

/-- `WingSegment.area` (`aircraft.py:641-645`); after `generate` all three values are finite. -/
noncomputable def SegGeo.area (g : SegGeo) : ℝ :=
  fltVal g.span * 0.5 * (fltVal g.innerChord + fltVal g.outerChord)

/-- `Wing.area` (`aircraft.py:334-341`). -/
noncomputable def wingArea (segs : List GenSegment) : ℝ :=
  segs.foldl (fun area s => area + s.geometry.area) 0

/-- `Aircraft.area` (`aircraft.py:155-162`). -/
noncomputable def aircraftArea (wings : List (List GenSegment)) : ℝ :=
  wings.foldl (fun area w => area + wingArea w) 0

section
variable {K : Type*} [Field K] [LinearOrder K]

/-- `Wing.span` (`aircraft.py:343-350`). -/
def spanTotal (spans : List K) : K := spans.foldl (fun acc s => acc + |s|) 0

/-- The loop over segment positions (`aircraft.py:403-408`); `pos` is the running sum. -/
def positionsFrom (total : K) : K → List K → Except PyErr (List (K × K))
  | _, [] => .ok []
  | pos, s :: rest =>
    if total = 0 then .error .zeroDivision
    else
      let inner := pos / total
      let pos' := pos + s
      let outer := pos' / total
      match positionsFrom total pos' rest with
      | .error e => .error e
      | .ok ps => .ok ((inner, outer) :: ps)

/-- Segment positions of a wing from the spans of its segments. -/
def positions (spans : List K) : Except PyErr (List (K × K)) :=
  positionsFrom (spanTotal spans) 0 spans

end

/-- `Wing.generate` (`aircraft.py:390-408`): generate all segments, then their positions.  The
rest of the method only writes warnings (`Model/Continuity`). -/
noncomputable def generateWing (segs : List (Corners (Option (V3 ℝ)) × SegGeo)) :
    Except PyErr (List (GenSegment × (ℝ × ℝ))) :=
  match mapE (fun s => generateSegment s.1 s.2) segs with
  | .error e => .error e
  | .ok gs =>
    match positions (gs.map fun s => fltVal s.geometry.span) with
    | .error e => .error e
    | .ok ps => .ok (gs.zip ps)

/-! ## Size -/

/-- A box: lower and upper corner. -/
structure BBox where
  lo : V3 ℝ
  hi : V3 ℝ

/-- Componentwise minimum of the four vertices (`points.min(axis=0)`). -/
noncomputable def Corners.minPt (v : Corners (V3 ℝ)) : V3 ℝ :=
  let m := fun f : V3 ℝ → ℝ => min (min (min (f v.a) (f v.b)) (f v.c)) (f v.d)
  ⟨m V3.x, m V3.y, m V3.z⟩

/-- Componentwise maximum of the four vertices (`points.max(axis=0)`). -/
noncomputable def Corners.maxPt (v : Corners (V3 ℝ)) : V3 ℝ :=
  let m := fun f : V3 ℝ → ℝ => max (max (max (f v.a) (f v.b)) (f v.c)) (f v.d)
  ⟨m V3.x, m V3.y, m V3.z⟩

open scoped Classical in
/-- `if new < old: old = new`. -/
noncomputable def lower (old new : ℝ) : ℝ := if new < old then new else old

open scoped Classical in
/-- `if new > old: old = new`. -/
noncomputable def raise (old new : ℝ) : ℝ := if new > old then new else old

/-- One segment in the loop of `Aircraft.size` (`aircraft.py:172-208`). -/
noncomputable def BBox.step (box : BBox) (symmetry : ℕ) (v : Corners (V3 ℝ)) : BBox :=
  let mn := v.minPt
  let mx := v.maxPt
  let b : BBox :=
    ⟨⟨lower box.lo.x mn.x, lower box.lo.y mn.y, lower box.lo.z mn.z⟩,
     ⟨raise box.hi.x mx.x, raise box.hi.y mx.y, raise box.hi.z mx.z⟩⟩
  if symmetry = 1 then
    ⟨{ b.lo with z := lower b.lo.z (-mx.z) }, { b.hi with z := raise b.hi.z (-mn.z) }⟩
  else if symmetry = 2 then
    ⟨{ b.lo with y := lower b.lo.y (-mx.y) }, { b.hi with y := raise b.hi.y (-mn.y) }⟩
  else if symmetry = 3 then
    ⟨{ b.lo with x := lower b.lo.x (-mx.x) }, { b.hi with x := raise b.hi.x (-mn.x) }⟩
  else b

/-- The loops of `Aircraft.size` over wings (symmetry and vertices of the segments). -/
noncomputable def bboxOf (wings : List (ℕ × List (Corners (V3 ℝ)))) : BBox :=
  wings.foldl (fun box w => w.2.foldl (fun box v => box.step w.1 v) box) ⟨0, 0⟩

/-- `Aircraft.size` (`aircraft.py:164-211`). -/
noncomputable def aircraftSize (wings : List (ℕ × List (Corners (V3 ℝ)))) : ℝ :=
  ((bboxOf wings).hi - (bboxOf wings).lo).norm

/-! ## `WingControl.check` -/

/-- A control surface definition (`aircraft.py:1383-1405`).  `panels` and device type are as their
schema and setter admit them. -/
structure ControlDef (K : Type*) where
  segInner : String
  segOuter : String
  etaInner : K
  etaOuter : K
  xsiInner : K
  xsiOuter : K
  hingeInner : K
  hingeOuter : K
  numC : Option ℤ
  deviceType : Option String
  deflection : Val K
  deflectionMirror : Val K

section
variable {K : Type*} [Field K] [LinearOrder K]

/-- `device_type` setter (`aircraft.py:1412-1420`). -/
def ControlDef.setDeviceType (c : ControlDef K) : PyVal → Except PyErr (ControlDef K)
  | .str s =>
    if s ∉ ["slat", "flap"] then .error .valueError else .ok { c with deviceType := some s }
  | _ => .error .typeError

/-- `SCHEMA_FLOAT_01`. -/
def in01 (x : K) : Bool := decide (0 ≤ x) && decide (x ≤ 1)

/-- `-90.0 <= x <= +90.0`; false for NaN and infinite values. -/
def Val.within90 : Val K → Bool
  | .num (.fin x) => decide (-90 ≤ x) && decide (x ≤ 90)
  | _ => false

/-- Validation of a deflection that is set (`aircraft.py:1505-1512`, `1521-1526`). -/
def checkDeflection (v : Val K) : Except PyErr (Val K) :=
  if !v.isNum then .error .typeError
  else if !v.within90 then .error .valueError
  else .ok v

/-- `WingControl.check` (`aircraft.py:1485-1526`).  Simplification: violations of the schemas are
reported as `valueError` (the exception class is chosen by the package `schemadict`); conversion
of `int` to `float` keeps the value. -/
def ControlDef.check (c : ControlDef K) (symmetry : ℕ) : Except PyErr (ControlDef K) :=
  if !((c.numC.all fun n => decide (n > 0)) &&
      in01 c.etaInner && in01 c.etaOuter && in01 c.xsiInner && in01 c.xsiOuter &&
      in01 c.hingeInner && in01 c.hingeOuter) then .error .valueError
  else if c.deviceType = none then .error .componentDefinition
  else if c.segInner = c.segOuter ∧ c.etaOuter ≤ c.etaInner then .error .valueError
  else if c.deflection = .none then .error .componentDefinition
  else
    match checkDeflection c.deflection with
    | .error e => .error e
    | .ok d =>
      let c := { c with deflection := d }
      if c.deflectionMirror = .none then
        if symmetry ≠ 0 then .ok { c with deflectionMirror := c.deflection } else .ok c
      else if symmetry = 0 then .ok c
      else
        match checkDeflection c.deflectionMirror with
        | .error e => .error e
        | .ok m => .ok { c with deflectionMirror := m }

end

end Verif
