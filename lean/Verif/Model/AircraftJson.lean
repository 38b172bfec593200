import Verif.Model.FileIO

/-!
# The aircraft file as JSON data

Model of `load` in `/repo/src/lib/pytornado/fileio/native/aircraft.py` on the data that `json.load`
returns, step by step in the order of the code, with the checks of types that `Model/FileIO` leaves out.
Simplifications: numbers in the file are real numbers; the literals NaN and Infinity, which are not part of
JSON, do not occur; keys in one JSON object are unique.  The package `schemadict` is modelled by its
contract: a required key must have a value of the given type and range, another key may also be missing or
`None`; which exception it raises, whether it admits keys without a schema and whether `True` counts as a
number are parameters.
-/

namespace Verif

/-- What `json.load` returns. -/
inductive Json
  | null
  | bool (b : Bool)
  | int (z : ℤ)
  | num (x : ℝ)
  | str (s : String)
  | arr (l : List Json)
  | obj (d : List (String × Json))

/-- A dictionary. -/
abbrev JDict := List (String × Json)

/-- `j[key]` for a string `key`. -/
def Json.item : Json → String → Except PyErr Json
  | .obj d, key => match d.lookup key with
    | none => .error .keyError
    | some v => .ok v
  | _, _ => .error .typeError

/-- `j.get(key, default)`. -/
def Json.get : Json → String → Json → Except PyErr Json
  | .obj d, key, default => .ok ((d.lookup key).getD default)
  | _, _, _ => .error .attributeError

/-- `j.items()`. -/
def Json.items : Json → Except PyErr JDict
  | .obj d => .ok d
  | _ => .error .attributeError

/-- The elements in `for x in j` and `list(j)`: keys of a dictionary, characters of a string. -/
def Json.elements : Json → Except PyErr (List Json)
  | .arr l => .ok l
  | .obj d => .ok (d.map fun e => .str e.1)
  | .str s => .ok (s.toList.map fun c => .str (String.singleton c))
  | _ => .error .typeError

open scoped Classical in
/-- The truth value of an object. -/
noncomputable def Json.truthy : Json → Bool
  | .null => false
  | .bool b => b
  | .int z => decide (z ≠ 0)
  | .num x => decide (x ≠ 0)
  | .str s => decide (s ≠ "")
  | .arr l => !l.isEmpty
  | .obj d => !d.isEmpty

/-- An attribute dictionary of the objects (`refs`, `vertices`, …): all its known keys are present with
the value `None` before the entries of the file are copied into it (`aircraft.py:132-138`, `587-616`,
`1383-1401`). -/
def JDict.value (d : JDict) (key : String) : Json := (d.lookup key).getD .null

/-- Parameters: what is left open by the contract of external packages. -/
structure JsonEnv where
  /-- exception raised by `schemadict` -/
  schemaErr : PyErr
  /-- `schemadict` admits keys that are not in the schema -/
  extraKeys : Bool
  /-- `schemadict` takes `True` and `False` for numbers -/
  boolNumbers : Bool
  /-- number denoted by a string in `float(string)` -/
  parseFloat : String → Option ℝ

/-- A schema without range for `{'type': float}`. -/
noncomputable def floatOf : Json → Option ℝ
  | .num q => some q
  | _ => none

/-- `{'type': float, '>=': lo, '<=': hi}`. -/
noncomputable def floatIn (lo hi : ℝ) (j : Json) : Option ℝ :=
  (floatOf j).bind fun x => open Classical in if lo ≤ x ∧ x ≤ hi then some x else none

/-- `{'type': int, '>': 0}`. -/
def posInt (E : JsonEnv) : Json → Option ℤ
  | .int z => if 0 < z then some z else none
  | .bool true => if E.boolNumbers then some 1 else none
  | _ => none

/-- `{'type': str}`. -/
def strOf : Json → Option String
  | .str s => some s
  | _ => none

/-- Items of type `(int, float)`. -/
noncomputable def numberOf (E : JsonEnv) : Json → Option ℝ
  | .int z => some z
  | .num q => some q
  | .bool b => if E.boolNumbers then some (if b then 1 else 0) else none
  | _ => none

/-- `SCHEMA_ARRAY_XYZ` (`aircraft.py:71`). -/
noncomputable def xyzOf (E : JsonEnv) : Json → Option (V3 ℝ)
  | .arr [x, y, z] =>
    match numberOf E x, numberOf E y, numberOf E z with
    | some x, some y, some z => some ⟨x, y, z⟩
    | _, _, _ => none
  | _ => none

/-- A value that may be missing or `None`. -/
def optField {α : Type} (E : JsonEnv) (conv : Json → Option α) (d : JDict) (key : String) :
    Except PyErr (Option α) :=
  match d.value key with
  | .null => .ok none
  | v => match conv v with
    | some x => .ok (some x)
    | none => .error E.schemaErr

/-- A required value. -/
def reqField {α : Type} (E : JsonEnv) (conv : Json → Option α) (d : JDict) (key : String) :
    Except PyErr α :=
  match conv (d.value key) with
  | some x => .ok x
  | none => .error E.schemaErr

/-- Keys without a schema. -/
def checkKeys (E : JsonEnv) (known : List String) (d : JDict) : Except PyErr Unit :=
  if E.extraKeys || d.all fun e => decide (e.1 ∈ known) then .ok () else .error E.schemaErr

/-- `add_wing`, `add_segment`, `add_control` (`aircraft.py:226-243`, `352-371`, `373-392`): the name of
a new object.  A name that is not a string is refused by the setter of `uid`, or by the look-up if it
cannot be hashed. -/
noncomputable def newName (seen : List String) (j : Json) : Except PyErr String :=
  if !j.truthy then .error .componentDefinition
  else match j with
    | .str s => if s ∈ seen then .error .valueError else .ok s
    | _ => .error .typeError

/-- A loop that makes objects with names: each one sees the names before it. -/
noncomputable def makeEach {α : Type} (make : List String → Json → Except PyErr α) (uid : α → String) :
    List String → List Json → Except PyErr (List α)
  | _, [] => .ok []
  | seen, j :: rest => do
    let a ← make seen j
    let as ← makeEach make uid (uid a :: seen) rest
    .ok (a :: as)

/-- A segment after the loop of `load`. -/
structure RawSegment where
  uid : String
  vertices : JDict
  geometry : JDict
  airfoils : JDict
  panels : JDict

/-- One entry of `airfoils` (`native/aircraft.py:88-92`). -/
def readAirfoil (root : String) (e : String × Json) : Except PyErr (String × Json) :=
  match e.2 with
  | .str s => .ok (e.1, .str (loadAirfoil root s))
  | _ => .error .attributeError

/-- An optional group: `if entry.get(key, None): for … in entry[key].items()`
(`native/aircraft.py:84-86`, `94-96`). -/
noncomputable def readGroup (e : Json) (key : String) : Except PyErr JDict := do
  let g ← e.get key .null
  if g.truthy then g.items else .ok []

/-- One segment (`native/aircraft.py:78-96`). -/
noncomputable def readSegment (root : String) (seen : List String) (e : Json) : Except PyErr RawSegment := do
  let u ← e.item "uid"
  let uid ← newName seen u
  let v ← e.item "vertices"
  let vertices ← v.items
  let geometry ← readGroup e "geometry"
  let a ← e.item "airfoils"
  let as ← a.items
  let airfoils ← mapE (readAirfoil root) as
  let panels ← readGroup e "panels"
  .ok ⟨uid, vertices, geometry, airfoils, panels⟩

/-- `device_type` setter (`aircraft.py:1412-1420`). -/
noncomputable def readDeviceType : Json → Except PyErr String
  | .str s => if s ∉ ["slat", "flap"] then .error .valueError else .ok s
  | _ => .error .typeError

/-- A deflection angle. -/
noncomputable def jsonVal : Json → Val ℝ
  | .null => .none
  | .bool b => .num (.fin (if b then 1 else 0))
  | .int z => .num (.fin z)
  | .num q => .num (.fin q)
  | .str _ => .text none
  | _ => .obj

/-- The four schemas of a control (`aircraft.py:1331-1354`, `1485-1494`). -/
noncomputable def checkControl (E : JsonEnv) (seg rel hinge : JDict) (numC : Json) :
    Except PyErr (ControlDef ℝ) := do
  let s1 ← reqField E strOf seg "inner"
  let s2 ← reqField E strOf seg "outer"
  checkKeys E ["inner", "outer"] seg
  let n ← optField E (posInt E) [("num_c", numC)] "num_c"
  let e1 ← reqField E (floatIn 0 1) rel "eta_inner"
  let e2 ← reqField E (floatIn 0 1) rel "eta_outer"
  let x1 ← reqField E (floatIn 0 1) rel "xsi_inner"
  let x2 ← reqField E (floatIn 0 1) rel "xsi_outer"
  checkKeys E ["eta_inner", "eta_outer", "xsi_inner", "xsi_outer"] rel
  let h1 ← reqField E (floatIn 0 1) hinge "xsi_inner"
  let h2 ← reqField E (floatIn 0 1) hinge "xsi_outer"
  checkKeys E ["xsi_inner", "xsi_outer"] hinge
  .ok ⟨s1, s2, e1, e2, x1, x2, h1, h2, n, none, .none, .none⟩

/-- One control (`native/aircraft.py:98-115`). -/
noncomputable def readControl (E : JsonEnv) (symmetry : ℕ) (seen : List String) (e : Json) :
    Except PyErr FileControl := do
  let u ← e.item "uid"
  let uid ← newName seen u
  let t ← e.item "device_type"
  let deviceType ← readDeviceType t
  let deflection ← e.item "deflection"
  let mirror ← e.get "deflection_mirror" .null
  let s ← e.item "segment_uid"
  let seg ← s.items
  let r ← e.item "rel_vertices"
  let rel ← r.items
  let h ← e.item "rel_hinge_vertices"
  let hinge ← h.items
  let p ← e.item "panels"
  let numC ← p.item "num_c"
  let c ← checkControl E seg rel hinge numC
  let d ← ControlDef.check { c with
    deviceType := some deviceType
    deflection := jsonVal deflection
    deflectionMirror := jsonVal mirror } symmetry
  .ok ⟨uid, d⟩

open scoped Classical in
/-- `symmetry` setter (`aircraft.py:318-322`); `True == 1` and `2.0 == 2`. -/
noncomputable def readSymmetry : Json → Except PyErr ℕ
  | .int z => if 0 ≤ z ∧ z ≤ 3 then .ok z.toNat else .error .valueError
  | .num x => if x = 0 then .ok 0 else if x = 1 then .ok 1 else if x = 2 then .ok 2 else if x = 3 then .ok 3
    else .error .valueError
  | .bool b => .ok (if b then 1 else 0)
  | _ => .error .valueError

/-- A wing after the loop of `load`. -/
structure RawWing where
  uid : String
  symmetry : ℕ
  segments : List RawSegment
  controls : List FileControl

/-- One wing (`native/aircraft.py:72-115`). -/
noncomputable def readWing (E : JsonEnv) (root : String) (seen : List String) (e : Json) :
    Except PyErr RawWing := do
  let u ← e.item "uid"
  let uid ← newName seen u
  let y ← e.item "symmetry"
  let symmetry ← readSymmetry y
  let s ← e.item "segments"
  let ss ← s.elements
  let segments ← makeEach (readSegment root) RawSegment.uid [] ss
  let c ← e.get "controls" (.arr [])
  let cs ← c.elements
  let controls ← makeEach (readControl E symmetry) FileControl.uid [] cs
  .ok ⟨uid, symmetry, segments, controls⟩

/-- `float(j)`. -/
noncomputable def toFloat (E : JsonEnv) : Json → Except PyErr ℝ
  | .bool b => .ok (if b then 1 else 0)
  | .int z => .ok z
  | .num q => .ok q
  | .str s => match E.parseFloat s with
    | some q => .ok q
    | none => .error .valueError
  | _ => .error .typeError

/-- The schema of `comment`. -/
def checkComment (E : JsonEnv) : Json → Except PyErr (Option String)
  | .null => .ok none
  | .str s => .ok (some s)
  | _ => .error E.schemaErr

open Classical in
/-- Reference values in `Aircraft.generate` (`aircraft.py:250-261`). -/
noncomputable def generateRefs (E : JsonEnv) (r : JDict) : Except PyErr AcRefs := do
  let area ← toFloat E (r.value "area")
  let chord ← toFloat E (r.value "chord")
  let span ← toFloat E (r.value "span")
  let g ← (r.value "gcenter").elements
  let c ← (r.value "rcenter").elements
  let gcenter ← reqField E (xyzOf E) [("gcenter", .arr g)] "gcenter"
  let rcenter ← reqField E (xyzOf E) [("rcenter", .arr c)] "rcenter"
  if ¬ (0 < area ∧ 0 < span ∧ 0 < chord) then .error E.schemaErr
  else do
    let comment ← checkComment E (r.value "comment")
    checkKeys E ["gcenter", "rcenter", "area", "chord", "span", "comment"] r
    .ok ⟨area, span, chord, gcenter, rcenter, comment⟩

/-- An optional number as it is stored. -/
noncomputable def someFin : Option ℝ → Option (Flt ℝ) := Option.map Flt.fin

/-- `check_geometry` (`aircraft.py:1318-1328`) after the default of the axes, which lies in its range. -/
noncomputable def checkGeometry (E : JsonEnv) (d : JDict) : Except PyErr SegGeo := do
  let ic ← optField E floatOf d "inner_chord"
  let ia ← optField E (floatIn (-90) 90) d "inner_alpha"
  let ib ← optField E (floatIn (-90) 90) d "inner_beta"
  let ix ← optField E (floatIn 0 1) d "inner_axis"
  let oc ← optField E floatOf d "outer_chord"
  let oa ← optField E (floatIn (-90) 90) d "outer_alpha"
  let ob ← optField E (floatIn (-90) 90) d "outer_beta"
  let ox ← optField E (floatIn 0 1) d "outer_axis"
  let sp ← optField E floatOf d "span"
  let sw ← optField E (floatIn (-90) 90) d "sweep"
  let dh ← optField E (floatIn (-180) 180) d "dihedral"
  checkKeys E ["inner_chord", "outer_chord", "inner_alpha", "outer_alpha", "inner_beta", "outer_beta",
    "inner_axis", "outer_axis", "span", "sweep", "dihedral"] d
  .ok { innerChord := someFin ic, innerAlpha := someFin ia, innerBeta := someFin ib,
        innerAxis := someFin ix, outerChord := someFin oc, outerAlpha := someFin oa,
        outerBeta := someFin ob, outerAxis := someFin ox, span := someFin sp, sweep := someFin sw,
        dihedral := someFin dh }

/-- `check_vertices` (`aircraft.py:1308-1316`). -/
noncomputable def checkVertices (E : JsonEnv) (d : JDict) : Except PyErr (Corners (Option (V3 ℝ))) := do
  let a ← optField E (xyzOf E) d "a"
  let b ← optField E (xyzOf E) d "b"
  let c ← optField E (xyzOf E) d "c"
  let e ← optField E (xyzOf E) d "d"
  checkKeys E ["a", "b", "c", "d"] d
  .ok ⟨a, b, c, e⟩

/-- A further vertex: the names of all vertices that are not `None`, put together, must be `abcd`
(`aircraft.py:1037-1041`); the empty name adds nothing. -/
def checkFurther (d : JDict) : Except PyErr Unit :=
  if d.all fun e => decide (e.1 ∈ ["a", "b", "c", "d", ""]) || (match e.2 with | .null => true | _ => false)
  then .ok () else .error .componentDefinition

/-- `WingSegment.generate` (`aircraft.py:983-1306`) with its checks; `airfoilOk` as in `loadSegment`. -/
noncomputable def generateRawSegment (E : JsonEnv) (airfoilOk : String → Bool) (s : RawSegment) :
    Except PyErr LoadedSegment := do
  let v ← checkVertices E s.vertices
  let g ← checkGeometry E s.geometry
  let inner ← reqField E strOf s.airfoils "inner"
  let outer ← reqField E strOf s.airfoils "outer"
  checkKeys E ["inner", "outer"] s.airfoils
  let numC ← optField E (posInt E) s.panels "num_c"
  let numS ← optField E (posInt E) s.panels "num_s"
  checkKeys E ["num_c", "num_s"] s.panels
  checkFurther s.vertices
  let gen ← generateSegment v g
  if !(airfoilOk inner && airfoilOk outer) then .error .valueError
  else .ok ⟨s.uid, gen, inner, outer, numC, numS, (0, 0)⟩

/-- `Wing.generate` (`aircraft.py:394-502`). -/
noncomputable def generateRawWing (E : JsonEnv) (airfoilOk : String → Bool) (w : RawWing) :
    Except PyErr LoadedWing := do
  let gs ← mapE (generateRawSegment E airfoilOk) w.segments
  let ps ← positions (gs.map fun s => fltVal s.gen.geometry.span)
  .ok ⟨w.uid, w.symmetry, (gs.zip ps).map fun x => { x.1 with position := x.2 }, w.controls⟩

/-- Setter of the name of the aircraft (`aircraft.py:148-152`). -/
def readName : Json → Except PyErr String
  | .str s => .ok s
  | _ => .error .typeError

/-- `load` (`native/aircraft.py:43-118`) on the data in the file. -/
noncomputable def loadJson (E : JsonEnv) (root : String) (airfoilOk : String → Bool) (j : Json) :
    Except PyErr LoadedAircraft := do
  let u ← j.item "uid"
  let uid ← readName u
  let r ← j.item "refs"
  let refs ← r.items
  let w ← j.item "wings"
  let ws ← w.elements
  let wings ← makeEach (readWing E root) RawWing.uid [] ws
  let refs' ← generateRefs E refs
  let wings' ← mapE (generateRawWing E airfoilOk) wings
  .ok ⟨uid, refs', wings'⟩

/-! ## Writing -/

/-- A point (`NDArrayEncoder`, `fileio/utils.py:34-45`). -/
def pointJson (p : V3 ℝ) : Json := .arr [.num p.x, .num p.y, .num p.z]

/-- An entry of `geometry`.  The literal NaN is not part of JSON; here a string stands for it. -/
def geoJson : Option (Flt ℝ) → Json
  | none => .null
  | some (.fin x) => .num x
  | some .nonfin => .str "NaN"

/-- A number of panels. -/
def countJson : Option ℤ → Json
  | none => .null
  | some n => .int n

/-- A deflection.  A text or another object, which is possible only for `deflection_mirror` of a wing
without symmetry, is written as it was read; its content is not modelled. -/
def angleJson : Val ℝ → Json
  | .num (.fin x) => .num x
  | .num .nonfin => .str "NaN"
  | .none => .null
  | .text _ => .str ""
  | .obj => .arr []

/-- A text or `None`. -/
def textJson : Option String → Json
  | none => .null
  | some s => .str s

/-- Entry of a segment (`native/aircraft.py:149-174`). -/
def segmentJson (s : LoadedSegment) : Json :=
  .obj [("uid", .str s.uid),
    ("vertices", .obj [("a", pointJson s.gen.vertices.a), ("b", pointJson s.gen.vertices.b),
      ("c", pointJson s.gen.vertices.c), ("d", pointJson s.gen.vertices.d)]),
    ("geometry", .obj [("inner_chord", geoJson s.gen.geometry.innerChord),
      ("inner_alpha", geoJson s.gen.geometry.innerAlpha), ("inner_beta", geoJson s.gen.geometry.innerBeta),
      ("inner_axis", geoJson s.gen.geometry.innerAxis), ("outer_chord", geoJson s.gen.geometry.outerChord),
      ("outer_alpha", geoJson s.gen.geometry.outerAlpha), ("outer_beta", geoJson s.gen.geometry.outerBeta),
      ("outer_axis", geoJson s.gen.geometry.outerAxis), ("span", geoJson s.gen.geometry.span),
      ("sweep", geoJson s.gen.geometry.sweep), ("dihedral", geoJson s.gen.geometry.dihedral)]),
    ("airfoils", .obj [("inner", .str (saveAirfoil s.airfoilInner)), ("outer", .str (saveAirfoil s.airfoilOuter))]),
    ("panels", .obj [("num_c", countJson s.numC), ("num_s", countJson s.numS)])]

/-- Entry of a control (`native/aircraft.py:176-200`). -/
def controlJson (c : FileControl) : Json :=
  .obj [("uid", .str c.uid), ("device_type", textJson c.data.deviceType),
    ("deflection", angleJson c.data.deflection), ("deflection_mirror", angleJson c.data.deflectionMirror),
    ("segment_uid", .obj [("inner", .str c.data.segInner), ("outer", .str c.data.segOuter)]),
    ("rel_vertices", .obj [("eta_inner", .num c.data.etaInner), ("eta_outer", .num c.data.etaOuter),
      ("xsi_inner", .num c.data.xsiInner), ("xsi_outer", .num c.data.xsiOuter)]),
    ("rel_hinge_vertices", .obj [("xsi_inner", .num c.data.hingeInner), ("xsi_outer", .num c.data.hingeOuter)]),
    ("panels", .obj [("num_c", countJson c.data.numC)])]

/-- Entry of a wing (`native/aircraft.py:141-202`). -/
def wingJson (w : LoadedWing) : Json :=
  .obj [("uid", .str w.uid), ("symmetry", .int w.symmetry), ("segments", .arr (w.segments.map segmentJson)),
    ("controls", .arr (w.controls.map controlJson))]

/-- `save` (`native/aircraft.py:121-205`): the data written to the file. -/
def saveJson (ac : LoadedAircraft) : Json :=
  .obj [("uid", .str ac.uid),
    ("refs", .obj [("area", .num ac.refs.area), ("span", .num ac.refs.span), ("chord", .num ac.refs.chord),
      ("gcenter", pointJson ac.refs.gcenter), ("rcenter", pointJson ac.refs.rcenter),
      ("comment", textJson ac.refs.comment)]),
    ("wings", .arr (ac.wings.map wingJson))]

end Verif
