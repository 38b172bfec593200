import Verif.Model.Aircraft

/-!
# Reading and writing files

Model of `/repo/src/lib/pytornado/fileio/native/aircraft.py`, `native/deformation.py` and
`fileio/utils.py`.  JSON text is not modelled; files are the data they hold.
-/

namespace Verif

/-! ## `parse_str` -/

/-- `parse_str(entry, allow_char)` (`fileio/utils.py:52-73`).  `alnum` is `str.isalnum` for one
character (Unicode tables are not modelled). -/
def parseStr (alnum : Char → Bool) (entry : PyVal) (allowChar : String) : Except PyErr String :=
  match entry with
  | .str s => .ok (String.ofList (s.toList.filter fun c => alnum c || allowChar.toList.contains c))
  | _ => .error .valueError

/-! ## Deformation file -/

/-- The part of a wing which the deformation loader changes (`aircraft.py:298-301`); `α` stands
for deformation fields. -/
structure DefWing (α : Type*) where
  defField : Option α
  defFieldMirror : Option α

/-- `name.startswith('_')`. -/
def startsUnderscore (name : String) : Bool := "_".toList.isPrefixOf name.toList

/-- `name.endswith('_m')`. -/
def endsM (name : String) : Bool := "_m".toList.isSuffixOf name.toList

/-- `s.replace('_m', '')` on characters: remove all occurrences from left to right. -/
def removeM : List Char → List Char
  | [] => []
  | [c] => [c]
  | c :: d :: rest => if c = '_' ∧ d = 'm' then removeM rest else c :: removeM (d :: rest)

/-- `aircraft.wings[uid].attribute = value`. -/
def setWing {α : Type*} (uid : String) (f : DefWing α → DefWing α) (ws : ODict (DefWing α)) :
    Except PyErr (ODict (DefWing α)) :=
  ODict.modifyE (fun w => .ok (f w)) uid ws

/-- The loop of `load` (`native/deformation.py:55-67`) over the fields of the file. -/
def loadDeformation {α : Type*} : List (String × α) → ODict (DefWing α) →
    Except PyErr (ODict (DefWing α))
  | [], ws => .ok ws
  | (uid, field) :: rest, ws =>
    if startsUnderscore uid then loadDeformation rest ws
    else if endsM uid then
      match setWing (String.ofList (removeM uid.toList))
          (fun w => { w with defFieldMirror := some field }) ws with
      | .error e => .error e
      | .ok ws' => loadDeformation rest ws'
    else
      match setWing uid (fun w => { w with defField := some field }) ws with
      | .error e => .error e
      | .ok ws' => loadDeformation rest ws'

/-! ## Aircraft file -/

/-- Reference values (`aircraft.py:87-94`, `132-138`). -/
structure AcRefs where
  area : ℝ
  span : ℝ
  chord : ℝ
  gcenter : V3 ℝ
  rcenter : V3 ℝ
  comment : Option String

/-- Entry of a segment in the file.  Simplification: optional groups that are missing are given
with empty values. -/
structure FileSegment where
  uid : String
  vertices : Corners (Option (V3 ℝ))
  geometry : SegGeo
  airfoilInner : String
  airfoilOuter : String
  numC : Option ℤ
  numS : Option ℤ

/-- Entry of a control in the file. -/
structure FileControl where
  uid : String
  data : ControlDef ℝ

/-- Entry of a wing in the file. -/
structure FileWing where
  uid : String
  symmetry : ℕ
  segments : List FileSegment
  controls : List FileControl

/-- The aircraft file. -/
structure FileAircraft where
  uid : String
  refs : AcRefs
  wings : List FileWing

/-- A segment of a loaded aircraft. -/
structure LoadedSegment where
  uid : String
  gen : GenSegment
  airfoilInner : String
  airfoilOuter : String
  numC : Option ℤ
  numS : Option ℤ
  position : ℝ × ℝ

/-- A wing of a loaded aircraft. -/
structure LoadedWing where
  uid : String
  symmetry : ℕ
  segments : List LoadedSegment
  controls : List FileControl

/-- A loaded aircraft. -/
structure LoadedAircraft where
  uid : String
  refs : AcRefs
  wings : List LoadedWing

/-- `if value.startswith('airfoils'): value = os.path.join(root, value)`
(`native/aircraft.py:88-92`); the path `root` has no slash at its end. -/
def loadAirfoil (root value : String) : String :=
  if "airfoils".toList.isPrefixOf value.toList then root ++ "/" ++ value else value

/-- `os.path.basename`: what follows the last slash. -/
def basename (path : String) : String :=
  String.ofList (path.toList.reverse.takeWhile (· ≠ '/')).reverse

/-- `"blade." in value`. -/
def mentionsBlade (value : String) : Bool := decide ("blade.".toList <:+: value.toList)

/-- Path of an airfoil in a saved file (`native/aircraft.py:160-166`). -/
def saveAirfoil (value : String) : String :=
  if mentionsBlade value then "airfoils/" ++ basename value else value

/-- Names added one after the other: empty and repeated names raise (`add_wing`, `add_segment`,
`add_control`). -/
def checkNames : List String → List String → Except PyErr Unit
  | _, [] => .ok ()
  | seen, s :: rest =>
    if s = "" then .error .componentDefinition
    else if s ∈ seen then .error .valueError
    else checkNames (s :: seen) rest

/-- A control from its entry (`native/aircraft.py:99-115`). -/
noncomputable def loadControl (symmetry : ℕ) (c : FileControl) : Except PyErr FileControl :=
  match (match c.data.deviceType with
    | none => .error .typeError
    | some s => c.data.setDeviceType (.str s) : Except PyErr (ControlDef ℝ)) with
  | .error e => .error e
  | .ok d =>
    match d.check symmetry with
    | .error e => .error e
    | .ok d' => .ok ⟨c.uid, d'⟩

/-- Schema of the panel numbers (`aircraft.py:553-557`). -/
def panelsOk (n : Option ℤ) : Bool := n.all fun k => decide (k > 0)

/-- `WingSegment.generate` together with the checks of airfoils and panels; `airfoilOk` tells
whether a definition is a file or a NACA code (`aircraft.py:680-707`). -/
noncomputable def loadSegment (root : String) (airfoilOk : String → Bool) (s : FileSegment) :
    Except PyErr (FileSegment × GenSegment) :=
  let inner := loadAirfoil root s.airfoilInner
  let outer := loadAirfoil root s.airfoilOuter
  if !(panelsOk s.numC && panelsOk s.numS) then .error .valueError
  else
    match generateSegment s.vertices s.geometry with
    | .error e => .error e
    | .ok g =>
      if !(airfoilOk inner && airfoilOk outer) then .error .valueError
      else .ok ({ s with airfoilInner := inner, airfoilOuter := outer }, g)

/-- A generated segment with its position. -/
def LoadedSegment.of (x : (FileSegment × GenSegment) × (ℝ × ℝ)) : LoadedSegment :=
  ⟨x.1.1.uid, x.1.2, x.1.1.airfoilInner, x.1.1.airfoilOuter, x.1.1.numC, x.1.1.numS, x.2⟩

/-- One wing of `load` (`native/aircraft.py:74-115`) and its `generate`.  Simplification: the order
in which several errors of one file are met is not kept. -/
noncomputable def loadWing (root : String) (airfoilOk : String → Bool) (w : FileWing) :
    Except PyErr LoadedWing :=
  if w.symmetry ∉ [0, 1, 2, 3] then .error .valueError
  else
    match checkNames [] (w.segments.map (·.uid)), checkNames [] (w.controls.map (·.uid)) with
    | .error e, _ => .error e
    | _, .error e => .error e
    | .ok (), .ok () =>
      match mapE (loadControl w.symmetry) w.controls, mapE (loadSegment root airfoilOk) w.segments with
      | .error e, _ => .error e
      | _, .error e => .error e
      | .ok cs, .ok gs =>
        match positions (gs.map fun g => fltVal g.2.geometry.span) with
        | .error e => .error e
        | .ok ps => .ok ⟨w.uid, w.symmetry, (gs.zip ps).map LoadedSegment.of, cs⟩

open scoped Classical in
/-- `load` (`native/aircraft.py:43-118`) with `Aircraft.generate` (`aircraft.py:245-269`). -/
noncomputable def loadAircraft (root : String) (airfoilOk : String → Bool) (f : FileAircraft) :
    Except PyErr LoadedAircraft :=
  match checkNames [] (f.wings.map (·.uid)) with
  | .error e => .error e
  | .ok () =>
    if ¬ (0 < f.refs.area ∧ 0 < f.refs.span ∧ 0 < f.refs.chord) then .error .valueError
    else
      match mapE (loadWing root airfoilOk) f.wings with
      | .error e => .error e
      | .ok ws => .ok ⟨f.uid, f.refs, ws⟩

/-- Entry of a segment written by `save` (`native/aircraft.py:149-174`). -/
def saveSegment (s : LoadedSegment) : FileSegment :=
  ⟨s.uid, ⟨some s.gen.vertices.a, some s.gen.vertices.b, some s.gen.vertices.c,
    some s.gen.vertices.d⟩, s.gen.geometry, saveAirfoil s.airfoilInner, saveAirfoil s.airfoilOuter,
    s.numC, s.numS⟩

/-- Entry of a wing written by `save` (`native/aircraft.py:141-202`). -/
def saveWing (w : LoadedWing) : FileWing :=
  ⟨w.uid, w.symmetry, w.segments.map saveSegment, w.controls⟩

/-- `save` (`native/aircraft.py:121-205`). -/
def saveAircraft (ac : LoadedAircraft) : FileAircraft :=
  ⟨ac.uid, ac.refs, ac.wings.map saveWing⟩

end Verif
