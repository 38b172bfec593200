import Verif.Model.Run
import Verif.Model.FileIO

/-!
# The whole program

Model of the first part of `standard_run` (`/repo/src/lib/pytornado/stdfun/run.py:92-105`): settings,
aircraft, flight states and deformations are loaded, and the analysis starts with them.

Simplifications: a file is the data in it; files are found by the name in the settings (paths below
the directories of the project, `objects/settings.py:156-187`, are left out); logging is left out.
The import from CPACS (`Verif.Model.Cpacs`) is a parameter here.
-/

namespace Verif

/-- What the program uses of its surroundings: `Path.suffix` in lower case, `str.upper`, whether an
airfoil definition can be read, the standard atmosphere, LAPACK's `dgesv`, the import from CPACS, and
`camber inner outer eta xsi`: the angle of the camber line of the profile interpolated between two
airfoils at `eta` (`aircraft.py:680-707`). -/
structure World where
  suffix : String → String
  upper : String → String
  airfoilOk : String → Bool
  atm : Atm ℝ
  dgesv : List (List ℝ) → List ℝ → List ℝ
  camber : String → String → ℝ → ℝ → ℝ
  cpacsAircraft : String → Except PyErr LoadedAircraft
  cpacsState : String → Except PyErr (FlightSt ℝ)

/-- The files of a project; `none`: there is no such file.  `deformation` is indexed by the value of
the setting; a file of less than ten bytes has no fields. -/
structure Project where
  base : String
  root : String
  settings : PyVal
  aircraft : String → Option FileAircraft
  state : String → Option (List (String × Arg ℝ))
  deformation : PyVal → Option (List (String × DefField ℝ))

/-! ## What the analysis reads of a loaded aircraft -/

/-- A segment as the panelling sees it (`aircraft.py:517-639`). -/
noncomputable def LoadedSegment.toP (s : LoadedSegment) : PSegment ℝ where
  uid := s.uid
  span := fltVal s.gen.geometry.span
  numS := s.numS
  numC := s.numC
  interp := xsiInterpol s.gen.vertices
  dist := fun e1 x1 e2 x2 =>
    (segPoint s.gen.vertices e1 x1 - segPoint s.gen.vertices e2 x2).norm
  strips := initStrips

/-- A control as the panelling sees it (`aircraft.py:1383-1405`). -/
def FileControl.toP (c : FileControl) : PControl ℝ where
  uid := c.uid
  deviceType := c.data.deviceType.getD ""
  segInner := c.data.segInner
  segOuter := c.data.segOuter
  etaInner := c.data.etaInner
  etaOuter := c.data.etaOuter
  xsiInner := c.data.xsiInner
  xsiOuter := c.data.xsiOuter
  hInner := some c.data.hingeInner
  hOuter := some c.data.hingeOuter
  numC := c.data.numC

/-- A wing as the panelling sees it. -/
noncomputable def LoadedWing.toP (w : LoadedWing) : PWing ℝ :=
  ⟨w.uid, w.symmetry, w.segments.map LoadedSegment.toP, w.controls.map FileControl.toP⟩

/-- An aircraft as the panelling sees it. -/
noncomputable def LoadedAircraft.toP (ac : LoadedAircraft) : PAircraft ℝ :=
  ⟨ac.wings.map LoadedWing.toP⟩

/-- Wings before deformation fields are loaded (`aircraft.py:298-301`). -/
def LoadedAircraft.undeformed (ac : LoadedAircraft) : ODict (DefWing (DefField ℝ)) :=
  ac.wings.map fun w => (w.uid, ⟨none, none⟩)

/-- An angle, if it is set. -/
def Val.angle : Val ℝ → Option ℝ
  | .num (.fin x) => some x
  | _ => Option.none

/-- The corners of no segment. -/
def noCorners : Corners (V3 ℝ) := ⟨0, 0, 0, 0⟩

/-- Geometry of segment `k` of a wing with its deformation fields. -/
def LoadedWing.geo (w : LoadedWing) (defs : ODict (DefWing (DefField ℝ))) (k : ℕ) : GeoEnv ℝ where
  vertices := (w.segments[k]?.map fun s => s.gen.vertices).getD noCorners
  symmetry := w.symmetry
  defField := (defs.lookup w.uid).bind DefWing.defField
  defFieldMirror := (defs.lookup w.uid).bind DefWing.defFieldMirror

/-- `control.deflection` and `control.deflection_mirror`. -/
def LoadedAircraft.deflection (ac : LoadedAircraft) (wing control : String) : Option ℝ × Option ℝ :=
  match ac.wings.find? fun w => w.uid == wing with
  | none => (none, none)
  | some w =>
    match w.controls.find? fun c => c.uid == control with
    | none => (none, none)
    | some c => (c.data.deflection.angle, c.data.deflectionMirror.angle)

/-- What lattice generation reads. -/
def LoadedAircraft.lattice (W : World) (ac : LoadedAircraft) (defs : ODict (DefWing (DefField ℝ))) :
    LatticeEnv where
  geo := fun m k => match ac.wings[m]? with
    | some w => w.geo defs k
    | none => ⟨noCorners, 0, none, none⟩
  deflection := ac.deflection
  camber := fun m k eta xsi => match ac.wings[m]?.bind fun w => w.segments[k]? with
    | some s => W.camber s.airfoilInner s.airfoilOuter eta xsi
    | none => 0

/-- `aircraft.refs` as read by the native code (`c_vlm.cpp:765-883`). -/
def AcRefs.toRefs (r : AcRefs) : Refs := ⟨r.gcenter, r.rcenter, r.area, r.span, r.chord⟩

/-! ## What the analysis reads of the settings -/

/-- An integer setting; `True` counts as one, `False` as zero. -/
def SettingsObj.int (s : SettingsObj) (key : String) : ℤ :=
  match s.settings.lookup key with
  | some (.int z) => z
  | some (.bool b) => if b then 1 else 0
  | _ => 0

/-- A flag. -/
def SettingsObj.flag (s : SettingsObj) (key : String) : Bool :=
  match s.settings.lookup key with
  | some v => v.truthy
  | none => false

/-- `settings['save_results'][key]`. -/
def SettingsObj.saveFlag (s : SettingsObj) (key : String) : Bool :=
  match s.settings.lookup "save_results" with
  | some (.dict g) => match g.lookup key with
    | some v => v.truthy
    | none => false
  | _ => false

/-- `settings['_epsilon']`. -/
noncomputable def SettingsObj.epsilon (s : SettingsObj) : ℝ :=
  match s.settings.lookup "_epsilon" with
  | some (.float (.fin x)) => (x : ℝ)
  | _ => 0

/-- A string setting. -/
def SettingsObj.name (s : SettingsObj) (key : String) : String := PyVal.format (s.settings.lookup key)

/-! ## Loading -/

/-- The aircraft (`run.py:97`, `native/aircraft.py:58-62`). -/
noncomputable def loadAircraftFrom (W : World) (P : Project) (s : SettingsObj) :
    Except PyErr LoadedAircraft :=
  if s.aircraftIsCpacs then W.cpacsAircraft (s.name "aircraft")
  else
    match P.aircraft (s.name "aircraft") with
    | none => .error .ioError
    | some f => loadAircraft P.root W.airfoilOk f

/-- The flight states (`run.py:98`, `native/state.py:42-66`). -/
noncomputable def loadStateFrom (W : World) (P : Project) (s : SettingsObj) (cpacs : Bool) :
    Except PyErr (FlightSt ℝ) :=
  if cpacs then W.cpacsState (s.name "aircraft")
  else
    match P.state (s.name "state") with
    | none => .error .ioError
    | some d => updateFromDict W.atm Store.fresh d

/-- The deformations (`run.py:101-102`, `native/deformation.py:40-67`). -/
def loadDeformationFrom (P : Project) (s : SettingsObj) (ac : LoadedAircraft) :
    Except PyErr (ODict (DefWing (DefField ℝ))) :=
  match s.settings.lookup "deformation" with
  | none => .error .keyError
  | some v =>
    if v.truthy then
      match P.deformation v with
      | none => .error .ioError
      | some fields => loadDeformation fields ac.undeformed
    else .ok ac.undeformed

/-- All that is loaded before the analysis. -/
structure Loaded where
  settings : SettingsObj
  stateIsCpacs : Bool
  aircraft : LoadedAircraft
  state : FlightSt ℝ
  defs : ODict (DefWing (DefField ℝ))

/-- Loading, in the order of the code (`run.py:91-102`). -/
noncomputable def loadProject (W : World) (P : Project) : Except PyErr Loaded :=
  match loadSettings W.suffix P.settings with
  | .error e => .error e
  | .ok s =>
    match loadAircraftFrom W P s with
    | .error e => .error e
    | .ok ac =>
      match s.stateIsCpacs W.upper with
      | .error e => .error e
      | .ok cp =>
        match loadStateFrom W P s cp with
        | .error e => .error e
        | .ok st =>
          match loadDeformationFrom P s ac with
          | .error e => .error e
          | .ok defs => .ok ⟨s, cp, ac, st, defs⟩

/-- What the analysis reads of the loaded data. -/
noncomputable def Loaded.env (W : World) (P : Project) (x : Loaded) : RunEnv where
  lat := x.aircraft.lattice W x.defs
  refs := x.aircraft.refs.toRefs
  eps := x.settings.epsilon
  doRot := x.settings.flag "_do_normal_rotations"
  autoC := x.settings.int "vlm_autopanels_c"
  autoS := x.settings.int "vlm_autopanels_s"
  base := P.base
  saveGlobal := x.settings.saveFlag "global"
  savePanelwise := x.settings.saveFlag "panelwise"
  saveMatrix := x.settings.saveFlag "matrix_system"
  saveAero := x.settings.saveFlag "aeroperformance"
  cpacsAircraft := x.settings.aircraftIsCpacs
  cpacsState := x.stateIsCpacs
  dgesv := W.dgesv

/-- `standard_run` (`run.py:84-182`). -/
noncomputable def runProject (W : World) (P : Project) : Except (Stop × Files) RunOut :=
  match loadProject W P with
  | .error e => .error (.raised e, [])
  | .ok x => standardRun (x.env W P) x.aircraft.toP x.state

end Verif
