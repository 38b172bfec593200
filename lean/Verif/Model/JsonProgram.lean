import Verif.Model.AircraftJson
import Verif.Model.Setup

/-!
# The whole program on JSON data

Model of `load` in `/repo/src/lib/pytornado/fileio/native/state.py` on the data that `json.load` returns,
of `standard_run` (`stdfun/run.py:84-182`) for a project whose aircraft and state files are such data, and
of `setup_wkdir` (`stdfun/setup.py:42-153`), which creates such a project.
The settings file is JSON data already in `Model/Settings`; the deformation file is read by the external
package `aeroframe`.

Simplifications: as in `Model/AircraftJson`; a list inside a list of a state file is an object that numpy
refuses (numpy would accept lists of equal length and make a matrix of them).
-/

namespace Verif

/-- An element of a list in a state file; `parse`: the number denoted by a string, as numpy reads it. -/
noncomputable def stateVal (parse : String → Option (Flt ℝ)) : Json → Val ℝ
  | .null => .none
  | .bool b => .num (.fin (if b then 1 else 0))
  | .int z => .num (.fin z)
  | .num x => .num (.fin x)
  | .str s => .text (parse s)
  | _ => .obj

/-- A value in a state file: `isinstance(value, list)` (`state.py:162`). -/
noncomputable def stateArg (parse : String → Option (Flt ℝ)) : Json → Arg ℝ
  | .arr l => .list (l.map (stateVal parse))
  | j => .scalar (stateVal parse j)

/-- `load` (`native/state.py:42-66`) on the data in the file.  The data are the keyword arguments of
`update_from_dict(self, aero)`: anything that is no dictionary, any other keyword and a missing `aero`
raise TypeError; `aero.items()` raises AttributeError. -/
noncomputable def loadStateJson (parse : String → Option (Flt ℝ)) (atm : Atm ℝ) (j : Json) :
    Except PyErr (FlightSt ℝ) :=
  match j with
  | .obj kw =>
    if kw.any fun e => e.1 != "aero" then .error .typeError
    else match kw.lookup "aero" with
      | none => .error .typeError
      | some a => match a.items with
        | .error e => .error e
        | .ok d => updateFromDict atm Store.fresh (d.map fun e => (e.1, stateArg parse e.2))
  | _ => .error .typeError

/-- What is left open by external packages, for all files. -/
structure JsonWorld extends World where
  env : JsonEnv
  parse : String → Option (Flt ℝ)

/-- The files of a project as JSON data, as in `Project`. -/
structure JsonProject where
  base : String
  root : String
  settings : PyVal
  aircraft : String → Option Json
  state : String → Option Json
  deformation : PyVal → Option (List (String × DefField ℝ))

/-- The aircraft (`run.py:97`, `native/aircraft.py:58-62`). -/
noncomputable def loadAircraftJson (W : JsonWorld) (J : JsonProject) (s : SettingsObj) :
    Except PyErr LoadedAircraft :=
  if s.aircraftIsCpacs then W.cpacsAircraft (s.name "aircraft")
  else
    match J.aircraft (s.name "aircraft") with
    | none => .error .ioError
    | some j => loadJson W.env J.root W.airfoilOk j

/-- The flight states (`run.py:98`, `native/state.py:42-66`). -/
noncomputable def loadStatesJson (W : JsonWorld) (J : JsonProject) (s : SettingsObj) (cpacs : Bool) :
    Except PyErr (FlightSt ℝ) :=
  if cpacs then W.cpacsState (s.name "aircraft")
  else
    match J.state (s.name "state") with
    | none => .error .ioError
    | some j => loadStateJson W.parse W.atm j

/-- The parts of a project that are no JSON data. -/
def JsonProject.rest (J : JsonProject) : Project where
  base := J.base
  root := J.root
  settings := J.settings
  aircraft := fun _ => none
  state := fun _ => none
  deformation := J.deformation

/-- Loading, in the order of the code (`run.py:91-102`). -/
noncomputable def loadJsonProject (W : JsonWorld) (J : JsonProject) : Except PyErr Loaded := do
  let s ← loadSettings W.suffix J.settings
  let ac ← loadAircraftJson W J s
  let cp ← s.stateIsCpacs W.upper
  let st ← loadStatesJson W J s cp
  let defs ← loadDeformationFrom J.rest s ac
  .ok ⟨s, cp, ac, st, defs⟩

/-- `standard_run` (`run.py:84-182`). -/
noncomputable def runJsonProject (W : JsonWorld) (J : JsonProject) : Except (Stop × Files) RunOut :=
  match loadJsonProject W J with
  | .error e => .error (.raised e, [])
  | .ok x => standardRun (x.env W.toWorld J.rest) x.aircraft.toP x.state

/-! ## New projects -/

/-- The state file of a new project (`setup.py:140-150`, `native/state.py:69-85`). -/
noncomputable def setupStateJson : Json :=
  .obj [("aero", .obj [("airspeed", .int 100), ("alpha", .int 2), ("altitude", .null), ("beta", .int 0),
    ("density", .num (1225/1000)), ("mach", .null), ("rate_P", .int 0), ("rate_Q", .int 0),
    ("rate_R", .int 0)])]

/-- The aircraft file of the template: the values of `setup.py:92-127`, written by `save`
(`native/aircraft.py:121-205`) with all other attributes as they are after `__init__`
(`aircraft.py:132-138`, `587-616`, `1383-1401`).  The template is saved without having been generated, so
whole numbers are written as such. -/
noncomputable def templateJson : Json :=
  .obj [("uid", .str "template_aircraft"),
    ("refs", .obj [("area", .int 10), ("span", .int 5), ("chord", .int 2),
      ("gcenter", .arr [.int 0, .int 0, .int 0]), ("rcenter", .arr [.int 0, .int 0, .int 0]),
      ("comment", .null)]),
    ("wings", .arr [.obj [("uid", .str "template_wing"), ("symmetry", .int 2),
      ("segments", .arr [.obj [("uid", .str "template_segment"),
        ("vertices", .obj [("a", .arr [.int 0, .int 0, .int 0]), ("b", .arr [.int 0, .int 5, .int 0]),
          ("c", .arr [.int 2, .int 5, .int 0]), ("d", .arr [.int 2, .int 0, .int 0])]),
        ("geometry", .obj [("inner_chord", .null), ("inner_alpha", .null), ("inner_beta", .null),
          ("inner_axis", .null), ("outer_chord", .null), ("outer_alpha", .null), ("outer_beta", .null),
          ("outer_axis", .null), ("span", .null), ("sweep", .null), ("dihedral", .null)]),
        ("airfoils", .obj [("inner", .str "NACA0000"), ("outer", .str "NACA0000")]),
        ("panels", .obj [("num_c", .null), ("num_s", .null)])]]),
      ("controls", .arr [.obj [("uid", .str "template_control"), ("device_type", .str "flap"),
        ("deflection", .int 5), ("deflection_mirror", .int (-5)),
        ("segment_uid", .obj [("inner", .str "template_segment"), ("outer", .str "template_segment")]),
        ("rel_vertices", .obj [("eta_inner", .num (2/10)), ("eta_outer", .num (8/10)),
          ("xsi_inner", .num (7/10)), ("xsi_outer", .num (7/10))]),
        ("rel_hinge_vertices", .obj [("xsi_inner", .num (7/10)), ("xsi_outer", .num (7/10))]),
        ("panels", .obj [("num_c", .null)])]])]])]

/-- The folder of a project, as in `Folder`. -/
structure JsonFolder where
  settings : List (String × PyVal)
  aircraft : List (String × Json)
  state : List (String × Json)

/-- The project in a folder to which a settings file belongs (`native/settings.py:50-66`,
`objects/settings.py:125-126`). -/
def JsonFolder.project (folder : JsonFolder) (root file : String) : Option JsonProject :=
  match folder.settings.lookup file with
  | none => none
  | some v => some
    { base := String.ofList (splitExt file.toList)
      root := root
      settings := v
      aircraft := fun a => folder.aircraft.lookup a
      state := fun b => folder.state.lookup b
      deformation := fun _ => none }

/-- Saving settings, state and aircraft (`setup.py:149-152`). -/
noncomputable def setupSaveJson (settingsFile aircraftFile stateFile : String) (ac : Json)
    (folder : JsonFolder) : JsonFolder :=
  ⟨writeFile settingsFile (saveSettings ⟨setupSettings aircraftFile stateFile, false⟩).2
      folder.settings,
    writeFile aircraftFile ac folder.aircraft, writeFile stateFile setupStateJson folder.state⟩

/-- `setup_wkdir` (`setup.py:42-153`), as `setupWkdir`. -/
noncomputable def setupWkdirJson (W : JsonWorld) (root : String) (source : Option (Name × Option Json)) :
    Option JsonFolder → Option JsonFolder × SetupEnd
  | some folder => (some folder, .refused)
  | none =>
    match source with
    | none => (some (setupSaveJson "template.json" "template_aircraft.json" "template.json"
        templateJson ⟨[], [], []⟩), .made)
    | some (_, none) => (some ⟨[], [], []⟩, .raised .ioError)
    | some (path, some j) =>
      let file := String.ofList (pathStem path) ++ ".json"
      let copied : JsonFolder := ⟨[], writeFile (String.ofList (pathName path)) j [], []⟩
      match copied.aircraft.lookup file with
      | none => (some copied, .raised .ioError)
      | some g =>
        match loadJson W.env root W.airfoilOk g with
        | .error e => (some copied, .raised e)
        | .ok ac => (some (setupSaveJson (String.ofList (splitExt (pathName path)) ++ ".json") file file
            (saveJson ac) copied), .made)

end Verif
