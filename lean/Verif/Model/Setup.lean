import Verif.Model.Program
import Verif.Model.Cli

/-!
# New projects

Model of `setup_wkdir` (`/repo/src/lib/pytornado/stdfun/setup.py:42-153`): a project folder is
created, either with a template or with a given aircraft.

Simplifications: of the folder only settings, aircraft and state files are kept (the other
directories are created empty); printed text is left out; a file is the data in it.
-/

namespace Verif

/-- The folder `pytornado`: the files in its directories `settings`, `aircraft` and `state`. -/
structure Folder where
  settings : List (String × PyVal)
  aircraft : List (String × FileAircraft)
  state : List (String × List (String × Arg ℝ))

/-- Writing a file; a file of that name is replaced. -/
def writeFile {α : Type*} (name : String) (content : α) (files : List (String × α)) :
    List (String × α) :=
  (name, content) :: files.filter fun f => f.1 != name

/-- `os.path.splitext(name)[0]`: what comes before the last dot; leading dots do not count. -/
def splitExt (s : Name) : Name :=
  match rfindDot s with
  | none => s
  | some i => if (s.take i).all (· == '.') then s else s.take i

/-- The project in a folder to which a settings file belongs (`native/settings.py:50-66`,
`objects/settings.py:125-126`). -/
def Folder.project (folder : Folder) (root file : String) : Option Project :=
  match folder.settings.lookup file with
  | none => none
  | some v => some
    { base := String.ofList (splitExt file.toList)
      root := root
      settings := v
      aircraft := fun a => folder.aircraft.lookup a
      state := fun b => folder.state.lookup b
      deformation := fun _ => none }

/-- The settings of a new project (`setup.py:78-83`, `130-137`). -/
def setupSettings (aircraft state : String) : PyDict :=
  let s := PyDict.set (PyDict.set (defaultDict defaultSettings) "aircraft" (.str aircraft)) "state"
    (.str state)
  let s := PyDict.set (PyDict.set s "vlm_autopanels_s" (.int 20)) "vlm_autopanels_c" (.int 5)
  match s.lookup "plot" with
  | some (.dict p) =>
    match p.lookup "results" with
    | some (.dict r) => PyDict.set s "plot" (.dict (PyDict.set p "results"
        (.dict (PyDict.set (PyDict.set r "show" (.bool true)) "opt" (.list [.str "cp"])))))
    | _ => s
  | _ => s

/-- The flight state of a new project (`setup.py:140-147`), as saved (`native/state.py:69-85`). -/
noncomputable def setupState : List (String × Arg ℝ) :=
  [("airspeed", .scalar (.num (.fin 100))), ("alpha", .scalar (.num (.fin 2))),
   ("altitude", .scalar .none), ("beta", .scalar (.num (.fin 0))),
   ("density", .scalar (.num (.fin (1225/1000)))), ("mach", .scalar .none),
   ("rate_P", .scalar (.num (.fin 0))), ("rate_Q", .scalar (.num (.fin 0))),
   ("rate_R", .scalar (.num (.fin 0)))]

/-- The aircraft of the template (`setup.py:92-127`), as saved (`native/aircraft.py:121-205`). -/
noncomputable def templateAircraft : FileAircraft :=
  ⟨"template_aircraft", ⟨10, 5, 2, ⟨0, 0, 0⟩, ⟨0, 0, 0⟩, none⟩, [⟨"template_wing", 2,
    [⟨"template_segment", ⟨some ⟨0, 0, 0⟩, some ⟨0, 5, 0⟩, some ⟨2, 5, 0⟩, some ⟨2, 0, 0⟩⟩,
      SegGeo.fresh, "NACA0000", "NACA0000", none, none⟩],
    [⟨"template_control", ⟨"template_segment", "template_segment", 2/10, 8/10, 7/10, 7/10, 7/10,
      7/10, none, some "flap", .num (.fin 5), .num (.fin (-5))⟩⟩]⟩]⟩

/-- Saving settings, state and aircraft (`setup.py:149-152`). -/
noncomputable def setupSave (settingsFile aircraftFile stateFile : String) (ac : FileAircraft)
    (folder : Folder) : Folder :=
  ⟨writeFile settingsFile (saveSettings ⟨setupSettings aircraftFile stateFile, false⟩).2
      folder.settings,
    writeFile aircraftFile ac folder.aircraft, writeFile stateFile setupState folder.state⟩

/-- How `setup_wkdir` ends: exit with code 1, an exception, or a new project. -/
inductive SetupEnd
  | refused
  | raised (e : PyErr)
  | made
  deriving DecidableEq, Repr

/-- `setup_wkdir` (`setup.py:42-153`).  `source`: path and content of the aircraft file, if one is
given (content `none`: there is no such file); last argument: the folder, if it exists. -/
noncomputable def setupWkdir (W : World) (root : String) (source : Option (Name × Option FileAircraft)) :
    Option Folder → Option Folder × SetupEnd
  | some folder => (some folder, .refused)
  | none =>
    match source with
    | none => (some (setupSave "template.json" "template_aircraft.json" "template.json"
        templateAircraft ⟨[], [], []⟩), .made)
    | some (_, none) => (some ⟨[], [], []⟩, .raised .ioError)
    | some (path, some f) =>
      let file := String.ofList (pathStem path) ++ ".json"
      let copied : Folder := ⟨[], writeFile (String.ofList (pathName path)) f [], []⟩
      match copied.aircraft.lookup file with
      | none => (some copied, .raised .ioError)
      | some g =>
        match loadAircraft root W.airfoilOk g with
        | .error e => (some copied, .raised e)
        | .ok ac => (some (setupSave (String.ofList (splitExt (pathName path)) ++ ".json") file file
            (saveAircraft ac) copied), .made)

end Verif
