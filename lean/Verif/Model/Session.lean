import Verif.Model.Setup

/-!
# Sessions: a project folder and the command line

Model of what happens to the files of a project when the program is started again and again, and
the user changes input files in between: `main` (`/repo/src/bin/_pytornado_exe.py:38-100`),
`clean_project_dir` (`/repo/src/lib/pytornado/stdfun/run.py:72-81`), `Settings.clean`
(`/repo/src/lib/pytornado/objects/settings.py:220-225`), `standard_run`, and the paths of the
project (`settings.py:156-187`).

Simplifications: a file is the data in it; a file with other data than expected counts as missing;
the names in the settings have no slashes; the program is started in the project folder; log file
and plots are left out; the folder is not called `settings` itself.  The contract of
`ProjectPaths.rm_dirs_for_groups` is that the directories of the group disappear with everything in
them.
-/

namespace Verif

/-- A file of a project. -/
inductive DiskFile
  | settings (v : PyVal)
  | aircraft (f : FileAircraft)
  | state (d : List (String × Arg ℝ))
  | deformation (fields : List (String × DefField ℝ))
  | result (c : FileContent)

/-- The files below the project folder. -/
abbrev PDisk := FilePath → Option DiskFile

/-- The settings in a file. -/
def PDisk.settings (disk : PDisk) (p : FilePath) : Option PyVal :=
  match disk p with
  | some (.settings v) => some v
  | _ => none

/-- Path of the settings file on the command line. -/
def cliPath (f : Name) : FilePath := (f.splitOn '/').map String.ofList

/-- The directories of a project (`settings.py:84-92`). -/
def projectDirs : List String :=
  ["aircraft", "airfoils", "deformation", "settings", "state", "_plots", "_results"]

/-- The name of a settings file of this project (`native/settings.py:54-62`): directly in the folder
or in its directory `settings`.  A file with the name of a directory cannot be used: the directories
are created when settings are loaded (`settings.py:147-148`). -/
def settingsName : FilePath → Option String
  | [n] => if n ∈ projectDirs then none else some n
  | [d, n] => if d = "settings" then some n else none
  | _ => none

/-- `os.path.splitext(settings_filename)[0]` (`settings.py:126`). -/
def baseOf (n : String) : String := String.ofList (splitExt n.toList)

/-- The project to which a settings file belongs (`native/settings.py:50-66`,
`settings.py:156-187`). -/
def PDisk.project (disk : PDisk) (root : String) (f : Name) : Option Project :=
  match settingsName (cliPath f), disk.settings (cliPath f) with
  | some n, some v => some
    { base := baseOf n
      root := root
      settings := v
      aircraft := fun a => match disk ["aircraft", a] with
        | some (.aircraft f) => some f
        | _ => none
      state := fun b => match disk ["state", b] with
        | some (.state d) => some d
        | _ => none
      deformation := fun v => match disk ["deformation", PyVal.format (some v)] with
        | some (.deformation l) => some l
        | _ => none }
  | _, _ => none

/-- Files are written one after another. -/
def PDisk.write (disk : PDisk) : Files → PDisk
  | [] => disk
  | x :: rest => PDisk.write (Function.update disk x.1 (some (.result x.2))) rest

/-- `standard_run` (`run.py:84-182`): files afterwards, and why it stopped. -/
noncomputable def runOn (W : World) (root : String) (disk : PDisk) (f : Name) :
    PDisk × Option Stop :=
  match disk.project root f with
  | none => (disk, some (.raised .ioError))
  | some P =>
    match runProject W P with
    | .error (x, files) => (disk.write files, some x)
    | .ok out => (disk.write out.files, none)

/-- Output directories (`settings.py:167-170`). -/
def isOutput (p : FilePath) : Bool := p.head? == some "_results" || p.head? == some "_plots"

/-- `clean_project_dir(get_settings(f))` (`_pytornado_exe.py:73`, `run.py:62-81`,
`settings.py:220-225`). -/
noncomputable def cleanOn (W : World) (root : String) (disk : PDisk) (f : Name) :
    PDisk × Option PyErr :=
  match disk.project root f with
  | none => (disk, some .ioError)
  | some P =>
    match loadSettings W.suffix P.settings with
    | .error e => (disk, some e)
    | .ok _ => (fun p => if isOutput p then none else disk p, none)

/-- An action on the files of the project.  Simplification: the other actions do not touch an
existing project (`setup_wkdir` refuses an existing folder). -/
noncomputable def perform (W : World) (root : String) (disk : PDisk) : Action → PDisk
  | .clean f => (cleanOn W root disk f).1
  | .run f => (runOn W root disk f).1
  | _ => disk

/-- Which actions raise.  Simplification: runs whose numbers are not finite do not. -/
noncomputable def actionFails (W : World) (root : String) (disk : PDisk) : Action → Option PyErr
  | .clean f => (cleanOn W root disk f).2
  | .run f => match (runOn W root disk f).2 with
    | some (.raised e) => some e
    | _ => none
  | _ => none

/-- What a user does: change an input file (`none`: delete it), or start the program with options. -/
inductive UserStep
  | edit (path : FilePath) (content : Option DiskFile)
  | start (opts : List Opt)

/-- One step.  `cli` (`Model/Cli`) tells which actions the options lead to. -/
noncomputable def PDisk.step (W : World) (root : String) (disk : PDisk) : UserStep → PDisk
  | .edit p c => Function.update disk p c
  | .start opts =>
    (cli ⟨[], actionFails W root disk⟩ opts).1.foldl (perform W root) disk

/-- A session. -/
noncomputable def session (W : World) (root : String) (disk : PDisk) (l : List UserStep) : PDisk :=
  l.foldl (fun d s => d.step W root s) disk

end Verif
