import Verif.Model.Cpacs
import Verif.Model.Program

/-!
# Projects with a CPACS file, and conversion of CPACS files

Model of `load` in `/repo/src/lib/pytornado/fileio/cpacs/aircraft.py` (the parts around the import of
wings, which is in `Verif.Model.Cpacs`), of `cpacs2pytornado` in `stdfun/setup.py`, and of `standard_run`
for projects whose aircraft is a CPACS file.

Simplifications: a file is the data in it (the numbers in airfoil files are rounded to seven decimals by
the code); reference values are finite; what TIXI and TIGL return is data.
-/

namespace Verif

/-! ## Airfoil files -/

/-- The airfoil files there are, by absolute path. -/
abbrev Disk (α : Type*) := String → Option α

section
variable {α : Type*}

/-- Writing files one after the other below `root` (`fileio/cpacs/aircraft.py:384`, `392`). -/
def Disk.write (root : String) (disk : Disk α) (fs : List (String × α)) : Disk α :=
  fs.foldl (fun d f => Function.update d (root ++ "/" ++ f.1) (some f.2)) disk

/-- What the package `airfoils` is asked: whether the content of a file can be read, whether a NACA code
is known, and the camber angle of the profile between two airfoils, each a file or a code. -/
structure Airfoils (α : Type*) where
  readable : α → Bool
  naca : String → Bool
  camber : α ⊕ String → α ⊕ String → ℝ → ℝ → ℝ

/-- `os.path.isfile`: a file if there is one with this path, otherwise a code (`aircraft.py:701-716`). -/
def Airfoils.profile (disk : Disk α) (path : String) : α ⊕ String :=
  match disk path with
  | some c => .inl c
  | none => .inr path

/-- Whether an airfoil definition can be used (`aircraft.py:695-723`). -/
def Airfoils.ok (A : Airfoils α) (disk : Disk α) (path : String) : Bool :=
  match disk path with
  | some c => A.readable c
  | none => A.naca path

/-- The surroundings with these airfoil files. -/
def World.withAirfoils (W : World) (A : Airfoils α) (disk : Disk α) : World :=
  { W with
    airfoilOk := A.ok disk
    camber := fun i o => A.camber (Airfoils.profile disk i) (Airfoils.profile disk o) }

/-! ## Loading -/

/-- What the program reads of a CPACS file.  `model`: `none` if the element is missing, `some none` if
it has no `uID`; `hasWings`: whether there is an element for wings; `airfoils`, `point`, `area`,
`length`: `none` if the element is missing; `apm` as in `cpacsLoadState`. -/
structure CpacsDoc (α : Type*) where
  model : Option (Option String)
  hasWings : Bool
  file : CpacsFile ℝ
  airfoils : Option (List (CpacsAirfoil α))
  point : Option (V3 ℝ)
  area : Option ℝ
  length : Option ℝ
  apm : String → Option (List (Flt ℝ))

/-- `get_aircraft_name` (`fileio/cpacs/aircraft.py:59-75`). -/
def cpacsName (alnum : Char → Bool) (doc : CpacsDoc α) : Except PyErr String :=
  match doc.model with
  | none => .ok "NAME_NOT_FOUND"
  | some none => .error .external
  | some (some u) => parseStr alnum (.str u) "-_"

/-- `get_aircraft_refs` (`fileio/cpacs/aircraft.py:395-421`): gravity and reference centre are the same
point, span and chord the same length. -/
def cpacsRefs (doc : CpacsDoc α) : Except PyErr AcRefs :=
  match doc.point with
  | none => .error .external
  | some p =>
    match doc.area with
    | none => .error .external
    | some a =>
      match doc.length with
      | none => .error .external
      | some l => .ok ⟨a, l, l, p, p, none⟩

/-- An imported segment before `generate`: four corners, no geometry data, no panel numbers.  The path
of an airfoil is stored with the root directory (`fileio/cpacs/aircraft.py:360-361`); here it is added by
`loadSegment`. -/
def ImpSegment.entry (e : String × ImpSegment ℝ) : FileSegment :=
  ⟨e.1, ⟨some e.2.vertices.a, some e.2.vertices.b, some e.2.vertices.c, some e.2.vertices.d⟩,
    SegGeo.fresh, e.2.airfoilInner, e.2.airfoilOuter, none, none⟩

/-- `Wing.generate` for an imported wing (`aircraft.py:390-408`). -/
noncomputable def generateImpWing (root : String) (airfoilOk : String → Bool) (w : ImpWing ℝ) :
    Except PyErr LoadedWing :=
  match mapE (loadSegment root airfoilOk) (w.segments.map ImpSegment.entry) with
  | .error e => .error e
  | .ok gs =>
    match positions (gs.map fun g => fltVal g.2.geometry.span) with
    | .error e => .error e
    | .ok ps => .ok ⟨w.uid, w.symmetry, (gs.zip ps).map LoadedSegment.of,
        w.controls.map fun kc => ⟨kc.1, kc.2⟩⟩

open scoped Classical in
/-- `Aircraft.generate` (`aircraft.py:245-269`). -/
noncomputable def generateAircraft (root : String) (airfoilOk : String → Bool) (uid : String)
    (refs : AcRefs) (ws : List (ImpWing ℝ)) : Except PyErr LoadedAircraft :=
  if ¬ (0 < refs.area ∧ 0 < refs.span ∧ 0 < refs.chord) then .error .valueError
  else
    match mapE (generateImpWing root airfoilOk) ws with
    | .error e => .error e
    | .ok l => .ok ⟨uid, refs, l⟩

/-- `load` (`fileio/cpacs/aircraft.py:424-454`): the airfoil files afterwards, and the aircraft or the
exception.  `dir`: whether the directory for airfoils exists. -/
noncomputable def cpacsLoad (alnum : Char → Bool) (A : Airfoils α) (root : String) (dir : Bool)
    (disk : Disk α) (doc : CpacsDoc α) : Disk α × Except PyErr LoadedAircraft :=
  match cpacsName alnum doc with
  | .error e => (disk, .error e)
  | .ok uid =>
    if !doc.hasWings then (disk, .error .valueError)
    else
      match importWings alnum doc.file with
      | .error e => (disk, .error e)
      | .ok ws =>
        match doc.airfoils with
        | none => (disk, .error .external)
        | some l =>
          match writeAirfoils alnum 1 l with
          | .error e => (disk, .error e)
          | .ok fs =>
            if !dir && !fs.isEmpty then (disk, .error .ioError)
            else
              match cpacsRefs doc with
              | .error e => (disk.write root fs, .error e)
              | .ok refs => (disk.write root fs,
                  generateAircraft root (A.ok (disk.write root fs)) uid refs ws)

/-! ## Conversion -/

/-- `cpacs2pytornado` (`stdfun/setup.py:156-178`) in the directory `cwd`: the airfoil files afterwards,
and the JSON file written beside the CPACS file, or the exception.  No directories are made
(`make_dirs=False`). -/
noncomputable def cpacs2json (alnum : Char → Bool) (A : Airfoils α) (cwd : String) (dir : Bool)
    (disk : Disk α) (doc : Option (CpacsDoc α)) : Disk α × Except PyErr FileAircraft :=
  match doc with
  | none => (disk, .error .ioError)
  | some d =>
    match cpacsLoad alnum A cwd dir disk d with
    | (disk', .error e) => (disk', .error e)
    | (disk', .ok ac) => (disk', .ok (saveAircraft ac))

/-! ## Analysis -/

/-- The surroundings of a run, the CPACS files being `docs`; `a` is the aircraft file of the settings.
The directories exist (`objects/settings.py:140-141`). -/
noncomputable def World.withCpacs (W : World) (alnum : Char → Bool) (A : Airfoils α) (root : String)
    (disk : Disk α) (docs : String → Option (CpacsDoc α)) (a : String) : World :=
  { W.withAirfoils A (match docs a with
      | none => disk
      | some d => (cpacsLoad alnum A root true disk d).1) with
    cpacsAircraft := fun b => match docs b with
      | none => .error .ioError
      | some d => (cpacsLoad alnum A root true disk d).2
    cpacsState := fun b => match docs b with
      | none => .error .ioError
      | some d => cpacsLoadState W.atm d.apm }

/-- `standard_run` (`run.py:84-182`) for a project with CPACS files; for a JSON aircraft the airfoil
files are not changed. -/
noncomputable def runCpacs (W : World) (alnum : Char → Bool) (A : Airfoils α) (disk : Disk α)
    (docs : String → Option (CpacsDoc α)) (P : Project) : Except (Stop × Files) RunOut :=
  match loadSettings W.suffix P.settings with
  | .error e => .error (.raised e, [])
  | .ok s =>
    if s.aircraftIsCpacs then
      runProject (W.withCpacs alnum A P.root disk docs (s.name "aircraft")) P
    else runProject (W.withAirfoils A disk) P

end

end Verif
