import Verif.Model.Py
import Mathlib.Data.Nat.Notation

/-!
# Command line and aircraft database

Model of `main` (`/repo/src/bin/_pytornado_exe.py:38-100`) and of
`/repo/src/lib/pytornado/database/tools.py`.  Simplifications: the option parser `argparse` enters by
its contract (options of a mutually exclusive group exclude each other, the last of several equal
options counts, a violation ends the program with exit code 2); the actions themselves (analysis,
conversion, …) are abstract: `fails` says whether and how an action raises; printed text is left out.
Names are lists of characters; paths are POSIX paths.
-/

namespace Verif

/-- A file name or path. -/
abbrev Name := List Char

/-- An option on the command line (`_pytornado_exe.py:51-65`). -/
inductive Opt
  | run (file : Name)
  | cpacs2json (file : Name)
  | makeExample
  | listDb
  | makeFromDb (name : Name)
  | verbose
  | debug
  | quiet
  | clean
  | cleanOnly
  deriving DecidableEq, Repr

/-- The mutually exclusive group of an option. -/
def Opt.group : Opt → ℕ
  | .run _ | .cpacs2json _ | .makeExample | .listDb | .makeFromDb _ => 0
  | .verbose | .debug | .quiet => 1
  | .clean | .cleanOnly => 2

/-- The number of an option among all of them, whatever its argument. -/
def Opt.kind : Opt → ℕ
  | .run _ => 0
  | .cpacs2json _ => 1
  | .makeExample => 2
  | .listDb => 3
  | .makeFromDb _ => 4
  | .verbose => 5
  | .debug => 6
  | .quiet => 7
  | .clean => 8
  | .cleanOnly => 9

/-- The object `args` without the options on verbosity, which `main` does not read. -/
structure CliArgs where
  run : Option Name := none
  cpacs2json : Option Name := none
  makeExample : Bool := false
  listDb : Bool := false
  makeFromDb : Option Name := none
  clean : Bool := false
  cleanOnly : Bool := false
  deriving DecidableEq, Repr

/-- Storing an option. -/
def CliArgs.store (a : CliArgs) : Opt → CliArgs
  | .run f => { a with run := some f }
  | .cpacs2json f => { a with cpacs2json := some f }
  | .makeExample => { a with makeExample := true }
  | .listDb => { a with listDb := true }
  | .makeFromDb n => { a with makeFromDb := some n }
  | .verbose | .debug | .quiet => a
  | .clean => { a with clean := true }
  | .cleanOnly => { a with cleanOnly := true }

/-- `parser.parse_args()` (`_pytornado_exe.py:66`) by contract: `none` if the parser gives up. -/
def parseArgs (seen : List Opt) (a : CliArgs) : List Opt → Option CliArgs
  | [] => some a
  | o :: os =>
    if seen.any fun p => p.group == o.group && p.kind != o.kind then none
    else parseArgs (o :: seen) (a.store o) os

/-! ## The database -/

/-- `str.rfind('.')`, `none` for -1. -/
def rfindDot (s : Name) : Option ℕ :=
  match s.reverse.findIdx? (· == '.') with
  | none => none
  | some i => some (s.length - 1 - i)

/-- `Path(s).name`: the last component; empty components and `.` do not count. -/
def pathName (s : Name) : Name :=
  (((s.splitOn '/').filter fun c => !c.isEmpty && c != ['.']).getLast?).getD []

/-- `Path(s).stem` for a file name `s` without slashes (`pathlib`): the name without its last
suffix, if there is one. -/
def nameStem (s : Name) : Name :=
  match rfindDot s with
  | none => s
  | some i => if 0 < i ∧ i < s.length - 1 then s.take i else s

/-- `Path(s).stem`. -/
def pathStem (s : Name) : Name := nameStem (pathName s)

/-- The extension of aircraft files. -/
def dotJson : Name := ['.', 'j', 's', 'o', 'n']

/-- `list_full_aircraft_paths` (`database/tools.py:55-64`): `glob` with the pattern `*.json`, which
skips hidden files.  `files` are the names in the directory of the database. -/
def listAircraftFiles (files : List Name) : List Name :=
  files.filter fun f => dotJson.isSuffixOf f && f.head? != some '.'

/-- `list_aircraft_names` (`database/tools.py:67-79`). -/
def listAircraftNames (files : List Name) : List Name := (listAircraftFiles files).map nameStem

/-- `get_aircraft_file_path` (`database/tools.py:82-100`): `none` for `FileNotFoundError`. -/
def getAircraftFile (files : List Name) (name : Name) : Option Name :=
  (listAircraftFiles files).find? fun f => nameStem f == name

/-! ## The program -/

/-- What the program can do. -/
inductive Action
  | clean (file : Name)
  | run (file : Name)
  | convert (file : Name)
  | makeExample
  | makeExampleFrom (file : Name)
  | list
  | help
  deriving DecidableEq, Repr

/-- How the program ends. -/
inductive CliEnd
  | ok
  | raised (e : PyErr)
  | exit (code : ℕ)
  deriving DecidableEq, Repr

/-- Surroundings of the program: files in the database, and which actions raise. -/
structure CliEnv where
  files : List Name
  fails : Action → Option PyErr

/-- An action at the end of the program. -/
def CliEnv.act (env : CliEnv) (a : Action) : List Action × CliEnd :=
  ([a], match env.fails a with
    | none => .ok
    | some e => .raised e)

/-- Truth value of an optional string. -/
def truthy : Option Name → Option Name
  | some [] => none
  | o => o

/-- The last part of `main` (`_pytornado_exe.py:78-100`). -/
def cliAction (env : CliEnv) (args : CliArgs) : List Action × CliEnd :=
  match truthy args.run with
  | some f => env.act (.run f)
  | none =>
    match truthy args.cpacs2json with
    | some f => env.act (.convert f)
    | none =>
      if args.makeExample then env.act .makeExample
      else
        match args.makeFromDb with
        | some n =>
          match getAircraftFile env.files (pathStem n) with
          | none => ([], .exit 1)
          | some f => env.act (.makeExampleFrom f)
        | none => if args.listDb then env.act .list else env.act .help

/-- `main` after parsing (`_pytornado_exe.py:68-100`): actions in order and end. -/
def cliMain (env : CliEnv) (args : CliArgs) : List Action × CliEnd :=
  if args.clean || args.cleanOnly then
    match args.run with
    | none => ([], .raised .runtimeError)
    | some f =>
      match env.fails (.clean f) with
      | some e => ([.clean f], .raised e)
      | none =>
        if args.cleanOnly then ([.clean f], .ok)
        else
          let r := cliAction env args
          (.clean f :: r.1, r.2)
  else cliAction env args

/-- The program (`_pytornado_exe.py:38-100`). -/
def cli (env : CliEnv) (opts : List Opt) : List Action × CliEnd :=
  match parseArgs [] {} opts with
  | none => ([], .exit 2)
  | some args => cliMain env args

end Verif
