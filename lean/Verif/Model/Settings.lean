import Verif.Model.Py
import Verif.Model.State
import Mathlib.Data.Rat.Defs
import Mathlib.Algebra.Order.Ring.Rat

/-!
# Settings

Model of `/repo/src/lib/pytornado/objects/utils.py`, `objects/settings.py` and
`fileio/native/settings.py`.  Simplifications: floats are exact rationals or "not finite"; JSON
text is not modelled (writing and reading a value gives the same value); dictionaries are lists of
pairs with distinct keys in insertion order; the class `ProjectPaths` of the external package
`commonlibs` is reduced to the file extension of the aircraft file, a parameter.
-/

namespace Verif

/-- The Python values met in settings. -/
inductive PyVal
  | none
  | bool (b : Bool)
  | int (z : ℤ)
  | float (x : Flt ℚ)
  | str (s : String)
  | list (l : List PyVal)
  | dict (d : List (String × PyVal))

/-- A dictionary. -/
abbrev PyDict := List (String × PyVal)

/-- `d[key] = value`: an existing key keeps its place. -/
def PyDict.set : PyDict → String → PyVal → PyDict
  | [], key, value => [(key, value)]
  | (k, v) :: rest, key, value =>
    if k = key then (k, value) :: rest else (k, v) :: PyDict.set rest key value

/-- `value[key]` on the right-hand side, for a string key. -/
def PyVal.item : PyVal → String → Except PyErr PyVal
  | .dict d, key => match d.lookup key with
    | Option.none => .error .keyError
    | some v => .ok v
  | _, _ => .error .typeError

/-- The truth value of an object. -/
def PyVal.truthy : PyVal → Bool
  | .none => false
  | .bool b => b
  | .int z => z ≠ 0
  | .float (.fin x) => x ≠ 0
  | .float .nonfin => true
  | .str s => s ≠ ""
  | .list l => !l.isEmpty
  | .dict d => !d.isEmpty

/-- The classes met in templates. -/
inductive PyType
  | str | int | bool | float | list | dict
  deriving DecidableEq, Repr

/-- `isinstance`; `bool` is a subclass of `int`. -/
def PyVal.isInst : PyVal → PyType → Bool
  | .str _, .str => true
  | .int _, .int => true
  | .bool _, .int => true
  | .bool _, .bool => true
  | .float _, .float => true
  | .list _, .list => true
  | .dict _, .dict => true
  | _, _ => false

/-- `isinstance` for an entry of a type tuple. -/
def PyVal.hasType (v : PyVal) : Option PyType → Bool
  | Option.none => false
  | some t => v.isInst t

/-- An entry `(value, dtype)` of a template dictionary: a plain default with the tuple of admissible
types (`none`: the entry `None` of the tuple), the first of which is not `dict`, or a template
dictionary with type `dict`. -/
inductive Tmpl
  | leaf (default : PyVal) (types : List (Option PyType))
  | group (entries : List (String × Tmpl))

mutual
/-- One pass of the loop of `check_dict` (`utils.py:78-90`); second argument: `test_dict[key]`, if
present. -/
def checkEntry : Tmpl → Option PyVal → Except PyErr Unit
  | .leaf _ types, v =>
    if Option.none ∈ types then .ok ()
    else match v with
      | Option.none => .error .keyError
      | some v =>
        if types.any v.hasType then .ok () else .error .typeError
  | .group _, Option.none => .error .keyError
  | .group es, some (.dict d) => checkDict es d
  | .group _, some _ => .error .typeError
termination_by structural t => t
/-- `check_dict` (`utils.py:37-90`). -/
def checkDict : List (String × Tmpl) → PyDict → Except PyErr Unit
  | [], _ => .ok ()
  | (key, t) :: rest, d =>
    match checkEntry t (d.lookup key) with
    | .error e => .error e
    | .ok _ => checkDict rest d
termination_by structural es => es
end

mutual
/-- The value of one entry in `get_default_dict` (`utils.py:124-127`). -/
def Tmpl.default : Tmpl → PyVal
  | .leaf v _ => v
  | .group es => .dict (defaultDict es)
termination_by structural t => t
/-- `get_default_dict` (`utils.py:93-128`). -/
def defaultDict : List (String × Tmpl) → PyDict
  | [] => []
  | (key, t) :: rest => (key, t.default) :: defaultDict rest
termination_by structural es => es
end

/-- `_PLOT_OPTIONS` (`settings.py:39-43`). -/
def plotOptions : List (String × Tmpl) :=
  [("opt", .leaf (.list []) [some .list]), ("show", .leaf (.bool false) [some .bool]),
   ("save", .leaf (.bool false) [some .bool])]

/-- `_DEFAULT_PLOT_DICT` (`settings.py:45-50`). -/
def defaultPlotDict : List (String × Tmpl) :=
  [("geometry", .group plotOptions), ("lattice", .group plotOptions),
   ("matrix_downwash", .group plotOptions), ("results", .group plotOptions)]

/-- `_DEFAULT_SAVE_DICT` (`settings.py:52-57`). -/
def defaultSaveDict : List (String × Tmpl) :=
  [("global", .leaf (.bool false) [some .bool]), ("panelwise", .leaf (.bool false) [some .bool]),
   ("aeroperformance", .leaf (.bool false) [some .bool]),
   ("matrix_system", .leaf (.bool false) [some .bool])]

/-- `DEFAULT_SETTINGS` (`settings.py:59-71`). -/
def defaultSettings : List (String × Tmpl) :=
  [("aircraft", .leaf .none [some .str]), ("state", .leaf .none [some .str]),
   ("deformation", .leaf .none [Option.none, some .str]),
   ("vlm_autopanels_c", .leaf (.int 4) [some .int]), ("vlm_autopanels_s", .leaf (.int 4) [some .int]),
   ("save_results", .group defaultSaveDict), ("plot", .group defaultPlotDict),
   ("_do_normal_rotations", .leaf (.bool true) [some .bool]),
   ("_deformation_check", .leaf (.bool true) [some .bool]),
   ("_epsilon", .leaf (.float (.fin (1 / 1000000))) [some .float])]

/-- The loop of `update_from_dict` (`settings.py:211-212`). -/
def updateAll : PyDict → PyDict → PyDict
  | s, [] => s
  | s, (key, value) :: rest => updateAll (PyDict.set s key value) rest

/-- The default of the plotted results (`settings.py:214-216`): evaluates
`self.settings['plot']['results']['opt']` and replaces it if it is empty. -/
def plotDefault (s : PyDict) : Except PyErr PyDict :=
  match (PyVal.dict s).item "plot" with
  | .error e => .error e
  | .ok plot => match plot.item "results" with
    | .error e => .error e
    | .ok results => match results.item "opt" with
      | .error e => .error e
      | .ok opt =>
        if opt.truthy then .ok s
        else match plot, results with
          | .dict p, .dict r =>
            .ok (PyDict.set s "plot" (.dict (PyDict.set p "results"
              (.dict (PyDict.set r "opt" (.list [.str "cp"]))))))
          | _, _ => .error .typeError

/-- `_check_settings_dict` (`settings.py:227-237`).  For a float which is not finite one of the
comparisons is false. -/
def checkSettings (s : PyDict) : Except PyErr Unit :=
  match checkDict defaultSettings s with
  | .error e => .error e
  | .ok _ =>
    match s.lookup "_epsilon" with
    | some (.float (.fin x)) => if 0 < x ∧ x < 1 then .ok () else .error .valueError
    | _ => .error .valueError

/-- `update_from_dict` (`settings.py:202-218`). -/
def updateSettings (s d : PyDict) : Except PyErr PyDict :=
  match plotDefault (updateAll s d) with
  | .error e => .error e
  | .ok s' => match checkSettings s' with
    | .error e => .error e
    | .ok _ => .ok s'

/-- A settings object. -/
structure SettingsObj where
  settings : PyDict
  aircraftIsCpacs : Bool

/-- `f"{value}"` for the value of 'aircraft': strings, or the string `None`. -/
def PyVal.format : Option PyVal → String
  | some (.str s) => s
  | _ => "None"

/-- `_check_aircraft_file_type` (`settings.py:189-200`); `suffix` is the lower-case file extension
of a path. -/
def aircraftFileType (suffix : String → String) (s : PyDict) : Except PyErr Bool :=
  let ext := suffix (PyVal.format (s.lookup "aircraft"))
  if ext = ".json" then .ok false
  else if ext = ".xml" then .ok true
  else .error .valueError

/-- `Settings.__init__` (`settings.py:113-141`) with the default flags; creation of directories is
not modelled. -/
def initSettings (suffix : String → String) (d : Option PyDict) : Except PyErr SettingsObj :=
  let s0 := defaultDict defaultSettings
  let updated : Except PyErr PyDict := match d with
    | Option.none => .ok s0
    | some d => updateSettings s0 d
  match updated with
  | .error e => .error e
  | .ok s => match aircraftFileType suffix s with
    | .error e => .error e
    | .ok b => .ok ⟨s, b⟩

/-- The property `state_is_cpacs` (`settings.py:143-154`); `upper` is `str.upper`. -/
def SettingsObj.stateIsCpacs (upper : String → String) (s : SettingsObj) : Except PyErr Bool :=
  match (PyVal.dict s.settings).item "state" with
  | .error e => .error e
  | .ok (.str name) =>
    if upper name = "__CPACS" then
      if s.aircraftIsCpacs = false then .error .runtimeError else .ok true
    else .ok false
  | .ok _ => .error .attributeError

/-- `load` (`fileio/native/settings.py:42-67`) for a file containing the given JSON value. -/
def loadSettings (suffix : String → String) : PyVal → Except PyErr SettingsObj
  | .none => initSettings suffix Option.none
  | .dict d => initSettings suffix (some d)
  | _ => .error .attributeError

/-- `k.startswith('_')`. -/
def hidden (k : String) : Bool := k.toList.head? == some '_'

mutual
/-- `clean_dict` on a value, if it is a dictionary (`native/settings.py:100-101`). -/
def cleanVal : PyVal → PyVal
  | .dict d => .dict (cleanDict d)
  | v => v
termination_by structural v => v
/-- `clean_dict` (`native/settings.py:87-107`): the dictionary object afterwards. -/
def cleanDict : PyDict → PyDict
  | [] => []
  | (k, v) :: rest => if hidden k then cleanDict rest else (k, cleanVal v) :: cleanDict rest
termination_by structural d => d
end

/-- `save` (`native/settings.py:70-84`): the settings object afterwards and the content of the
file. -/
def saveSettings (s : SettingsObj) : SettingsObj × PyVal :=
  let s' := { s with settings := cleanDict s.settings }
  (s', .dict s'.settings)

end Verif
