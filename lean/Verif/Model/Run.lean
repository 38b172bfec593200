import Verif.Model.Normals
import Verif.Model.State
import Mathlib.Data.Nat.Digits.Defs

/-!
# A standard run

Model of `standard_run` (`/repo/src/lib/pytornado/stdfun/run.py:84-182`) from the loaded aircraft and
flight states on, of the solver steps it calls (`aero/vlm.py:421-526`), of the part of
`aero/c_vlm.cpp` that hands the results back, of `VLMData` (`objects/vlm_struct.py:113-179`) and of
the result files (`fileio/native/results.py`, `objects/settings.py:156-187`).

One `VLMData` object is used for all flight states and the aircraft keeps its panelling, so both are
threaded through the loop.  Simplifications: exact real arithmetic; plots, logging and the creation
of directories are left out; the text format of files is left out (a file is the data in it).
-/

namespace Verif

/-- Why a run stops early: an exception, or a value that is not finite — what the code does from
there on is not modelled. -/
inductive Stop
  | raised (e : PyErr)
  | notFinite
  deriving DecidableEq, Repr

/-- Exceptions as reasons to stop. -/
def orStop {α : Type*} : Except PyErr α → Except Stop α
  | .error e => .error (.raised e)
  | .ok a => .ok a

/-- What a run reads besides the panelling data and the flight states: lattice data (geometry,
deflections, camber), `aircraft.refs`, settings (`_epsilon`, `_do_normal_rotations`,
`vlm_autopanels_c`, `vlm_autopanels_s`, `save_results`), the base name of the project, whether aircraft
and state are CPACS, and LAPACK's `dgesv` applied to matrix (list of rows) and right-hand side: the
vector it returns as solution; the indicator `info` is ignored (`vlm.py:475`). -/
structure RunEnv where
  lat : LatticeEnv
  refs : Refs
  eps : ℝ
  doRot : Bool
  autoC : ℤ
  autoS : ℤ
  base : String
  saveGlobal : Bool
  savePanelwise : Bool
  saveMatrix : Bool
  saveAero : Bool
  cpacsAircraft : Bool
  cpacsState : Bool
  dgesv : List (List ℝ) → List ℝ → List ℝ

/-- A dictionary of floating-point numbers. -/
abbrev FltDict := String → Option (Flt ℝ)

/-- `VLMData` (`vlm_struct.py:113-179`). -/
@[ext] structure VlmData where
  matrix : Option (List (List ℝ))
  rhs : Option (List ℝ)
  panelwise : String → Option (List (Flt ℝ))
  forces : FltDict
  coeffs : FltDict

/-- The keys of `forces` and `coeffs` (`vlm_struct.py:159-179`). -/
def forceKeys : List String := ["x", "y", "z", "D", "C", "L", "l", "m", "n"]

/-- The keys of `panelwise` (`vlm_struct.py:144-154`). -/
def panelwiseKeys : List String :=
  ["gamma", "vx", "vy", "vz", "vmag", "fx", "fy", "fz", "fmag", "cp"]

/-- `VLMData()`. -/
def VlmData.fresh : VlmData :=
  { matrix := none, rhs := none, panelwise := fun _ => none
    forces := fun k => if k ∈ forceKeys then some (.fin 0) else none
    coeffs := fun k => if k ∈ forceKeys then some (.fin 0) else none }

/-- All panels of a lattice, if all of them are finite. -/
noncomputable def LatticeData.panels (l : LatticeData) : Option (Fin l.num → Panel) :=
  if h : ∀ k : Fin l.num, (l.panel k).isSome = true then some fun k => (l.panel k).get (h k) else none

/-- Rows of a matrix. -/
def rowsOf {n : ℕ} (A : Matrix (Fin n) (Fin n) ℝ) : List (List ℝ) :=
  List.ofFn fun i => List.ofFn fun j => A i j

/-- `calc_downwash` (`vlm.py:421-441`): `np.linalg.cond` raises for a matrix without rows. -/
noncomputable def calcDownwash (env : RunEnv) (l : LatticeData) (v : VlmData) :
    Except Stop VlmData :=
  match l.panels with
  | none => .error .notFinite
  | some P =>
    match vlmDownwash env.eps P with
    | none => .error .notFinite
    | some A =>
      if l.num = 0 then .error (.raised .linAlg) else .ok { v with matrix := some (rowsOf A) }

/-- `calc_boundary` (`vlm.py:444-463`). -/
noncomputable def calcBoundary (env : RunEnv) (l : LatticeData) (s : FlowState) (v : VlmData) :
    Except Stop VlmData :=
  match l.panels with
  | none => .error .notFinite
  | some P => .ok { v with rhs := some (List.ofFn (vlmBoundary s env.refs P)) }

/-- `solver` (`vlm.py:466-476`). -/
def calcGamma (env : RunEnv) (v : VlmData) : Except Stop VlmData :=
  match v.matrix, v.rhs with
  | some A, some b => .ok { v with
      panelwise := Function.update v.panelwise "gamma" (some ((env.dgesv A b).map .fin)) }
  | _, _ => .error (.raised .typeError)

/-- The circulation `gamma[i]` read by the native code. -/
def gammaAt (g : List (Flt ℝ)) (i : ℕ) : ℝ :=
  match g[i]? with
  | some (.fin x) => x
  | _ => 0

/-- A number that may be not finite. -/
def asFlt : Option ℝ → Flt ℝ
  | some x => .fin x
  | none => .nonfin

/-- Arrays written by `vlm_results` (`c_vlm.cpp:1049-1127`, names of `resultstruct`). -/
noncomputable def panelColumns {n : ℕ} (R : Results n) : List (String × List (Flt ℝ)) :=
  [("vx", List.ofFn fun i => .fin (R.iw i).x), ("vy", List.ofFn fun i => .fin (R.iw i).y),
   ("vz", List.ofFn fun i => .fin (R.iw i).z), ("vmag", List.ofFn fun i => .fin (R.iwMag i)),
   ("fx", List.ofFn fun i => .fin (R.f i).x), ("fy", List.ofFn fun i => .fin (R.f i).y),
   ("fz", List.ofFn fun i => .fin (R.f i).z), ("fmag", List.ofFn fun i => .fin (R.fMag i)),
   ("cp", List.ofFn fun i => asFlt (R.cp i))]

/-- Items written to `vlmdata.forces` (`c_vlm.cpp:1155-1233`). -/
def forceItems {n : ℕ} (R : Results n) : List (String × Flt ℝ) :=
  [("x", .fin R.ftot.x), ("y", .fin R.ftot.y), ("z", .fin R.ftot.z),
   ("D", .fin R.wind.x), ("C", .fin R.wind.y), ("L", .fin R.wind.z),
   ("l", .fin R.mtot.x), ("m", .fin R.mtot.y), ("n", .fin R.mtot.z)]

/-- Items written to `vlmdata.coeffs` (`c_vlm.cpp:1249-1327`). -/
def coeffItems {n : ℕ} (R : Results n) : List (String × Flt ℝ) :=
  [("x", asFlt R.coeffs.cx), ("y", asFlt R.coeffs.cy), ("z", asFlt R.coeffs.cz),
   ("D", asFlt R.coeffs.cD), ("C", asFlt R.coeffs.cC), ("L", asFlt R.coeffs.cL),
   ("l", asFlt R.coeffs.cl), ("m", asFlt R.coeffs.cm), ("n", asFlt R.coeffs.cn)]

/-- `PyDict_SetItem` one after another; stops (with `false`) at a key that is not in the dictionary
(`set_resultstruct`, `c_vlm.cpp:1135-1330`). -/
def setKnown : List (String × Flt ℝ) → FltDict → FltDict × Bool
  | [], d => (d, true)
  | (k, x) :: rest, d =>
    if (d k).isSome then setKnown rest (Function.update d k (some x)) else (d, false)

/-- Assign items of a dictionary one after another. -/
def setItems : List (String × List (Flt ℝ)) → (String → Option (List (Flt ℝ))) →
    (String → Option (List (Flt ℝ)))
  | [], d => d
  | (k, x) :: rest, d => setItems rest (Function.update d k (some x))

/-- `calc_results` (`vlm.py:488-526`) with `py2c_results` (`c_vlm.cpp:268-329`): the arrays are new
ones; if `gamma` is not an array nothing is computed and the arrays keep their zeros. -/
noncomputable def calcResults (env : RunEnv) (l : LatticeData) (s : FlowState) (v : VlmData) :
    Except Stop VlmData :=
  match v.panelwise "gamma" with
  | none => .ok { v with panelwise := setItems ((panelwiseKeys.erase "gamma").map fun k =>
      (k, List.replicate l.num (.fin 0))) v.panelwise }
  | some g =>
    match l.panels with
    | none => .error .notFinite
    | some P =>
      match vlmResults env.eps s env.refs P (fun i => gammaAt g i) with
      | none => .error .notFinite
      | some R =>
        let f := setKnown (forceItems R) v.forces
        .ok { v with
          panelwise := setItems (panelColumns R) v.panelwise
          forces := f.1
          coeffs := if f.2 then (setKnown (coeffItems R) v.coeffs).1 else v.coeffs }

/-- One pass of the loop from `gen_lattice` to `calc_results` (`run.py:129-135`) on a panelled
aircraft. -/
noncomputable def analyse (env : RunEnv) (ac : PAircraft ℝ) (s : FlowState) (v : VlmData) :
    Except Stop (LatticeData × VlmData) :=
  match orStop (genLattice env.lat env.doRot s.alpha s.beta ac) with
  | .error x => .error x
  | .ok l =>
    match calcDownwash env l v with
    | .error x => .error x
    | .ok v1 =>
      match calcBoundary env l s v1 with
      | .error x => .error x
      | .ok v2 =>
        match calcGamma env v2 with
        | .error x => .error x
        | .ok v3 =>
          match calcResults env l s v3 with
          | .error x => .error x
          | .ok v4 => .ok (l, v4)

/-! ## Files -/

/-- Data in a result file. -/
inductive FileContent
  /-- `global.json` (`results.py:82-88`): `aero`, `refs`, `global_forces`, `global_coeffs` -/
  | global (aero : FltDict) (refs : Refs) (forces coeffs : FltDict)
  /-- `panelwise.dat` (`results.py:91-136`): one row per panel -/
  | panelwise (rows : List (List (Flt ℝ)))
  /-- `matrix.dat` (`results.py:139-168`): rows of the matrix, each followed by its right-hand side -/
  | matrix (rows : List (List ℝ))
  /-- the aeroperformance map (`results.py:171-189`) -/
  | aeroMap (columns : String → Option (List (Flt ℝ)))
  /-- vectors written to the CPACS file (`fileio/cpacs/results.py:38-64`) -/
  | cpacsMap (columns : List (String × List (Flt ℝ)))

/-- Components of a path below the project directory. -/
abbrev FilePath := List String

/-- The files written so far, latest last. -/
abbrev Files := List (FilePath × FileContent)

/-- `f"{counter:03d}"`: decimal digits, filled with zeros to three places. -/
def fmt03 (i : ℕ) : String :=
  String.ofList ((List.replicate (3 - (Nat.digits 10 i).length) '0') ++
    ((Nat.digits 10 i).map Nat.digitChar).reverse)

/-- Directory `d_results` for a flight state (`settings.py:162-177`). -/
def resultsDir (base : String) (i : ℕ) : FilePath := ["_results", base ++ "_" ++ fmt03 i]

/-- `np.stack(columns, axis=-1)`: all columns must have the same length. -/
def stackColumns : List (List (Flt ℝ)) → Except PyErr (List (List (Flt ℝ)))
  | [] => .error .valueError
  | c :: rest =>
    if rest.all fun d => decide (d.length = c.length) then
      .ok ((List.range c.length).map fun i => (c :: rest).map fun d => d.getD i .nonfin)
    else .error .valueError

/-- `vlmdata.panelwise[key]` for the columns of the file (`results.py:104-119`); `None` has no
length. -/
def panelwiseColumns (v : VlmData) : Except PyErr (List (List (Flt ℝ))) :=
  mapE (fun k => match v.panelwise k with
    | some c => .ok c
    | none => .error .valueError) panelwiseKeys

/-- `_save_panelwise` (`results.py:91-136`). -/
def savePanelwise (v : VlmData) : Except PyErr FileContent :=
  match panelwiseColumns v with
  | .error e => .error e
  | .ok cols =>
    match stackColumns cols with
    | .error e => .error e
    | .ok rows => .ok (.panelwise rows)

/-- `_save_matrix_system` (`results.py:139-168`): `reshape` needs one element per row. -/
def saveMatrix (v : VlmData) : Except PyErr FileContent :=
  match v.matrix, v.rhs with
  | some A, some b =>
    if b.length = A.length then .ok (.matrix (List.zipWith (fun r x => r ++ [x]) A b))
    else .error .valueError
  | _, _ => .error .attributeError

/-- A file that is written if a flag is set. -/
def saveIf (flag : Bool) (path : FilePath) (c : Except PyErr FileContent) : Except PyErr Files :=
  if flag then
    match c with
    | .error e => .error e
    | .ok c => .ok [(path, c)]
  else .ok []

/-- `save_all` (`results.py:46-65`). -/
def saveAll (env : RunEnv) (i : ℕ) (cur : CurSt ℝ) (v : VlmData) : Except PyErr Files :=
  match saveIf env.saveGlobal (resultsDir env.base i ++ ["global.json"])
      (.ok (.global cur.aero env.refs v.forces v.coeffs)) with
  | .error e => .error e
  | .ok f1 =>
    match saveIf env.savePanelwise (resultsDir env.base i ++ ["panelwise.dat"]) (savePanelwise v) with
    | .error e => .error e
    | .ok f2 =>
      match saveIf env.saveMatrix (resultsDir env.base i ++ ["matrix.dat"]) (saveMatrix v) with
      | .error e => .error e
      | .ok f3 => .ok (f1 ++ f2 ++ f3)

/-! ## The loop -/

/-- `GLOBAL_COEFFS` (`state.py:79-86`). -/
def globalCoeffs : List String :=
  ["Fx", "Fy", "Fz", "FD", "FC", "FL", "Mx", "My", "Mz",
   "Cx", "Cy", "Cz", "CD", "CC", "CL", "Cl", "Cm", "Cn"]

/-- `state.results`. -/
abbrev Table := String → Option (List (Flt ℝ))

/-- `state.results` after `__init__` (`state.py:128-130`). -/
def Table.fresh : Table := fun k => if k ∈ globalCoeffs then some [] else none

/-- Columns taken from `vlmdata.forces` (`run.py:145-153`). -/
def forceColumns : List (String × String) :=
  [("Fx", "x"), ("Fy", "y"), ("Fz", "z"), ("FD", "D"), ("FC", "C"), ("FL", "L"),
   ("Mx", "l"), ("My", "m"), ("Mz", "n")]

/-- Columns taken from `vlmdata.coeffs` (`run.py:155-163`). -/
def coeffColumns : List (String × String) :=
  [("Cx", "x"), ("Cy", "y"), ("Cz", "z"), ("CD", "D"), ("CC", "C"), ("CL", "L"),
   ("Cl", "l"), ("Cm", "m"), ("Cn", "n")]

/-- `state.results[col].append(d[key])` for several columns. -/
def appendAll (d : FltDict) : List (String × String) → Table → Except PyErr Table
  | [], t => .ok t
  | (col, key) :: rest, t =>
    match t col, d key with
    | some l, some x => appendAll d rest (Function.update t col (some (l ++ [x])))
    | _, _ => .error .keyError

/-- The variables of the loop. -/
structure LoopSt where
  ac : PAircraft ℝ
  vlm : VlmData
  table : Table
  files : Files
  /-- the variable `lattice`, unbound before the first pass -/
  lattice : Option LatticeData

/-- `if make_new_subareas: pre_panelling(aircraft)` (`run.py:126`, `vlm.py:266-267`). -/
noncomputable def prePanelFirst (i : ℕ) (ac : PAircraft ℝ) : Except PyErr (PAircraft ℝ) :=
  if i = 0 then prePanelling ac else .ok ac

/-- One pass of the loop (`run.py:111-163`) for flight state number `i`. -/
noncomputable def runStep (env : RunEnv) (st : FlightSt ℝ) (i : ℕ) (x : LoopSt) :
    Except Stop LoopSt :=
  match orStop (st.current i) with
  | .error e => .error e
  | .ok cur =>
    match orStop (prePanelFirst i x.ac) with
    | .error e => .error e
    | .ok ac =>
      match cur.toFlow with
      | none => .error .notFinite
      | some s =>
        match analyse env ac s x.vlm with
        | .error e => .error e
        | .ok (l, v) =>
          match orStop (saveAll env i cur v) with
          | .error e => .error e
          | .ok fs =>
            match orStop (appendAll v.forces forceColumns x.table) with
            | .error e => .error e
            | .ok t =>
              match orStop (appendAll v.coeffs coeffColumns t) with
              | .error e => .error e
              | .ok t' => .ok ⟨ac, v, t', x.files ++ fs, some l⟩

/-- The loop over the flight states (`run.py:110-164`): states `i`, …, `i + k - 1`.  After an
exception the files of the passes before are there. -/
noncomputable def runLoop (env : RunEnv) (st : FlightSt ℝ) : ℕ → ℕ → LoopSt →
    Except (Stop × Files) LoopSt
  | 0, _, x => .ok x
  | k + 1, i, x =>
    match runStep env st i x with
    | .error e => .error (e, x.files)
    | .ok x' => runLoop env st k (i + 1) x'

/-- Data of the aeroperformance map (`results.py:183-186`): `state.aero` (`None` as empty list), then
`state.results` over it. -/
def aeroMapColumns (σ : Store ℝ) (t : Table) : String → Option (List (Flt ℝ)) := fun k =>
  match t k with
  | some l => some l
  | none =>
    match σ k with
    | some l => some (l.map Val.flt)
    | none => if k ∈ stateAllParams then some [] else none

/-- `cpacs_mappings` (`fileio/cpacs/results.py:52-59`). -/
def cpacsMappings : List (String × String) :=
  [("cl", "CL"), ("cd", "CD"), ("cs", "CC"), ("cmd", "Cl"), ("cms", "Cm"), ("cml", "Cn")]

/-- Vectors written to CPACS (`fileio/cpacs/results.py:61-64`).  Simplification: the mappings are a
Python set; their order is arbitrary. -/
def cpacsColumns (t : Table) : Except PyErr (List (String × List (Flt ℝ))) :=
  mapE (fun m : String × String => match t m.2 with
    | some l => .ok (m.1, l)
    | none => .error .keyError) cpacsMappings

/-- `save_aeroperformance_map` for CPACS (`run.py:167-168`). -/
def saveCpacsMap (env : RunEnv) (t : Table) : Except PyErr Files :=
  if env.cpacsAircraft && env.cpacsState then
    match cpacsColumns t with
    | .error e => .error e
    | .ok c => .ok [(["aircraft"], .cpacsMap c)]
  else .ok []

/-- The native aeroperformance map (`run.py:170-171`, `settings.py:187`). -/
def saveNativeMap (env : RunEnv) (σ : Store ℝ) (t : Table) : Files :=
  if env.saveAero then
    [(["_results", env.base ++ "_aeroperformance.json"], .aeroMap (aeroMapColumns σ t))]
  else []

/-- What a run returns (`run.py:176-182`), and the files it has written. -/
structure RunOut where
  lattice : LatticeData
  vlm : VlmData
  table : Table
  files : Files

/-- `standard_run` after loading (`run.py:104-182`): `lattice` is unbound if there was no flight
state. -/
noncomputable def standardRun (env : RunEnv) (ac : PAircraft ℝ) (st : FlightSt ℝ) :
    Except (Stop × Files) RunOut :=
  match setAutopanels env.autoC env.autoS ac with
  | .error e => .error (.raised e, [])
  | .ok ac1 =>
    match runLoop env st st.num 0 ⟨ac1, VlmData.fresh, Table.fresh, [], none⟩ with
    | .error e => .error e
    | .ok x =>
      match saveCpacsMap env x.table with
      | .error e => .error (.raised e, x.files)
      | .ok fs =>
        let files := x.files ++ fs ++ saveNativeMap env st.aero x.table
        match x.lattice with
        | none => .error (.raised .unboundLocal, files)
        | some l => .ok ⟨l, x.vlm, x.table, files⟩

end Verif
