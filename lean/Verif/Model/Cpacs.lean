import Verif.Model.Aircraft
import Verif.Model.FileIO
import Verif.Model.Run
import Verif.Model.Cli

/-!
# Import from and export to CPACS

Model of `/repo/src/lib/pytornado/fileio/cpacs/{aircraft,state,results,utils,__patch}.py`.  The external
packages TIXI and TIGL enter by what they return: the content of the XML file and the functions that
evaluate its geometry are data (`CpacsWing` etc.).  A failing call of these packages raises
`PyErr.external`.
-/

namespace Verif

/-! ## Segments -/

section
variable {K : Type*} [Field K] [LinearOrder K]

/-- `get_segment_mid_point` (`fileio/cpacs/utils.py:185-203`): lower and upper point of the segment. -/
def midPoint (lower upper : V3 K) : V3 K :=
  ⟨(lower.x + upper.x) / 2, (lower.y + upper.y) / 2, (lower.z + upper.z) / 2⟩

/-- `q[1] - p[1] < 0.0 or (q[1] == p[1] and q[2] - p[2] < 0.0)`. -/
def pointBefore (q p : V3 K) : Bool :=
  decide (q.y - p.y < 0) || (decide (q.y = p.y) && decide (q.z - p.z < 0))

/-- The re-ordering of the corners of a segment (`fileio/cpacs/aircraft.py:164-171`). -/
def reorderCorners (v : Corners (V3 K)) : Corners (V3 K) :=
  let v := if pointBefore v.b v.a then ⟨v.b, v.a, v.c, v.d⟩ else v
  let v := if pointBefore v.c v.d then ⟨v.a, v.b, v.d, v.c⟩ else v
  let v := if v.d.x - v.a.x < 0 then ⟨v.d, v.b, v.c, v.a⟩ else v
  if v.c.x - v.b.x < 0 then ⟨v.a, v.c, v.b, v.d⟩ else v

end

/-- `f"{i:02}"`. -/
def fmt02 (i : ℕ) : String :=
  String.ofList ((List.replicate (2 - (Nat.digits 10 i).length) '0') ++
    ((Nat.digits 10 i).map Nat.digitChar).reverse)

/-- A segment in the CPACS file: its `uID` (`none` if there is none), the evaluation of its lower and
upper surface at relative coordinates (eta, xsi), and the names of its airfoils. -/
structure CpacsSegment (K : Type*) where
  uid : Option String
  lower : K → K → V3 K
  upper : K → K → V3 K
  airfoilInner : String
  airfoilOuter : String

/-- A leading or trailing edge device whose data are complete (`fileio/cpacs/aircraft.py:230-243`). -/
structure CpacsDevice (K : Type*) where
  etaLEib : K
  etaTEib : K
  xsiLEib : K
  etaLEob : K
  etaTEob : K
  xsiLEob : K
  hingeIb : K
  hingeOb : K

/-- What the file holds under one index of control surfaces: the `uID` of the trailing edge device
(`fileio/cpacs/__patch.py:65-101`), and the data of leading and trailing edge device with this index,
`none` if they are missing or incomplete. -/
structure CpacsControl (K : Type*) where
  uid : String
  leading : Option (CpacsDevice K)
  trailing : Option (CpacsDevice K)

/-- A component segment: name and control surfaces.  Their number is that of the trailing edge
devices (`fileio/cpacs/__patch.py:30-62`). -/
structure CpacsSection (K : Type*) where
  name : String
  controls : List (CpacsControl K)

/-- A wing in the CPACS file; `segments` is `none` if that element is missing. -/
structure CpacsWing (K : Type*) where
  uid : Option String
  symmetry : ℕ
  segments : Option (List (CpacsSegment K))
  sections : List (CpacsSection K)

/-- A `controlDevice` in the tool-specific part (`fileio/cpacs/aircraft.py:290-306`); `none` if a value
cannot be read. -/
structure CpacsDeflection (K : Type*) where
  uid : String
  deflection : Option (Flt K)
  mirror : Option (Flt K)

/-- `tigl.wingComponentSegmentPointGetSegmentEtaXsi`: component segment, eta, xsi to segment, eta, xsi;
`none` if TIGL raises. -/
abbrev EtaXsi (K : Type*) := String → K → K → Option (String × K × K)

/-- An imported segment: corners, and names of its airfoil files. -/
structure ImpSegment (K : Type*) where
  vertices : Corners (V3 K)
  airfoilInner : String
  airfoilOuter : String

/-- An imported wing. -/
structure ImpWing (K : Type*) where
  uid : String
  symmetry : ℕ
  segments : ODict (ImpSegment K)
  controls : ODict (ControlDef K)

section
variable {K : Type*} [Field K] [LinearOrder K]

/-- A new key in one of the dictionaries (`add_wing`, `add_segment`, `add_control` in
`objects/aircraft.py:226-243`, `352-369`, `371-388`). -/
def ODict.addNew {α : Type*} (d : ODict α) (uid : String) (a : α) : Except PyErr (ODict α) :=
  if uid = "" then .error .componentDefinition
  else if d.has uid then .error .valueError
  else .ok (d ++ [(uid, a)])

/-- `PATHS.FILES.AIRFOIL` (`objects/settings.py:96-108`). -/
def airfoilFile (name : String) : String := "airfoils/blade." ++ name

/-- One pass of the loop over `inner`, `outer` in `get_aircraft_airfoils`
(`fileio/cpacs/aircraft.py:343-361`). -/
def importAirfoil (alnum : Char → Bool) (name : String) : Except PyErr String :=
  match parseStr alnum (.str name) "-_" with
  | .error e => .error e
  | .ok n => if n = "" then .error .valueError else .ok (airfoilFile n)

/-- One pass of the loop in `get_aircraft_wing_segments` (`fileio/cpacs/aircraft.py:139-182`).
Simplification: the segment is added to the wing at the end of the pass (an exception in between ends
the import anyway). -/
def importSegment (alnum : Char → Bool) (wing : String) (d : ODict (ImpSegment K)) (idx : ℕ)
    (s : CpacsSegment K) : Except PyErr (ODict (ImpSegment K)) :=
  let name : Except PyErr String := match s.uid with
    | some u => parseStr alnum (.str u) "-_"
    | none => .ok (wing ++ "_SEGMENT" ++ fmt02 idx)
  match name with
  | .error e => .error e
  | .ok uid =>
    let p (eta xsi : K) := midPoint (s.lower eta xsi) (s.upper eta xsi)
    let v := reorderCorners ⟨p 0 0, p 1 0, p 1 1, p 0 1⟩
    match importAirfoil alnum s.airfoilInner, importAirfoil alnum s.airfoilOuter with
    | .ok i, .ok o => d.addNew uid ⟨v, i, o⟩
    | .error e, _ => .error e
    | _, .error e => .error e

/-- The loop of `get_aircraft_wing_segments`. -/
def importSegments (alnum : Char → Bool) (wing : String) : ℕ → List (CpacsSegment K) →
    ODict (ImpSegment K) → Except PyErr (ODict (ImpSegment K))
  | _, [], d => .ok d
  | idx, s :: rest, d =>
    match importSegment alnum wing d idx s with
    | .error e => .error e
    | .ok d' => importSegments alnum wing (idx + 1) rest d'

/-! ## Controls -/

/-- A call of TIGL. -/
def EtaXsi.call (tigl : EtaXsi K) (sec : String) (eta xsi : K) : Except PyErr (String × K × K) :=
  match tigl sec eta xsi with
  | none => .error .external
  | some r => .ok r

/-- The control object made from four evaluations (`fileio/cpacs/aircraft.py:251-285`). -/
def makeControl (tigl : EtaXsi K) (sec dev : String) (etaIb xsiIb etaOb xsiOb hIb hOb : K) :
    Except PyErr (ControlDef K) :=
  match tigl.call sec etaIb xsiIb, tigl.call sec etaOb xsiOb, tigl.call sec etaIb hIb,
    tigl.call sec etaOb hOb with
  | .ok i, .ok o, .ok h1, .ok h2 =>
    .ok ⟨i.1, o.1, i.2.1, o.2.1, i.2.2, o.2.2, h1.2.2, h2.2.2, none, some dev, .num (.fin 0), .none⟩
  | .error e, _, _, _ => .error e
  | _, .error e, _, _ => .error e
  | _, _, .error e, _ => .error e
  | _, _, _, .error e => .error e

/-- Local state of `get_aircraft_controls`: the variables `xsiTE_ib`, `xsiTE_ob` (unbound at first; they
are assigned for trailing edge devices only), and the controls so far. -/
structure CtrlSt (K : Type*) where
  xsiTE : Option (K × K)
  controls : ODict (ControlDef K)

/-- The pass for `device_pos == 'leading'` (`fileio/cpacs/aircraft.py:246-257`, `270-285`). -/
def importLeading (tigl : EtaXsi K) (sec uid : String) (st : CtrlSt K) :
    Option (CpacsDevice K) → Except PyErr (CtrlSt K)
  | none => .ok st
  | some dev =>
    match st.xsiTE with
    | none => .error .unboundLocal
    | some (ib, ob) =>
      match makeControl tigl sec "slat" dev.etaTEib ib dev.etaTEob ob dev.hingeIb dev.hingeOb with
      | .error e => .error e
      | .ok c =>
        match st.controls.addNew uid c with
        | .error e => .error e
        | .ok d => .ok { st with controls := d }

/-- The pass for `device_pos == 'trailing'` (`fileio/cpacs/aircraft.py:259-285`). -/
def importTrailing (tigl : EtaXsi K) (sec uid : String) (st : CtrlSt K) :
    Option (CpacsDevice K) → Except PyErr (CtrlSt K)
  | none => .ok st
  | some dev =>
    match makeControl tigl sec "flap" dev.etaLEib dev.xsiLEib dev.etaLEob dev.xsiLEob dev.hingeIb
      dev.hingeOb with
    | .error e => .error e
    | .ok c =>
      match st.controls.addNew uid c with
      | .error e => .error e
      | .ok d => .ok ⟨some (1, 1), d⟩

/-- The loop over the controls of a component segment (`fileio/cpacs/aircraft.py:215-285`). -/
def importControls (tigl : EtaXsi K) (sec : String) : List (CpacsControl K) → CtrlSt K →
    Except PyErr (CtrlSt K)
  | [], st => .ok st
  | c :: rest, st =>
    match importLeading tigl sec c.uid st c.leading with
    | .error e => .error e
    | .ok st1 =>
      match importTrailing tigl sec c.uid st1 c.trailing with
      | .error e => .error e
      | .ok st2 => importControls tigl sec rest st2

/-- The loop over the component segments (`fileio/cpacs/aircraft.py:210-285`). -/
def importSections (tigl : EtaXsi K) : List (CpacsSection K) → CtrlSt K → Except PyErr (CtrlSt K)
  | [], st => .ok st
  | s :: rest, st =>
    match importControls tigl s.name s.controls st with
    | .error e => .error e
    | .ok st' => importSections tigl rest st'

/-- Assignment of the two deflections to the control with the given name.  Keys are unique. -/
def setDeflection (e : CpacsDeflection K) (controls : ODict (ControlDef K)) : ODict (ControlDef K) :=
  controls.map fun kc => if kc.1 = e.uid then
    (kc.1, { kc.2 with
      deflection := .num (e.deflection.getD (.fin 0))
      deflectionMirror := match e.mirror with
        | none => .none
        | some m => .num m })
    else kc

/-- The loop over the wings (`fileio/cpacs/aircraft.py:309-317`): the first wing that has the control;
`none` if no wing has it. -/
def assignDeflection (e : CpacsDeflection K) : List (ImpWing K) → Option (List (ImpWing K))
  | [] => none
  | w :: rest =>
    if w.controls.has e.uid then some ({ w with controls := setDeflection e w.controls } :: rest)
    else
      match assignDeflection e rest with
      | none => none
      | some ws => some (w :: ws)

/-- The loop over the deflections (`fileio/cpacs/aircraft.py:293-321`). -/
def assignDeflections : List (CpacsDeflection K) → List (ImpWing K) →
    Except PyErr (List (ImpWing K))
  | [], ws => .ok ws
  | e :: rest, ws =>
    match assignDeflection e ws with
    | none => .error .componentDefinition
    | some ws' => assignDeflections rest ws'

/-- `check` for the controls of one wing. -/
def checkControls (w : ImpWing K) : Except PyErr (ImpWing K) :=
  match mapE (fun kc : String × ControlDef K => match kc.2.check w.symmetry with
    | .error e => .error e
    | .ok c => .ok (kc.1, c)) w.controls with
  | .error e => .error e
  | .ok cs => .ok { w with controls := cs }

/-- Everything the import of wings reads from the file. -/
structure CpacsFile (K : Type*) where
  wings : List (CpacsWing K)
  deflections : List (CpacsDeflection K)
  tigl : EtaXsi K

/-- One pass of the loop in `get_aircraft_wings` (`fileio/cpacs/aircraft.py:98-114`): deflections and
checks (`287-327`) are part of each pass and concern all wings so far. -/
def importWing (alnum : Char → Bool) (f : CpacsFile K) (idx : ℕ) (w : CpacsWing K)
    (ws : List (ImpWing K)) : Except PyErr (List (ImpWing K)) :=
  let name : Except PyErr String := match w.uid with
    | some u => parseStr alnum (.str u) "-_"
    | none => .ok ("WING" ++ fmt02 idx)
  match name with
  | .error e => .error e
  | .ok uid =>
    if uid = "" then .error .componentDefinition
    else if ws.any fun x => x.uid == uid then .error .valueError
    else if 3 < w.symmetry then .error .valueError
    else
      match w.segments with
      | none => .error .valueError
      | some segs =>
        match importSegments alnum uid 1 segs [] with
        | .error e => .error e
        | .ok sd =>
          match importSections f.tigl w.sections ⟨none, []⟩ with
          | .error e => .error e
          | .ok st =>
            match assignDeflections f.deflections (ws ++ [⟨uid, w.symmetry, sd, st.controls⟩]) with
            | .error e => .error e
            | .ok ws' => mapE checkControls ws'

/-- The loop of `get_aircraft_wings`. -/
def importWingsFrom (alnum : Char → Bool) (f : CpacsFile K) : ℕ → List (CpacsWing K) →
    List (ImpWing K) → Except PyErr (List (ImpWing K))
  | _, [], ws => .ok ws
  | idx, w :: rest, ws =>
    match importWing alnum f idx w ws with
    | .error e => .error e
    | .ok ws' => importWingsFrom alnum f (idx + 1) rest ws'

/-- `get_aircraft_wings` (`fileio/cpacs/aircraft.py:78-114`). -/
def importWings (alnum : Char → Bool) (f : CpacsFile K) : Except PyErr (List (ImpWing K)) :=
  importWingsFrom alnum f 1 f.wings []

end

/-! ## Airfoil files -/

/-- An airfoil in the CPACS file: its name (`none` if the element is missing) and its data. -/
structure CpacsAirfoil (α : Type*) where
  name : Option String
  coords : α

/-- `write_airfoil_files` (`fileio/cpacs/aircraft.py:364-392`): the files written, in order. -/
def writeAirfoils {α : Type*} (alnum : Char → Bool) : ℕ → List (CpacsAirfoil α) →
    Except PyErr (List (String × α))
  | _, [] => .ok []
  | i, a :: rest =>
    let name : Except PyErr String := match a.name with
      | some n => parseStr alnum (.str n) "-_"
      | none => .ok ("AIRFOIL" ++ fmt02 i)
    match name with
    | .error e => .error e
    | .ok n =>
      match writeAirfoils alnum (i + 1) rest with
      | .error e => .error e
      | .ok fs => .ok ((airfoilFile n, a.coords) :: fs)

/-- Content of a file after all have been written: the last one wins. -/
def fileAfter {α : Type*} (fs : List (String × α)) (path : String) : Option α :=
  (fs.filter fun f => f.1 == path).getLast?.map (·.2)

/-! ## Flight states -/

section
variable {K : Type*} [Field K] [LinearOrder K]

/-- `_get_aero_dict_from_APM` (`fileio/cpacs/state.py:57-109`).  `apm` are the vectors of the
aeroperformance map, `none` for a missing one. -/
def cpacsAeroDict (apm : String → Option (List (Flt K))) : Except PyErr (List (String × Arg K)) :=
  match apm "altitude" with
  | none => .error .external
  | some h =>
    match apm "machNumber" with
    | none => .error .external
    | some m =>
      match apm "angleOfAttack" with
      | none => .error .external
      | some a =>
        match apm "angleOfSideslip" with
        | none => .error .external
        | some b =>
          if 1 < [h.length, m.length, a.length, b.length].dedup.length then .error .valueError
          else
            let rate : Arg K := .list (List.replicate b.length (.num (.fin 0)))
            .ok [("altitude", .list (h.map .num)), ("alpha", .list (a.map .num)),
              ("beta", .list (b.map .num)), ("mach", .list (m.map .num)),
              ("rate_P", rate), ("rate_Q", rate), ("rate_R", rate)]

/-- `load` (`fileio/cpacs/state.py:38-54`). -/
def cpacsLoadState (atm : Atm K) (apm : String → Option (List (Flt K))) : Except PyErr (FlightSt K) :=
  match cpacsAeroDict apm with
  | .error e => .error e
  | .ok d => updateFromDict atm Store.fresh d

end

/-! ## Results -/

/-- An XML document: which paths there are, and the vector of numbers each holds.  Simplification: the
text format `%g` of the numbers is left out. -/
abbrev XmlDoc := Name → Option (List (Flt ℝ))

/-- What the choice of the aeroperformance map reads (`fileio/cpacs/utils.py:75-111`). -/
structure ApmInfo where
  count : ℕ
  singleUid : Option Name
  toolUid : Option Name
  xpathOf : Name → Option Name

/-- `XPATHS._get_uid_apm` (`fileio/cpacs/utils.py:91-111`). -/
def ApmInfo.uid (t : ApmInfo) : Option Name := if t.count = 1 then t.singleUid else t.toolUid

/-- `XPATHS.APM` (`fileio/cpacs/utils.py:75-89`). -/
def ApmInfo.path (t : ApmInfo) : Except PyErr Name :=
  match t.uid with
  | none => .error .external
  | some u =>
    match t.xpathOf u with
    | none => .error .external
    | some p => .ok (p ++ "/aeroPerformanceMap".toList)

/-- `xpath.split("/")[-1]`: what follows the last slash. -/
def lastComponent (x : Name) : Name := (x.reverse.takeWhile (· != '/')).reverse

/-- `add_vector` (`fileio/cpacs/utils.py:206-230`). -/
def addVector (doc : XmlDoc) (xpath : Name) (v : List (Flt ℝ)) : Except PyErr XmlDoc :=
  let x := if xpath.getLast? = some '/' then xpath.dropLast else xpath
  let child := lastComponent x
  let parent := x.take (x.length - (child.length + 1))
  match doc x with
  | some _ => .ok (Function.update doc x (some v))
  | none =>
    match doc parent with
    | none => .error .external
    | some _ => .ok (Function.update doc (parent ++ '/' :: child) (some v))

/-- The loop of `save_aeroperformance_map` (`fileio/cpacs/results.py:61-64`): document and exception, if
any; `modify_cpacs` (`fileio/cpacs/utils.py:233-246`) saves the document in any case. -/
def saveColumns (t : ApmInfo) (results : Table) : List (String × String) → XmlDoc →
    XmlDoc × Option PyErr
  | [], doc => (doc, none)
  | m :: rest, doc =>
    match t.path with
    | .error e => (doc, some e)
    | .ok p =>
      match results m.2 with
      | none => (doc, some .keyError)
      | some v =>
        match addVector doc (p ++ '/' :: m.1.toList) v with
        | .error e => (doc, some e)
        | .ok doc' => saveColumns t results rest doc'

end Verif
