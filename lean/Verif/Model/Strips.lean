import Mathlib.Algebra.Order.Field.Basic
import Mathlib.Data.List.Basic
import Mathlib.Tactic.Linarith
import Verif.Model.Py

/-!
# Strips and subareas of a wing segment (relative coordinates)

Model of `WingSegment.add_subdivision`, `add_subdivision_for_control` and of the classes
`SegmentStrip` and `StripSubdivision` in `/repo/src/lib/pytornado/objects/aircraft.py`,
as far as the relative coordinates (eta, xsi) are concerned.

Numbers are elements of an arbitrary linearly ordered field `K` (simplification: no
rounding, no `nan`).  `xsi_interpol(self.vertices, ., ., .)` is a parameter `interp`
(an arbitrary function; its geometric meaning is in `Verif.Model.Geometry`).
-/

namespace Verif

/-- What the panelling code reads from a `WingControl` object: its uid and `device_type`
(`objects/aircraft.py:1342-1436`).  `device_type` is an arbitrary string, as in the code. -/
structure Control where
  uid : String
  deviceType : String
  deriving DecidableEq, Repr

section
variable (K : Type*)

/-- `StripSubdivision.rel_vertices` (`objects/aircraft.py:1795-1799`): chordwise positions
of the corners a (inner, front), b (outer, front), c (outer, rear), d (inner, rear). -/
@[ext] structure Quad where
  xsiA : K
  xsiB : K
  xsiC : K
  xsiD : K
  deriving DecidableEq, Repr

/-- A subarea of type `'slat'` or `'flap'`: `StripSubdivision` with hinge line and parent
control, which are always set together (`objects/aircraft.py:1711-1712, 1981-2004`). -/
@[ext] structure Dev extends Quad K where
  h1 : K
  h2 : K
  ctrl : Control
  deriving DecidableEq, Repr

/-- `SegmentStrip` (`objects/aircraft.py:1529-1575`).  The ordered dictionary `subarea` always
holds the key `'segment'` first (field `main`) and possibly `'slat'` and `'flap'`; `keys` is
the insertion order of the latter two. -/
@[ext] structure Strip where
  etaA : K
  etaB : K
  etaC : K
  etaD : K
  main : Quad K
  slat : Option (Dev K)
  flap : Option (Dev K)
  keys : List String
  deriving DecidableEq, Repr

end

section
variable {K : Type*} [Field K] [LinearOrder K]

/-- `MIN_ETA_LIMIT` (`objects/aircraft.py:67`). -/
def minEtaLimit : K := 1 / 100

/-- `MIN_XSI_LIMIT` (`objects/aircraft.py:66`). -/
def minXsiLimit : K := 1 / 100

/-- `StripSubdivision.__init__` (`objects/aircraft.py:1794-1799`): note that the code
*exchanges* `xsi_c` and `xsi_d` of the dictionary it is given. -/
def Quad.init (xsiA xsiB xsiC xsiD : K) : Quad K :=
  { xsiA := xsiA, xsiB := xsiB, xsiC := xsiD, xsiD := xsiC }

/-- `StripSubdivision.rel_length` (`objects/aircraft.py:1807-1821`). -/
def Quad.relLength (q : Quad K) : K :=
  (1 / 2) * ((q.xsiC + q.xsiD) - (q.xsiA + q.xsiB))

/-- `SegmentStrip.__init__` (`objects/aircraft.py:1548-1575`). -/
def Strip.init (etaA etaB etaC etaD : K) : Strip K :=
  { etaA := etaA, etaB := etaB, etaC := etaC, etaD := etaD
    main := Quad.init 0 0 1 1
    slat := none, flap := none, keys := [] }

/-- The overlap tests of `SegmentStrip._add_subarea` (`objects/aircraft.py:1676-1684`).
`true` means "raise ValueError: overlapping subareas". -/
def Strip.overlaps (s : Strip K) (xsi1 xsi2 : K) : Prop :=
  (∃ sl, s.slat = some sl ∧ (sl.xsiD + minXsiLimit > xsi1 ∨ sl.xsiC + minXsiLimit > xsi2)) ∨
  (∃ fl, s.flap = some fl ∧ (xsi1 + minXsiLimit > fl.xsiA ∨ xsi2 + minXsiLimit > fl.xsiB))

instance (s : Strip K) (xsi1 xsi2 : K) : Decidable (s.overlaps xsi1 xsi2) :=
  decidable_of_iff
    ((s.slat.any fun sl =>
        decide (sl.xsiD + minXsiLimit > xsi1 ∨ sl.xsiC + minXsiLimit > xsi2)) = true ∨
     (s.flap.any fun fl =>
        decide (xsi1 + minXsiLimit > fl.xsiA ∨ xsi2 + minXsiLimit > fl.xsiB)) = true)
    (by unfold Strip.overlaps; cases s.slat <;> cases s.flap <;> simp)

/-- `device_type in self.subarea.keys()` (`objects/aircraft.py:1657`); the key `'segment'`
cannot be asked for because of the test in line 1654. -/
def Strip.hasDevice (s : Strip K) (deviceType : String) : Prop :=
  (deviceType = "slat" ∧ s.slat.isSome) ∨ (deviceType = "flap" ∧ s.flap.isSome)

instance (s : Strip K) (d : String) : Decidable (s.hasDevice d) := by
  unfold Strip.hasDevice; infer_instance

/-- `SegmentStrip._add_subarea` (`objects/aircraft.py:1633-1714`).  All checks come before
the first assignment, so a raised exception leaves the strip unchanged and the new strip is
only returned in the `ok` case. -/
def Strip.addSubarea (s : Strip K) (ctrl : Control) (xsi1 xsi2 : K) (h1 h2 : Option K) :
    Except PyErr (Strip K) :=
  if ctrl.deviceType ≠ "slat" ∧ ctrl.deviceType ≠ "flap" then .error .valueError
  else if s.hasDevice ctrl.deviceType then .error .valueError
  else
    let xsiH1 := h1.getD xsi1
    let xsiH2 := h2.getD xsi2
    if (xsi2 ≤ 0 ∨ 1 ≤ xsi2) ∨ (xsi1 ≤ 0 ∨ 1 ≤ xsi1) then .error .valueError
    else if (xsiH1 < 0 ∨ 1 < xsiH1) ∨ (xsiH2 < 0 ∨ 1 < xsiH2) then .error .valueError
    else if s.overlaps xsi1 xsi2 then .error .valueError
    else if ctrl.deviceType = "slat" then
      .ok { s with
        slat := some { Quad.init 0 0 xsi1 xsi2 with h1 := xsiH1, h2 := xsiH2, ctrl := ctrl }
        main := { s.main with xsiA := xsi1, xsiB := xsi2 }
        keys := s.keys ++ ["slat"] }
    else
      .ok { s with
        flap := some { Quad.init xsi1 xsi2 1 1 with h1 := xsiH1, h2 := xsiH2, ctrl := ctrl }
        main := { s.main with xsiC := xsi2, xsiD := xsi1 }
        keys := s.keys ++ ["flap"] }

/-- `SegmentStrip._update_subarea('flap', ...)` (`objects/aircraft.py:1751-1759`). -/
def Strip.updateFlap (s : Strip K) (xsi1 xsi2 h1 h2 : K) : Strip K :=
  { s with
    flap := s.flap.map fun f => { f with xsiA := xsi1, xsiB := xsi2, h1 := h1, h2 := h2 }
    main := { s.main with xsiC := xsi2, xsiD := xsi1 } }

/-- `SegmentStrip._update_subarea('slat', ...)` (`objects/aircraft.py:1741-1749`). -/
def Strip.updateSlat (s : Strip K) (xsi1 xsi2 h1 h2 : K) : Strip K :=
  { s with
    slat := s.slat.map fun f => { f with xsiC := xsi2, xsiD := xsi1, h1 := h1, h2 := h2 }
    main := { s.main with xsiA := xsi1, xsiB := xsi2 } }

/-- Type of `xsi_interpol(self.vertices, rel_inner, rel_outer, eta)`
(`objects/aircraft.py:2059-2093`) for one fixed segment. -/
abbrev Interp (K : Type*) := K × K → K × K → K → K

/-- `WingSegment.__init__`, default strip 0 (`objects/aircraft.py:619-626`).  A segment is
modelled by the list of the values of its ordered dictionary `subdivision`; the keys are
`0, 1, 2, ...` in insertion order because of `idx_new = len(self.subdivision)` (line 755). -/
def initStrips : List (Strip K) := [Strip.init 0 1 1 0]

/-- Loop of `WingSegment._get_subdiv_at_eta` (`objects/aircraft.py:830-836`), starting at
key `i`.  `none` is Python's implicit `return None`. -/
def getSubdivAtEtaFrom (eta : K) : ℕ → List (Strip K) → Option (ℕ × Strip K × Bool)
  | _, [] => none
  | i, s :: rest =>
    if s.etaA ≤ eta ∧ eta < s.etaB then some (i, s, decide (eta = s.etaA))
    else getSubdivAtEtaFrom eta (i + 1) rest

/-- `WingSegment._get_subdiv_at_eta` (`objects/aircraft.py:814-836`). -/
def getSubdivAtEta (sds : List (Strip K)) (eta : K) : Option (ℕ × Strip K × Bool) :=
  getSubdivAtEtaFrom eta 0 sds

/-- "Inherit flap from previous subdivision" (`objects/aircraft.py:782-795`).  Arguments: eta
range of the old strip, the division line, the old strip (already shortened) and the new one.
Returns the outcome together with the old and the new strip *as they are at that point*. -/
def inheritFlap (interp : Interp K) (eA eB eta : K) (prev new : Strip K) :
    Except PyErr Unit × Strip K × Strip K :=
  match prev.flap with
  | none => (.ok (), prev, new)
  | some f =>
    let xsiSdl := interp (eA, f.xsiA) (eB, f.xsiB) eta
    let xsiHSdl := interp (eA, f.h1) (eB, f.h2) eta
    match new.addSubarea f.ctrl xsiSdl f.xsiB (some xsiHSdl) (some f.h2) with
    | .error e => (.error e, prev, new)
    | .ok new' => (.ok (), prev.updateFlap f.xsiA xsiSdl f.h1 xsiHSdl, new')

/-- "Inherit slat from previous subdivision" (`objects/aircraft.py:797-810`). -/
def inheritSlat (interp : Interp K) (eA eB eta : K) (prev new : Strip K) :
    Except PyErr Unit × Strip K × Strip K :=
  match prev.slat with
  | none => (.ok (), prev, new)
  | some f =>
    let xsiSdl := interp (eA, f.xsiD) (eB, f.xsiC) eta
    let xsiHSdl := interp (eA, f.h1) (eB, f.h2) eta
    match new.addSubarea f.ctrl xsiSdl f.xsiC (some xsiHSdl) (some f.h2) with
    | .error e => (.error e, prev, new)
    | .ok new' => (.ok (), prev.updateSlat f.xsiD xsiSdl f.h1 xsiHSdl, new')

/-- Lines 782-810: flap first, then slat; an exception in the first part ends the call. -/
def inheritDevices (interp : Interp K) (eA eB eta : K) (prev new : Strip K) :
    Except PyErr Unit × Strip K × Strip K :=
  match inheritFlap interp eA eB eta prev new with
  | (.error e, p, n) => (.error e, p, n)
  | (.ok (), p, n) => inheritSlat interp eA eB eta p n

/-- `WingSegment.add_subdivision` (`objects/aircraft.py:726-812`).  Result: the outcome
(`some key` of the returned strip, `none` for Python's `None`, or the exception) and the
segment after the call — also when the call raises.  (`idx_prev, ... = None` of line 756
raises `TypeError`.) -/
def addSubdivision (interp : Interp K) (etaA etaD : K) (ignoreInvalEta : Bool)
    (sds : List (Strip K)) : Except PyErr (Option ℕ) × List (Strip K) :=
  if etaA ≤ 0 ∨ 1 ≤ etaA then
    (if ignoreInvalEta then .ok none else .error .valueError, sds)
  else
    match getSubdivAtEta sds etaA with
    | none => (.error .typeError, sds)
    | some (idx, prev, onBorder) =>
      if onBorder then (.ok (some idx), sds)
      else if etaA - prev.etaA < minEtaLimit then (.ok (some idx), sds)
      else
        let new := Strip.init etaA prev.etaB prev.etaC etaD
        let prev' := { prev with etaB := etaA, etaC := etaD }
        match inheritDevices interp prev.etaA prev.etaB etaA prev' new with
        | (.error e, p, n) => (.error e, sds.set idx p ++ [n])
        | (.ok (), p, n) => (.ok (some sds.length), sds.set idx p ++ [n])

/-- Loop of `WingSegment._get_outer_neighbour_subdiv` (`objects/aircraft.py:852-857`):
arguments are the shifted position, the key of the next strip, the best difference so far and
the best key so far. -/
def outerNeighbourLoop (etaA : K) : ℕ → K → Option ℕ → List (Strip K) → Option ℕ
  | _, _, best, [] => best
  | i, diffMin, best, s :: rest =>
    let etaDiff := etaA - s.etaA
    if diffMin > etaDiff ∧ etaDiff ≥ 0 then outerNeighbourLoop etaA (i + 1) etaDiff (some i) rest
    else outerNeighbourLoop etaA (i + 1) diffMin best rest

/-- `WingSegment._get_outer_neighbour_subdiv` (`objects/aircraft.py:838-859`); the returned
object is represented by its key. -/
def getOuterNeighbour (sds : List (Strip K)) (etaA : K) : Option ℕ :=
  outerNeighbourLoop (etaA + minEtaLimit / 10) 0 1 none sds

/-- A row of `sd_list` (`objects/aircraft.py:895-896`): strip (by key), `xsi1`, `xsi2`,
`xsi_h1`, `xsi_h2`. -/
@[ext] structure Row (K : Type*) where
  idx : ℕ
  xsi1 : K
  xsi2 : K
  h1 : K
  h2 : K
  deriving DecidableEq, Repr

/-- The `while` loop of `add_subdivision_for_control` (`objects/aircraft.py:922-939`).
`sd_list` is kept as (rows before the last one, last row); `fuel` is `100 - n`, hence
`n > 1/MIN_ETA_LIMIT` after `n += 1` is `fuel = 0`.  Returns the rows and the key of the last
`outer_neighbour`. -/
def controlLoop (interp : Interp K) (sds : List (Strip K)) (etaA etaB xsi1 xsi2 h1 h2 : K) :
    ℕ → ℕ → K → List (Row K) → Row K → Except PyErr (List (Row K) × ℕ)
  | fuel, outer, etaBRn, rows, last =>
    if etaB > etaBRn then
      match getOuterNeighbour sds etaBRn with
      | none => .error .attributeError
      | some outer' =>
        match sds[outer']?, sds[last.idx]? with
        | some o, some l =>
          let xsiDiv := interp (etaA, xsi1) (etaB, xsi2) l.etaB
          let xsiHDiv := interp (etaA, h1) (etaB, h2) l.etaB
          let rows' := rows ++ [{ last with xsi2 := xsiDiv, h2 := xsiHDiv }]
          let last' : Row K := ⟨outer', xsiDiv, xsi2, xsiHDiv, h2⟩
          match fuel with
          | 0 => .error .runtimeError
          | fuel + 1 =>
            controlLoop interp sds etaA etaB xsi1 xsi2 h1 h2 fuel outer' o.etaB rows' last'
        | _, _ => .error .attributeError
    else .ok (rows ++ [last], outer)

/-- "Add subarea for all subdivisions" (`objects/aircraft.py:945-948`).  An exception ends the
loop, strips changed before it stay changed. -/
def addRows (ctrl : Control) : List (Row K) → List (Strip K) → Except PyErr Unit × List (Strip K)
  | [], sds => (.ok (), sds)
  | r :: rest, sds =>
    match sds[r.idx]? with
    | none => (.error .attributeError, sds)
    | some s =>
      match s.addSubarea ctrl r.xsi1 r.xsi2 (some r.h1) (some r.h2) with
      | .error e => (.error e, sds)
      | .ok s' => addRows ctrl rest (sds.set r.idx s')

/-- Lines 892-948 of `add_subdivision_for_control`, once the first strip `sd1` (key `i1`)
is known. -/
def controlFrom (interp : Interp K) (etaA etaB : K) (ctrl : Control) (xsi1 xsi2 h1 h2 : K)
    (i1 : ℕ) (sds : List (Strip K)) : Except PyErr Unit × List (Strip K) :=
  match sds[i1]? with
  | none => (.error .attributeError, sds)
  | some sd1 =>
    let row1 : Row K := ⟨i1, xsi1, xsi2, h1, h2⟩
    if etaB = sd1.etaB then addRows ctrl [row1] sds
    else if etaB < sd1.etaB then
      match addSubdivision interp etaB etaB false sds with
      | (.error e, sds') => (.error e, sds')
      | (.ok _, sds') => addRows ctrl [row1] sds'
    else
      match getOuterNeighbour sds sd1.etaB with
      | none => (.error .attributeError, sds)
      | some outer =>
        match sds[outer]? with
        | none => (.error .attributeError, sds)
        | some o =>
          let xsiDiv := interp (etaA, xsi1) (etaB, xsi2) sd1.etaB
          let xsiHDiv := interp (etaA, h1) (etaB, h2) sd1.etaB
          let rows : List (Row K) := [{ row1 with xsi2 := xsiDiv, h2 := xsiHDiv }]
          let last : Row K := ⟨outer, xsiDiv, xsi2, xsiHDiv, h2⟩
          match controlLoop interp sds etaA etaB xsi1 xsi2 h1 h2 100 outer o.etaB rows last with
          | .error e => (.error e, sds)
          | .ok (rows', outer') =>
            match sds[outer']? with
            | none => (.error .attributeError, sds)
            | some o' =>
              if etaB < o'.etaB then
                match addSubdivision interp etaB etaB false sds with
                | (.error e, sds') => (.error e, sds')
                | (.ok _, sds') => addRows ctrl rows' sds'
              else addRows ctrl rows' sds

/-- `WingSegment.add_subdivision_for_control` (`objects/aircraft.py:861-950`).  The returned
handle (line 950) is never used in the repository and is not modelled. -/
def addSubdivisionForControl (interp : Interp K) (etaA etaB : K) (ctrl : Control)
    (xsi1 xsi2 : K) (h1 h2 : Option K) (sds : List (Strip K)) :
    Except PyErr Unit × List (Strip K) :=
  let xsiH1 := h1.getD xsi1
  let xsiH2 := h2.getD xsi2
  if etaA = 0 then controlFrom interp etaA etaB ctrl xsi1 xsi2 xsiH1 xsiH2 0 sds
  else
    match addSubdivision interp etaA etaA false sds with
    | (.error e, sds') => (.error e, sds')
    | (.ok none, sds') => (.error .attributeError, sds')
    | (.ok (some i1), sds') => controlFrom interp etaA etaB ctrl xsi1 xsi2 xsiH1 xsiH2 i1 sds'

/-- A call of one of the two public panelling methods of a segment. -/
inductive SegOp (K : Type*)
  | divide (etaA etaD : K) (ignoreInvalEta : Bool)
  | control (etaA etaB : K) (ctrl : Control) (xsi1 xsi2 : K) (h1 h2 : Option K)

/-- Effect of a call on the segment, whether or not it raises. -/
def SegOp.run (interp : Interp K) : SegOp K → List (Strip K) → List (Strip K)
  | .divide a d ign, sds => (addSubdivision interp a d ign sds).2
  | .control a b c x1 x2 h1 h2, sds =>
    (addSubdivisionForControl interp a b c x1 x2 h1 h2 sds).2

/-- The segment after a history of calls (exceptions caught by the caller). -/
def runOps (interp : Interp K) (ops : List (SegOp K)) : List (Strip K) :=
  ops.foldl (fun sds op => op.run interp sds) initStrips

/-- Outcome of a call: `ok` or the exception. -/
def SegOp.outcome (interp : Interp K) : SegOp K → List (Strip K) → Except PyErr Unit
  | .divide a d ign, sds => (addSubdivision interp a d ign sds).1.map fun _ => ()
  | .control a b c x1 x2 h1 h2, sds =>
    (addSubdivisionForControl interp a b c x1 x2 h1 h2 sds).1

/-- The segment after a history of calls none of which raises; the first exception ends the
history (this is what happens inside `pre_panelling`, which catches nothing). -/
def runOpsOk (interp : Interp K) : List (SegOp K) → List (Strip K) → Except PyErr (List (Strip K))
  | [], sds => .ok sds
  | op :: rest, sds =>
    match op.outcome interp sds with
    | .error e => .error e
    | .ok () => runOpsOk interp rest (op.run interp sds)

end

end Verif
