import Verif.Model.Run

/-!
# The border of Python and C

Model of the calls of native code at the level at which they happen: Python objects are handed
over, the native functions look up attributes and dictionary items, check their types, compute on
flat arrays of numbers by index arithmetic, and write their results into the same arrays and
dictionaries (`/repo/src/lib/pytornado/aero/c_vlm.cpp`, `c_lattice.cpp`, `c_downwash.cpp`,
`c_boundary.cpp`, `c_results.cpp`; callers in `vlm.py:230-526`).

The model is independent of `Model/Run`, which describes the same pass at the level of panels:
`Props/Native` shows that the two agree.  Simplifications: exact real arithmetic and integers that do
not overflow (`Model/NativeInts` is the same code with machine integers); the first value that is not finite stops the computation (`notFinite`), except
pressure and load coefficients, where it is stored; arrays do not overlap (each is a separate
allocation in the callers); a scalar type is what the getters test (`int`, `float`).
-/

namespace Verif

/-- How a native function ends early: it prints an error and returns `None` (`refused`), it touches
memory outside an array (`outOfBounds`, undefined behaviour), or a number is not finite. -/
inductive NErr
  | refused
  | outOfBounds
  | notFinite
  deriving DecidableEq, Repr

/-- Data block of a numpy array of floating-point numbers. -/
abbrev Mem := List (Flt ℝ)

/-- A number used in a computation. -/
def useFlt : Flt ℝ → Except NErr ℝ
  | .fin x => .ok x
  | .nonfin => .error .notFinite

/-- Read element `i`. -/
def rd (a : Mem) (i : ℕ) : Except NErr ℝ :=
  match a[i]? with
  | none => .error .outOfBounds
  | some x => useFlt x

/-- Read the elements `i`, `i + 1`, `i + 2`. -/
def rd3 (a : Mem) (i : ℕ) : Except NErr (V3 ℝ) := do
  let x ← rd a i
  let y ← rd a (i + 1)
  let z ← rd a (i + 2)
  .ok ⟨x, y, z⟩

/-- Read element `i` of an array of integers. -/
def rdInt (a : List ℤ) (i : ℕ) : Except NErr ℤ :=
  match a[i]? with
  | none => .error .outOfBounds
  | some x => .ok x

/-- Write element `i`. -/
def wr (a : Mem) (i : ℕ) (x : Flt ℝ) : Except NErr Mem :=
  if i < a.length then .ok (a.set i x) else .error .outOfBounds

open Classical in
/-- `x / y`, used in further computations. -/
noncomputable def ndiv (x y : ℝ) : Except NErr ℝ :=
  if y = 0 then .error .notFinite else .ok (x / y)

/-- `for (int i = 0; i < n; ++i)`. -/
def forLoop {σ : Type*} : ℕ → (ℕ → σ → Except NErr σ) → σ → Except NErr σ
  | 0, _, s => .ok s
  | n + 1, f, s =>
    match forLoop n f s with
    | .error e => .error e
    | .ok t => f n t

/-! ## Python objects -/

/-- Values: `None`, integers, floating-point numbers, numpy arrays of floating-point numbers (shape
and C-contiguous data block) and of integers. -/
inductive NVal
  | none
  | int (i : ℤ)
  | float (x : Flt ℝ)
  | farray (shape : List ℕ) (data : Mem)
  | iarray (shape : List ℕ) (data : List ℤ)

/-- A dictionary. -/
abbrev NDict := String → Option NVal

/-- An attribute of an object. -/
inductive NAttr
  | val (v : NVal)
  | dict (d : NDict)

/-- An object: its attributes. -/
abbrev NObj := String → Option NAttr

/-- Attribute that must be an array of floating-point numbers (`c_vlm.cpp:344-354, 440-445`). -/
def NObj.array (o : NObj) (name : String) : Except NErr Mem :=
  match o name with
  | some (.val (.farray _ d)) => .ok d
  | _ => .error .refused

/-- Attribute that must be a `float` (`c_vlm.cpp:424-435`). -/
def NObj.float (o : NObj) (name : String) : Except NErr ℝ :=
  match o name with
  | some (.val (.float x)) => useFlt x
  | _ => .error .refused

/-- Attribute that is a dictionary (`c_vlm.cpp:501-507`).  Simplification: an attribute of another
type, which `PyDict_Contains` reports by a system error, counts as refused. -/
def NObj.dict (o : NObj) (name : String) : Except NErr NDict :=
  match o name with
  | some (.dict d) => .ok d
  | _ => .error .refused

/-- Item that must be an `int` (`c_vlm.cpp:511-526`). -/
def NDict.getInt (d : NDict) (key : String) : Except NErr ℤ :=
  match d key with
  | some (.int i) => .ok i
  | _ => .error .refused

/-- Item that must be a `float` (`c_vlm.cpp:638-653`). -/
def NDict.getFloat (d : NDict) (key : String) : Except NErr ℝ :=
  match d key with
  | some (.float x) => useFlt x
  | _ => .error .refused

/-- Item that must be an array of floating-point numbers (`c_vlm.cpp:839-850, 869-874`). -/
def NDict.getArray (d : NDict) (key : String) : Except NErr Mem :=
  match d key with
  | some (.farray _ m) => .ok m
  | _ => .error .refused

/-- `PyDict_SetItem` for keys that are there; stops at the first one that is missing
(`c_vlm.cpp:565-614, 1155-1233`): dictionary and whether all were written. -/
def setPresent : List (String × Flt ℝ) → NDict → NDict × Bool
  | [], d => (d, true)
  | (k, x) :: rest, d =>
    if (d k).isSome then setPresent rest (Function.update d k (some (.float x))) else (d, false)

/-! ## Structures of the native code -/

/-- `latticestruct` (`c_vlm.h:68-80`). -/
@[ext] structure LatMem where
  p : Mem
  v : Mem
  c : Mem
  mid : Mem
  n : Mem
  a : Mem
  eps : ℝ

/-- `get_latticestruct` (`c_vlm.cpp:332-489`). -/
def getLattice (o : NObj) : Except NErr LatMem := do
  let p ← o.array "p"
  let v ← o.array "v"
  let c ← o.array "c"
  let mid ← o.array "bound_leg_midpoints"
  let n ← o.array "n"
  let a ← o.array "a"
  let eps ← o.float "epsilon"
  .ok ⟨p, v, c, mid, n, a, eps⟩

/-- `get_infostruct` (`c_vlm.cpp:491-545`): numbers of panels and of subareas. -/
def getInfo (o : NObj) : Except NErr (ℤ × ℤ) := do
  let d ← o.dict "info"
  let numPan ← d.getInt "num_panels"
  let numSeg ← d.getInt "num_segments"
  .ok (numPan, numSeg)

/-- `get_statestruct` (`c_vlm.cpp:618-764`). -/
def getState (o : NObj) : Except NErr FlowState := do
  let d ← o.dict "aero"
  let airspeed ← d.getFloat "airspeed"
  let alpha ← d.getFloat "alpha"
  let beta ← d.getFloat "beta"
  let p ← d.getFloat "rate_P"
  let q ← d.getFloat "rate_Q"
  let r ← d.getFloat "rate_R"
  let rho ← d.getFloat "density"
  .ok { airspeed := airspeed, rho := rho, alpha := alpha, beta := beta, p := p, q := q, r := r }

/-- `refstruct` (`c_vlm.h:96-105`). -/
structure RefMem where
  cg : Mem
  rp : Mem
  area : ℝ
  span : ℝ
  chord : ℝ

/-- `get_refstruct` (`c_vlm.cpp:765-883`). -/
def getRefs (o : NObj) : Except NErr RefMem := do
  let d ← o.dict "refs"
  let area ← d.getFloat "area"
  let span ← d.getFloat "span"
  let chord ← d.getFloat "chord"
  let cg ← d.getArray "gcenter"
  let rp ← d.getArray "rcenter"
  .ok ⟨cg, rp, area, span, chord⟩

/-- The arrays in `resultstruct` (`c_vlm.h:107-147`) and the loads that are added up. -/
@[ext] structure ResMem where
  gamma : Mem
  iwX : Mem
  iwY : Mem
  iwZ : Mem
  iwMag : Mem
  fX : Mem
  fY : Mem
  fZ : Mem
  fMag : Mem
  cp : Mem
  ftot : V3 ℝ
  mtot : V3 ℝ

/-- `get_resultstruct` (`c_vlm.cpp:884-1130`). -/
def getResults (o : NObj) : Except NErr ResMem := do
  let d ← o.dict "panelwise"
  let gamma ← d.getArray "gamma"
  let iwX ← d.getArray "vx"
  let iwY ← d.getArray "vy"
  let iwZ ← d.getArray "vz"
  let iwMag ← d.getArray "vmag"
  let fX ← d.getArray "fx"
  let fY ← d.getArray "fy"
  let fZ ← d.getArray "fz"
  let fMag ← d.getArray "fmag"
  let cp ← d.getArray "cp"
  .ok ⟨gamma, iwX, iwY, iwZ, iwMag, fX, fY, fZ, fMag, cp, 0, 0⟩

/-! ## Computation on flat arrays -/

/-- Velocity at `x` induced by leg `k` of horseshoe `j` (`c_downwash.cpp:51-81`,
`c_results.cpp:87-115`; `NUM_V = 4`, `NUM_COORD = 3`). -/
noncomputable def nLeg (L : LatMem) (x : V3 ℝ) (j k : ℕ) : Except NErr (V3 ℝ) := do
  let a ← rd3 L.v (j * 4 * 3 + k * 3)
  let r1 := x - a
  let b ← rd3 L.v (j * 4 * 3 + (k + 1) * 3)
  let r2 := x - b
  let den ← ndiv 1 (r1.dot r2 + r1.norm * r2.norm * (1 + L.eps))
  let i1 ← ndiv 1 r1.norm
  let i2 ← ndiv 1 r2.norm
  .ok ((1 / (4 * Real.pi) * den * (i1 + i2)) • r1.cross r2)

/-- `dw_x, dw_y, dw_z` added up over the three legs (`c_downwash.cpp:42-88`,
`c_results.cpp:81-122`). -/
noncomputable def nHorseshoe (L : LatMem) (x : V3 ℝ) (j : ℕ) : Except NErr (V3 ℝ) :=
  forLoop 3 (fun k w => do
    let v ← nLeg L x j k
    .ok (w + v)) 0

/-- `vlm_downwash` (`c_downwash.cpp:27-96`). -/
noncomputable def nDownwash (L : LatMem) (n : ℕ) (dw : Mem) : Except NErr Mem :=
  forLoop n (fun i dw => forLoop n (fun j dw => do
    let x ← rd3 L.c (i * 3)
    let w ← nHorseshoe L x j
    let m ← rd3 L.n (i * 3)
    wr dw (i * n + j) (.fin (w.x * m.x + w.y * m.y + w.z * m.z))) dw) dw

/-- `vlm_boundary` (`c_boundary.cpp:27-70`). -/
noncomputable def nBoundary (L : LatMem) (s : FlowState) (R : RefMem) (n : ℕ) (rhs : Mem) :
    Except NErr Mem :=
  forLoop n (fun i rhs => do
    let x ← rd3 L.c (i * 3)
    let cg ← rd3 R.cg 0
    let vel := velWind s + velRot s (x - cg)
    let m ← rd3 L.n (i * 3)
    wr rhs i (.fin (vel.x * m.x + vel.y * m.y + vel.z * m.z))) rhs

/-- Body of the loop over emitting panels (`c_results.cpp:75-132`). -/
noncomputable def nInwash (L : LatMem) (x : V3 ℝ) (i j : ℕ) (r : ResMem) : Except NErr ResMem := do
  let w ← nHorseshoe L x j
  let g ← rd r.gamma j
  let x0 ← rd r.iwX i
  let iwX ← wr r.iwX i (.fin (x0 + w.x * g))
  let y0 ← rd r.iwY i
  let iwY ← wr r.iwY i (.fin (y0 + w.y * g))
  let z0 ← rd r.iwZ i
  let iwZ ← wr r.iwZ i (.fin (z0 + w.z * g))
  let x1 ← rd iwX i
  let y1 ← rd iwY i
  let z1 ← rd iwZ i
  let iwMag ← wr r.iwMag i (.fin (V3.norm ⟨x1, y1, z1⟩))
  .ok { r with iwX := iwX, iwY := iwY, iwZ := iwZ, iwMag := iwMag }

/-- `results->iw_x[i] = 0.0` and so on (`c_results.cpp:70-73`). -/
def nClear (i : ℕ) (r : ResMem) : Except NErr ResMem := do
  let iwX ← wr r.iwX i (.fin 0)
  let iwY ← wr r.iwY i (.fin 0)
  let iwZ ← wr r.iwZ i (.fin 0)
  let iwMag ← wr r.iwMag i (.fin 0)
  .ok { r with iwX := iwX, iwY := iwY, iwZ := iwZ, iwMag := iwMag }

/-- Forces, moments and pressure coefficient of panel `i` (`c_results.cpp:134-197`). -/
noncomputable def nLoads (L : LatMem) (s : FlowState) (R : RefMem) (x : V3 ℝ) (i : ℕ) (r : ResMem) :
    Except NErr ResMem := do
  let vb ← rd3 L.v (i * 4 * 3 + 2 * 3)
  let va ← rd3 L.v (i * 4 * 3 + 1 * 3)
  let leg := vb - va
  let cg ← rd3 R.cg 0
  let ix ← rd r.iwX i
  let iy ← rd r.iwY i
  let iz ← rd r.iwZ i
  let vel := (⟨ix, iy, iz⟩ : V3 ℝ) - (velWind s + velRot s (x - cg))
  let g ← rd r.gamma i
  let w := vel.cross leg
  let f : V3 ℝ := ⟨s.rho * w.x * g, s.rho * w.y * g, s.rho * w.z * g⟩
  let fX ← wr r.fX i (.fin f.x)
  let fY ← wr r.fY i (.fin f.y)
  let fZ ← wr r.fZ i (.fin f.z)
  let fMag ← wr r.fMag i (.fin f.norm)
  let rp ← rd3 R.rp 0
  let m := (x - rp).cross f
  let nv ← rd3 L.n (i * 3)
  let a ← rd L.a i
  let q := 0.5 * s.rho * (s.airspeed * s.airspeed)
  let cp ← wr r.cp i (asFlt (cdiv (f.x * nv.x + f.y * nv.y + f.z * nv.z) (q * a)))
  .ok { r with
    fX := fX, fY := fY, fZ := fZ, fMag := fMag, cp := cp
    ftot := r.ftot + f, mtot := r.mtot + m }

/-- `vlm_results` (`c_results.cpp:38-202`) without the coefficients, which `vlm_coeffs` computes from
scalars only (`vlmCoeffs` of `Model/Aero`). -/
noncomputable def nResults (L : LatMem) (s : FlowState) (R : RefMem) (n : ℕ) (r : ResMem) :
    Except NErr ResMem :=
  forLoop n (fun i r => do
    let x ← rd3 L.mid (i * 3)
    let r ← nClear i r
    let r ← forLoop n (fun j r => nInwash L x i j r) r
    nLoads L s R x i r) { r with ftot := 0, mtot := 0 }

/-- One row of the input arrays of `vlm_lattice` (`c_lattice.cpp:77-94, 119-135`). -/
def readSub (pts : Mem) (sym pan : List ℤ) (i : ℕ) : Except NErr (SubInput ℝ) := do
  let panS ← rdInt pan (i * 2)
  let panC ← rdInt pan (i * 2 + 1)
  let f ← rdInt sym i
  let a ← rd3 pts (i * 4 * 3)
  let b ← rd3 pts (i * 4 * 3 + 1 * 3)
  let c ← rd3 pts (i * 4 * 3 + 2 * 3)
  let d ← rd3 pts (i * 4 * 3 + 3 * 3)
  .ok ⟨⟨a, b, c, d⟩, f, panS, panC⟩

/-- The arrays written by `vlm_lattice`. -/
def LatMem.get (L : LatMem) : Arr → Mem
  | .P => L.p | .V => L.v | .C => L.c | .BoundLegMidpoint => L.mid | .N => L.n | .A => L.a

/-- The structure with one array replaced. -/
def LatMem.put (L : LatMem) (arr : Arr) (m : Mem) : LatMem :=
  match arr with
  | .P => { L with p := m }
  | .V => { L with v := m }
  | .C => { L with c := m }
  | .BoundLegMidpoint => { L with mid := m }
  | .N => { L with n := m }
  | .A => { L with a := m }

/-- One element written by `vlm_lattice`; the index is a signed integer. -/
def LatMem.write (L : LatMem) (arr : Arr) (i : ℤ) (x : Flt ℝ) : Except NErr LatMem :=
  if i < 0 then .error .outOfBounds
  else
    match wr (L.get arr) i.toNat x with
    | .error e => .error e
    | .ok m => .ok (L.put arr m)

open Classical in
/-- Element written for panel `g` (`c_lattice.cpp:175-287`): a normal vector that is not finite is
stored as such. -/
noncomputable def nElement (w : Arr × ℤ × ℝ) (g : PanelPts ℝ) : Arr × ℤ × Flt ℝ :=
  (w.1, w.2.1, if w.1 = .N ∧ g.crossVec.norm = 0 then .nonfin else .fin w.2.2)

/-- Elements written one after another. -/
def writeAll : List (Arr × ℤ × Flt ℝ) → LatMem → Except NErr LatMem
  | [], L => .ok L
  | w :: rest, L =>
    match L.write w.1 w.2.1 w.2.2 with
    | .error e => .error e
    | .ok L => writeAll rest L

/-- `vlm_lattice` (`c_lattice.cpp:27-297`): the arrays and the statistics.  The points of the panels
are those of `vlmLattice` (`Model/Lattice`).  Simplifications: all input rows are read before the
first panel is written; the statistics are those of `latticeStats`. -/
noncomputable def nLattice (L : LatMem) (numPan numSeg : ℤ) (s : FlowState) (pts : Mem)
    (sym pan : List ℤ) : Except NErr (LatMem × Stats) := do
  let ins ← forLoop numSeg.toNat (fun i l => do
    let u ← readSub pts sym pan i
    .ok (l ++ [u])) []
  let leg := trailLeg s.alpha s.beta
  let L ← writeAll ((vlmLattice leg ins).flatMap fun kp =>
    (panelWrites kp).map fun w => nElement w kp.2) L
  .ok (L, latticeStats leg ins numPan)

/-! ## The native functions -/

/-- Replace the data block of an attribute that is an array: the native code writes into it. -/
def NObj.store (o : NObj) (name : String) (m : Mem) : NObj :=
  match o name with
  | some (.val (.farray shape _)) => Function.update o name (some (.val (.farray shape m)))
  | _ => o

/-- The same for an item of a dictionary. -/
def NDict.store (d : NDict) (key : String) (m : Mem) : NDict :=
  match d key with
  | some (.farray shape _) => Function.update d key (some (.farray shape m))
  | _ => d

/-- Items written by `set_infostruct` (`c_vlm.cpp:546-617`). -/
def statItems (t : Stats) : List (String × Flt ℝ) :=
  [("area_min", .fin t.areaMin), ("area_max", .fin t.areaMax), ("area_avg", .fin t.areaAvg),
   ("aspect_min", .fin t.aspectMin), ("aspect_max", .fin t.aspectMax),
   ("aspect_avg", .fin t.aspectAvg)]

/-- `py2c_lattice` (`c_vlm.cpp:96-171`): the lattice object afterwards. -/
noncomputable def py2cLattice (lat st : NObj) (pts : Mem) (sym pan : List ℤ) :
    Except NErr NObj := do
  let L ← getLattice lat
  let info ← getInfo lat
  let s ← getState st
  let out ← nLattice L info.1 info.2 s pts sym pan
  let d ← lat.dict "info"
  .ok (Function.update
    ((((((lat.store "p" out.1.p).store "v" out.1.v).store "c" out.1.c).store
      "bound_leg_midpoints" out.1.mid).store "n" out.1.n).store "a" out.1.a)
    "info" (some (.dict (setPresent (statItems out.2) d).1)))

/-- `py2c_downwash` (`c_vlm.cpp:173-208`): the array handed in, afterwards. -/
noncomputable def py2cDownwash (lat : NObj) (dw : Mem) : Except NErr Mem := do
  let L ← getLattice lat
  let info ← getInfo lat
  nDownwash L info.1.toNat dw

/-- `py2c_boundary` (`c_vlm.cpp:210-265`). -/
noncomputable def py2cBoundary (lat st : NObj) (rhs : Mem) : Except NErr Mem := do
  let L ← getLattice lat
  let info ← getInfo lat
  let s ← getState st
  let r ← getRefs st
  nBoundary L s r info.1.toNat rhs

/-- Loads and coefficients written by `set_resultstruct` (`c_vlm.cpp:1131-1330`): forces first; if a
key is missing the coefficients are not written. -/
noncomputable def setResults (s : FlowState) (r : RefMem) (ftot mtot : V3 ℝ) (o : NObj) :
    NObj :=
  let w := bodyToWind s ftot
  let c := vlmCoeffs s ⟨0, 0, r.area, r.span, r.chord⟩ ftot mtot
  match o "forces", o "coeffs" with
  | some (.dict f), some (.dict g) =>
    let f' := setPresent [("x", .fin ftot.x), ("y", .fin ftot.y), ("z", .fin ftot.z),
      ("D", .fin w.x), ("C", .fin w.y), ("L", .fin w.z),
      ("l", .fin mtot.x), ("m", .fin mtot.y), ("n", .fin mtot.z)] f
    let o := Function.update o "forces" (some (.dict f'.1))
    if f'.2 then
      Function.update o "coeffs" (some (.dict (setPresent
        [("x", asFlt c.cx), ("y", asFlt c.cy), ("z", asFlt c.cz),
         ("D", asFlt c.cD), ("C", asFlt c.cC), ("L", asFlt c.cL),
         ("l", asFlt c.cl), ("m", asFlt c.cm), ("n", asFlt c.cn)] g).1))
    else o
  | _, _ => o

/-- `py2c_results` (`c_vlm.cpp:267-329`): the result object afterwards. -/
noncomputable def py2cResults (lat st res : NObj) : Except NErr NObj := do
  let L ← getLattice lat
  let info ← getInfo lat
  let s ← getState st
  let r ← getRefs st
  let m ← getResults res
  let m ← nResults L s r info.1.toNat m
  let d ← res.dict "panelwise"
  .ok (setResults s r m.ftot m.mtot (Function.update res "panelwise" (some (.dict
    (((((((((d.store "vx" m.iwX).store "vy" m.iwY).store "vz" m.iwZ).store "vmag" m.iwMag).store
      "fx" m.fX).store "fy" m.fY).store "fz" m.fZ).store "fmag" m.fMag).store "cp" m.cp)))))

/-! ## The callers -/

/-- Why a pass ends early: as in `Stop`, or the native code touches memory outside an array; `refused`
only with `strict` (see `nCall`). -/
inductive NStop
  | stop (x : Stop)
  | memory
  | refused
  deriving DecidableEq, Repr

/-- Call of a native function from Python: a refusal leaves everything as it was (`old`) and raises
no exception.  With `strict` (not in the code) a refusal is reported instead, to tell the two apart. -/
def nCall {α : Type*} (strict : Bool) (r : Except NErr α) (old : α) : Except NStop α :=
  match r with
  | .ok a => .ok a
  | .error .refused => if strict then .error .refused else .ok old
  | .error .outOfBounds => .error .memory
  | .error .notFinite => .error (.stop .notFinite)

/-- `np.zeros(shape, dtype=float, order='C')`. -/
def npZeros (shape : List ℕ) : NVal := .farray shape (List.replicate shape.prod (.fin 0))

/-- `lattice.info` after `__init__` (`vlm_struct.py:68-79`) and the counts (`vlm.py:323-327`). -/
def infoDict (wings segments controls strips panels : ℤ) : NDict := fun k =>
  if k = "num_wings" then some (.int wings)
  else if k = "num_segments" then some (.int segments)
  else if k = "num_controls" then some (.int controls)
  else if k = "num_strips" then some (.int strips)
  else if k = "num_panels" then some (.int panels)
  else if k ∈ ["aspect_min", "aspect_max", "aspect_avg", "area_min", "area_max", "area_avg"] then
    some (.float (.fin 0))
  else none

/-- The lattice object when `py2c_lattice` is called (`vlm.py:323-362`).  Simplification: without the
bookkeeping lists, which the native code does not look at. -/
def latticeObject0 (eps : ℝ) (wings controls : ℕ) (b : Book) : NObj := fun k =>
  let n := b.numP.toNat
  if k = "p" then some (.val (npZeros [n, 4, 3]))
  else if k = "v" then some (.val (npZeros [n, 4, 3]))
  else if k = "c" then some (.val (npZeros [n, 3]))
  else if k = "bound_leg_midpoints" then some (.val (npZeros [n, 3]))
  else if k = "n" then some (.val (npZeros [n, 3]))
  else if k = "a" then some (.val (npZeros [n]))
  else if k = "epsilon" then some (.val (.float (.fin eps)))
  else if k = "info" then some (.dict (infoDict wings b.numSub controls b.numR b.numP))
  else none

/-- Three numbers one after another. -/
def V3.mem (v : V3 ℝ) : Mem := [.fin v.x, .fin v.y, .fin v.z]

/-- `cur_state` with the reference values (`run.py:112-121`, `state.py:154-242`,
`aircraft.py:252-261`). -/
def stateObject (cur : CurSt ℝ) (c : Refs) : NObj := fun k =>
  if k = "aero" then some (.dict fun k => (cur.aero k).map NVal.float)
  else if k = "refs" then some (.dict fun k =>
    if k = "area" then some (.float (.fin c.area))
    else if k = "span" then some (.float (.fin c.span))
    else if k = "chord" then some (.float (.fin c.chord))
    else if k = "gcenter" then some (.farray [3] c.cg.mem)
    else if k = "rcenter" then some (.farray [3] c.rp.mem)
    else none)
  else none

/-- Data block of `array_subareas` (`vlm.py:331, 344-347`). -/
def cornersMem (cs : List (Corners (V3 ℝ))) : Mem :=
  cs.flatMap fun c => c.a.mem ++ c.b.mem ++ c.c.mem ++ c.d.mem

/-- Row `i` of the array of normals; `none`: not finite or no such row. -/
def normalRow (m : Mem) (i : ℤ) : Option (V3 ℝ) :=
  if i < 0 then none else (rd3 m (i.toNat * 3)).toOption

/-- The array with given rows. -/
def normalsMem (n : ℕ) (f : ℤ → Option (V3 ℝ)) : Mem :=
  (List.range n).flatMap fun i : ℕ => match f (i : ℤ) with
    | some v => v.mem
    | none => [.nonfin, .nonfin, .nonfin]

/-- `gen_lattice` (`vlm.py:230-418`) after `pre_panelling`.  The rotations of normals act on rows
(`rotateAll`, `Model/Normals`). -/
noncomputable def nGenLattice (strict : Bool) (env : RunEnv) (ac : PAircraft ℝ) (cur : CurSt ℝ) :
    Except NStop NObj :=
  match genBook ac with
  | .error x => .error (.stop (.raised x))
  | .ok b =>
    match mapE (entryCorners env.lat ac) b.entries with
    | .error x => .error (.stop (.raised x))
    | .ok cs =>
      if b.numP < 0 then .error (.stop (.raised .valueError))
      else
        let lat := latticeObject0 env.eps (countAllWings ac) (countAllControls ac) b
        match nCall strict (py2cLattice lat (stateObject cur env.refs) (cornersMem cs)
            (List.replicate b.symLength.toNat 0)
            (b.panelTable.flatMap fun t => [t.1, t.2])) lat with
        | .error x => .error x
        | .ok lat =>
          if env.doRot then
            match lat.array "n" with
            | .error _ => .error (.stop (.raised .typeError))
            | .ok m =>
              match rotateAll env.lat ac b.entries (normalRow m) with
              | .error x => .error (.stop (.raised x))
              | .ok f => .ok (lat.store "n" (normalsMem b.numP.toNat f))
          else .ok lat

/-- `lattice.info['num_panels']`. -/
def infoPanels (lat : NObj) : Except NStop ℤ :=
  match getInfo lat with
  | .ok i => .ok i.1
  | .error _ => .error (.stop (.raised .keyError))

/-- `calc_downwash` (`vlm.py:421-441`). -/
noncomputable def nCalcDownwash (strict : Bool) (lat d : NObj) : Except NStop NObj :=
  match infoPanels lat with
  | .error x => .error x
  | .ok n =>
    let dw := List.replicate (n.toNat * n.toNat) (.fin 0)
    match nCall strict (py2cDownwash lat dw) dw with
    | .error x => .error x
    | .ok dw =>
      if n.toNat = 0 then .error (.stop (.raised .linAlg))
      else .ok (Function.update d "matrix_downwash" (some (.val (.farray [n.toNat, n.toNat] dw))))

/-- `calc_boundary` (`vlm.py:444-463`). -/
noncomputable def nCalcBoundary (strict : Bool) (lat st d : NObj) : Except NStop NObj :=
  match infoPanels lat with
  | .error x => .error x
  | .ok n =>
    let rhs := List.replicate n.toNat (.fin 0)
    match nCall strict (py2cBoundary lat st rhs) rhs with
    | .error x => .error x
    | .ok rhs => .ok (Function.update d "array_rhs" (some (.val (.farray [n.toNat] rhs))))

/-- Finite numbers of an array. -/
def finMem (m : Mem) : Option (List ℝ) :=
  m.mapM fun x => match x with
    | .fin y => some y
    | .nonfin => none

/-- Rows of length `w`. -/
def memRows {α : Type*} (n w : ℕ) (l : List α) : List (List α) :=
  (List.range n).map fun i => (l.drop (i * w)).take w

/-- `solver` (`vlm.py:466-476`): `lapack.dgesv` of matrix and right-hand side. -/
def nSolver (env : RunEnv) (d : NObj) : Except NStop NObj :=
  match d "matrix_downwash", d "array_rhs", d "panelwise" with
  | some (.val (.farray [n, w] A)), some (.val (.farray _ b)), some (.dict pw) =>
    match finMem A, finMem b with
    | some A, some b =>
      let g := env.dgesv (memRows n w A) b
      .ok (Function.update d "panelwise" (some (.dict
        (Function.update pw "gamma" (some (.farray [g.length] (g.map .fin)))))))
    | _, _ => .error (.stop .notFinite)
  | _, _, _ => .error (.stop (.raised .typeError))

/-- New arrays for the results of the panels (`vlm.py:502-503`). -/
def freshArrays (n : ℕ) : List String → NDict → NDict
  | [], d => d
  | k :: rest, d => freshArrays n rest (Function.update d k (some (npZeros [n])))

/-- `calc_results` (`vlm.py:488-526`). -/
noncomputable def nCalcResults (strict : Bool) (lat st d : NObj) : Except NStop NObj :=
  match infoPanels lat, d "panelwise" with
  | .error x, _ => .error x
  | .ok n, some (.dict pw) =>
    let d := Function.update d "panelwise" (some (.dict (freshArrays n.toNat
      ["vx", "vy", "vz", "vmag", "fx", "fy", "fz", "fmag", "cp"] pw)))
    nCall strict (py2cResults lat st d) d
  | .ok _, _ => .error (.stop (.raised .attributeError))

/-- One pass of the loop from `gen_lattice` to `calc_results` (`run.py:129-135`): lattice object and
result object. -/
noncomputable def nAnalyse (strict : Bool) (env : RunEnv) (ac : PAircraft ℝ) (cur : CurSt ℝ)
    (d : NObj) : Except NStop (NObj × NObj) :=
  let st := stateObject cur env.refs
  match nGenLattice strict env ac cur with
  | .error x => .error x
  | .ok lat =>
    match nCalcDownwash strict lat d with
    | .error x => .error x
    | .ok d1 =>
      match nCalcBoundary strict lat st d1 with
      | .error x => .error x
      | .ok d2 =>
        match nSolver env d2 with
        | .error x => .error x
        | .ok d3 =>
          match nCalcResults strict lat st d3 with
          | .error x => .error x
          | .ok d4 => .ok (lat, d4)

/-! ## Objects and their contents -/

/-- An array that may be missing: `None`. -/
def optArray : Option Mem → NVal
  | none => .none
  | some l => .farray [l.length] l

/-- The `VLMData` object with given contents (`vlm_struct.py:113-179`); `VlmData.fresh.obj` is
`VLMData()`.  Simplification: without `matrix_lu` and `array_pivots`, which nothing reads. -/
def VlmData.obj (v : VlmData) : NObj := fun k =>
  if k = "matrix_downwash" then some (.val (match v.matrix with
    | none => .none
    | some A => .farray [A.length, A.length] (A.flatten.map .fin)))
  else if k = "array_rhs" then some (.val (match v.rhs with
    | none => .none
    | some b => .farray [b.length] (b.map .fin)))
  else if k = "panelwise" then some (.dict fun k =>
    if k ∈ panelwiseKeys then some (optArray (v.panelwise k)) else none)
  else if k = "forces" then some (.dict fun k => (v.forces k).map NVal.float)
  else if k = "coeffs" then some (.dict fun k => (v.coeffs k).map NVal.float)
  else none

/-- Data block of an array with one row per panel, where the generator wrote the row. -/
def LatticeData.mem (l : LatticeData) (width : ℕ) (row : PanelPts ℝ → Mem) : Mem :=
  (List.range l.num).flatMap fun i : ℕ => match l.pts (i : ℤ) with
    | some g => row g
    | none => List.replicate width (.fin 0)

/-- `lattice.info` with given counts and statistics. -/
def statsDict (wings segments controls strips panels : ℤ) (t : Stats) : NDict := fun k =>
  match (statItems t).lookup k with
  | some x => some (.float x)
  | none => infoDict wings segments controls strips panels k

/-- The `VLMLattice` object with given contents (`vlm_struct.py:36-91`), without the bookkeeping
lists. -/
noncomputable def LatticeData.obj (l : LatticeData) (eps : ℝ) (wings controls : ℕ) (t : Stats) :
    NObj := fun k =>
  if k = "p" then some (.val (.farray [l.num, 4, 3]
    (l.mem 12 fun g => g.p.mem ++ g.q.mem ++ g.r.mem ++ g.s.mem)))
  else if k = "v" then some (.val (.farray [l.num, 4, 3]
    (l.mem 12 fun g => g.v1.mem ++ g.v2.mem ++ g.v3.mem ++ g.v4.mem)))
  else if k = "c" then some (.val (.farray [l.num, 3] (l.mem 3 fun g => g.col.mem)))
  else if k = "bound_leg_midpoints" then
    some (.val (.farray [l.num, 3] (l.mem 3 fun g => g.mid.mem)))
  else if k = "n" then some (.val (.farray [l.num, 3] (normalsMem l.num l.normal)))
  else if k = "a" then some (.val (.farray [l.num] (l.mem 1 fun g => [.fin g.area])))
  else if k = "epsilon" then some (.val (.float (.fin eps)))
  else if k = "info" then some (.dict
    (statsDict wings l.book.numSub controls l.book.numR l.book.numP t))
  else none

/-! ## A whole run -/

/-- Floating-point numbers of a dictionary of an object. -/
def NObj.floats (o : NObj) (name : String) : FltDict := fun k =>
  match o name with
  | some (.dict d) => (match d k with
    | some (.float x) => some x
    | _ => none)
  | _ => none

/-- What the result files are written from (`fileio/native/results.py:82-168`). -/
def NObj.vlm (o : NObj) : VlmData where
  matrix := match o "matrix_downwash" with
    | some (.val (.farray [n, w] A)) => (finMem A).map (memRows n w)
    | _ => none
  rhs := match o "array_rhs" with
    | some (.val (.farray _ b)) => finMem b
    | _ => none
  panelwise := fun k => match o "panelwise" with
    | some (.dict d) => (match d k with
      | some (.farray _ m) => some m
      | _ => none)
    | _ => none
  forces := o.floats "forces"
  coeffs := o.floats "coeffs"

/-- The variables of the loop (`run.py:104-163`), with the objects as they are. -/
structure NLoopSt where
  ac : PAircraft ℝ
  vlm : NObj
  table : Table
  files : Files
  lattice : Option NObj

/-- Exceptions as reasons to stop. -/
def orNStop {α : Type*} : Except PyErr α → Except NStop α
  | .error e => .error (.stop (.raised e))
  | .ok a => .ok a

/-- One pass of the loop (`run.py:111-163`) for flight state number `i`. -/
noncomputable def nRunStep (strict : Bool) (env : RunEnv) (st : FlightSt ℝ) (i : ℕ) (x : NLoopSt) :
    Except NStop NLoopSt :=
  match orNStop (st.current i) with
  | .error e => .error e
  | .ok cur =>
    match orNStop (prePanelFirst i x.ac) with
    | .error e => .error e
    | .ok ac =>
      match cur.toFlow with
      | none => .error (.stop .notFinite)
      | some _ =>
        match nAnalyse strict env ac cur x.vlm with
        | .error e => .error e
        | .ok (l, v) =>
          match orNStop (saveAll env i cur v.vlm) with
          | .error e => .error e
          | .ok fs =>
            match orNStop (appendAll (v.floats "forces") forceColumns x.table) with
            | .error e => .error e
            | .ok t =>
              match orNStop (appendAll (v.floats "coeffs") coeffColumns t) with
              | .error e => .error e
              | .ok t' => .ok ⟨ac, v, t', x.files ++ fs, some l⟩

/-- The loop over the flight states (`run.py:110-164`). -/
noncomputable def nRunLoop (strict : Bool) (env : RunEnv) (st : FlightSt ℝ) : ℕ → ℕ → NLoopSt →
    Except (NStop × Files) NLoopSt
  | 0, _, x => .ok x
  | k + 1, i, x =>
    match nRunStep strict env st i x with
    | .error e => .error (e, x.files)
    | .ok x' => nRunLoop strict env st k (i + 1) x'

/-- What a run returns (`run.py:176-182`), and the files it has written. -/
structure NRunOut where
  lattice : NObj
  vlm : NObj
  table : Table
  files : Files

/-- `standard_run` after loading (`run.py:104-182`) with the native code in it. -/
noncomputable def nStandardRun (strict : Bool) (env : RunEnv) (ac : PAircraft ℝ) (st : FlightSt ℝ) :
    Except (NStop × Files) NRunOut :=
  match setAutopanels env.autoC env.autoS ac with
  | .error e => .error (.stop (.raised e), [])
  | .ok ac1 =>
    match nRunLoop strict env st st.num 0 ⟨ac1, VlmData.fresh.obj, Table.fresh, [], none⟩ with
    | .error e => .error e
    | .ok x =>
      match saveCpacsMap env x.table with
      | .error e => .error (.stop (.raised e), x.files)
      | .ok fs =>
        let files := x.files ++ fs ++ saveNativeMap env st.aero x.table
        match x.lattice with
        | none => .error (.stop (.raised .unboundLocal), files)
        | some l => .ok ⟨l, x.vlm, x.table, files⟩

end Verif
