import Verif.Model.Native

/-!
# Integers of the native code

`Model/Native` computes indices with integers of any size.  In the C++ code they are machine integers:
numbers of panels and of subareas are `long int`, loop counters and indices are `int`
(`/repo/src/lib/pytornado/aero/c_lattice.cpp`, `c_downwash.cpp`, `c_boundary.cpp`, `c_results.cpp`).
This file is the same code with `int` of 32 bits; the functions are those of `Model/Native` with `i`
in place of `n` as first letter.  Simplifications: `long int` does not overflow (64 bits: no array has
that many elements); an index expression such as `j*NUM_V*NUM_COORD + k*NUM_COORD` is tested once as a
whole (all parts are between zero and the result); `start_pan`, `pan_seg` and the panel numbers in
`c_lattice.cpp` are tested where they are used, as parts of the index of a write.
-/

namespace Verif

/-- An `int` has 32 bits. -/
def IsInt (z : ℤ) : Prop := -2147483648 ≤ z ∧ z < 2147483648

instance (z : ℤ) : Decidable (IsInt z) := inferInstanceAs (Decidable (_ ∧ _))

/-- Result of arithmetic on `int`: overflow is undefined behaviour. -/
def cint (z : ℤ) : Except NErr ℤ := if IsInt z then .ok z else .error .outOfBounds

/-- `long int` converted to `int`, as in `int index_ij = i*num_pan + j` (`c_downwash.cpp:40`) and
`int pan_c = pan[index_seg*2 + 1]` (`c_lattice.cpp:79`): modulo 2³² (gcc, clang). -/
def toInt (z : ℤ) : ℤ := (z + 2147483648) % 4294967296 - 2147483648

/-- Read the element with index `z`. -/
def iRd (a : Mem) (z : ℤ) : Except NErr ℝ := do
  let z ← cint z
  if z < 0 then .error .outOfBounds else rd a z.toNat

/-- Read three elements from index `z`. -/
def iRd3 (a : Mem) (z : ℤ) : Except NErr (V3 ℝ) := do
  let x ← iRd a z
  let y ← iRd a (z + 1)
  let z ← iRd a (z + 2)
  .ok ⟨x, y, z⟩

/-- Read element `z` of an array of integers. -/
def iRdInt (a : List ℤ) (z : ℤ) : Except NErr ℤ := do
  let z ← cint z
  if z < 0 then .error .outOfBounds else rdInt a z.toNat

/-- Write the element with index `z`. -/
def iWr (a : Mem) (z : ℤ) (x : Flt ℝ) : Except NErr Mem := do
  let z ← cint z
  if z < 0 then .error .outOfBounds else wr a z.toNat x

/-- Velocity at a point induced by leg `k` of horseshoe `j` (`c_downwash.cpp:51-81`,
`c_results.cpp:87-115`). -/
noncomputable def iLeg (L : LatMem) (x : V3 ℝ) (j k : ℕ) : Except NErr (V3 ℝ) := do
  let a ← iRd3 L.v (j * 4 * 3 + k * 3)
  let r1 := x - a
  let b ← iRd3 L.v (j * 4 * 3 + (k + 1) * 3)
  let r2 := x - b
  let den ← ndiv 1 (r1.dot r2 + r1.norm * r2.norm * (1 + L.eps))
  let i1 ← ndiv 1 r1.norm
  let i2 ← ndiv 1 r2.norm
  .ok ((1 / (4 * Real.pi) * den * (i1 + i2)) • r1.cross r2)

/-- The three legs (`c_downwash.cpp:42-88`, `c_results.cpp:81-122`). -/
noncomputable def iHorseshoe (L : LatMem) (x : V3 ℝ) (j : ℕ) : Except NErr (V3 ℝ) :=
  forLoop 3 (fun k w => do
    let v ← iLeg L x j k
    .ok (w + v)) 0

/-- `vlm_downwash` (`c_downwash.cpp:27-96`): `i*num_pan + j` is computed as `long int` and then
converted. -/
noncomputable def iDownwash (L : LatMem) (n : ℕ) (dw : Mem) : Except NErr Mem :=
  forLoop n (fun i dw => forLoop n (fun j dw => do
    let x ← iRd3 L.c (i * 3)
    let w ← iHorseshoe L x j
    let m ← iRd3 L.n (i * 3)
    iWr dw (toInt (i * n + j)) (.fin (w.x * m.x + w.y * m.y + w.z * m.z))) dw) dw

/-- `vlm_boundary` (`c_boundary.cpp:27-70`). -/
noncomputable def iBoundary (L : LatMem) (s : FlowState) (R : RefMem) (n : ℕ) (rhs : Mem) :
    Except NErr Mem :=
  forLoop n (fun i rhs => do
    let x ← iRd3 L.c (i * 3)
    let cg ← rd3 R.cg 0
    let vel := velWind s + velRot s (x - cg)
    let m ← iRd3 L.n (i * 3)
    iWr rhs i (.fin (vel.x * m.x + vel.y * m.y + vel.z * m.z))) rhs

/-- Body of the loop over emitting panels (`c_results.cpp:75-132`). -/
noncomputable def iInwash (L : LatMem) (x : V3 ℝ) (i j : ℕ) (r : ResMem) : Except NErr ResMem := do
  let w ← iHorseshoe L x j
  let g ← iRd r.gamma j
  let x0 ← iRd r.iwX i
  let iwX ← iWr r.iwX i (.fin (x0 + w.x * g))
  let y0 ← iRd r.iwY i
  let iwY ← iWr r.iwY i (.fin (y0 + w.y * g))
  let z0 ← iRd r.iwZ i
  let iwZ ← iWr r.iwZ i (.fin (z0 + w.z * g))
  let x1 ← iRd iwX i
  let y1 ← iRd iwY i
  let z1 ← iRd iwZ i
  let iwMag ← iWr r.iwMag i (.fin (V3.norm ⟨x1, y1, z1⟩))
  .ok { r with iwX := iwX, iwY := iwY, iwZ := iwZ, iwMag := iwMag }

/-- `results->iw_x[i] = 0.0` and so on (`c_results.cpp:70-73`). -/
def iClear (i : ℕ) (r : ResMem) : Except NErr ResMem := do
  let iwX ← iWr r.iwX i (.fin 0)
  let iwY ← iWr r.iwY i (.fin 0)
  let iwZ ← iWr r.iwZ i (.fin 0)
  let iwMag ← iWr r.iwMag i (.fin 0)
  .ok { r with iwX := iwX, iwY := iwY, iwZ := iwZ, iwMag := iwMag }

/-- Forces, moments and pressure coefficient of panel `i` (`c_results.cpp:134-197`). -/
noncomputable def iLoads (L : LatMem) (s : FlowState) (R : RefMem) (x : V3 ℝ) (i : ℕ) (r : ResMem) :
    Except NErr ResMem := do
  let vb ← iRd3 L.v (i * 4 * 3 + 2 * 3)
  let va ← iRd3 L.v (i * 4 * 3 + 1 * 3)
  let leg := vb - va
  let cg ← rd3 R.cg 0
  let ix ← iRd r.iwX i
  let iy ← iRd r.iwY i
  let iz ← iRd r.iwZ i
  let vel := (⟨ix, iy, iz⟩ : V3 ℝ) - (velWind s + velRot s (x - cg))
  let g ← iRd r.gamma i
  let w := vel.cross leg
  let f : V3 ℝ := ⟨s.rho * w.x * g, s.rho * w.y * g, s.rho * w.z * g⟩
  let fX ← iWr r.fX i (.fin f.x)
  let fY ← iWr r.fY i (.fin f.y)
  let fZ ← iWr r.fZ i (.fin f.z)
  let fMag ← iWr r.fMag i (.fin f.norm)
  let rp ← rd3 R.rp 0
  let m := (x - rp).cross f
  let nv ← iRd3 L.n (i * 3)
  let a ← iRd L.a i
  let q := 0.5 * s.rho * (s.airspeed * s.airspeed)
  let cp ← iWr r.cp i (asFlt (cdiv (f.x * nv.x + f.y * nv.y + f.z * nv.z) (q * a)))
  .ok { r with
    fX := fX, fY := fY, fZ := fZ, fMag := fMag, cp := cp
    ftot := r.ftot + f, mtot := r.mtot + m }

/-- `vlm_results` (`c_results.cpp:38-202`) without the coefficients. -/
noncomputable def iResults (L : LatMem) (s : FlowState) (R : RefMem) (n : ℕ) (r : ResMem) :
    Except NErr ResMem :=
  forLoop n (fun i r => do
    let x ← iRd3 L.mid (i * 3)
    let r ← iClear i r
    let r ← forLoop n (fun j r => iInwash L x i j r) r
    iLoads L s R x i r) { r with ftot := 0, mtot := 0 }

/-- One row of the input arrays of `vlm_lattice` (`c_lattice.cpp:77-94, 119-135`): the numbers of
panels are converted from `long int` to `int`. -/
def iReadSub (pts : Mem) (sym pan : List ℤ) (i : ℕ) : Except NErr (SubInput ℝ) := do
  let panS ← iRdInt pan (i * 2)
  let panC ← iRdInt pan (i * 2 + 1)
  let f ← iRdInt sym i
  let a ← iRd3 pts (i * 4 * 3)
  let b ← iRd3 pts (i * 4 * 3 + 1 * 3)
  let c ← iRd3 pts (i * 4 * 3 + 2 * 3)
  let d ← iRd3 pts (i * 4 * 3 + 3 * 3)
  .ok ⟨⟨a, b, c, d⟩, f, toInt panS, toInt panC⟩

/-- Elements written one after another. -/
def iWriteAll : List (Arr × ℤ × Flt ℝ) → LatMem → Except NErr LatMem
  | [], L => .ok L
  | w :: rest, L =>
    match cint w.2.1 with
    | .error e => .error e
    | .ok z =>
      match L.write w.1 z w.2.2 with
      | .error e => .error e
      | .ok L => iWriteAll rest L

/-- `vlm_lattice` (`c_lattice.cpp:27-297`). -/
noncomputable def iLattice (L : LatMem) (numPan numSeg : ℤ) (s : FlowState) (pts : Mem)
    (sym pan : List ℤ) : Except NErr (LatMem × Stats) := do
  let ins ← forLoop numSeg.toNat (fun i l => do
    let u ← iReadSub pts sym pan i
    .ok (l ++ [u])) []
  let leg := trailLeg s.alpha s.beta
  let L ← iWriteAll ((vlmLattice leg ins).flatMap fun kp =>
    (panelWrites kp).map fun w => nElement w kp.2) L
  .ok (L, latticeStats leg ins numPan)

/-! ## The native functions and their callers -/

/-- `py2c_lattice` (`c_vlm.cpp:96-171`). -/
noncomputable def iPy2cLattice (lat st : NObj) (pts : Mem) (sym pan : List ℤ) :
    Except NErr NObj := do
  let L ← getLattice lat
  let info ← getInfo lat
  let s ← getState st
  let out ← iLattice L info.1 info.2 s pts sym pan
  let d ← lat.dict "info"
  .ok (Function.update
    ((((((lat.store "p" out.1.p).store "v" out.1.v).store "c" out.1.c).store
      "bound_leg_midpoints" out.1.mid).store "n" out.1.n).store "a" out.1.a)
    "info" (some (.dict (setPresent (statItems out.2) d).1)))

/-- `py2c_downwash` (`c_vlm.cpp:173-208`). -/
noncomputable def iPy2cDownwash (lat : NObj) (dw : Mem) : Except NErr Mem := do
  let L ← getLattice lat
  let info ← getInfo lat
  iDownwash L info.1.toNat dw

/-- `py2c_boundary` (`c_vlm.cpp:210-265`). -/
noncomputable def iPy2cBoundary (lat st : NObj) (rhs : Mem) : Except NErr Mem := do
  let L ← getLattice lat
  let info ← getInfo lat
  let s ← getState st
  let r ← getRefs st
  iBoundary L s r info.1.toNat rhs

/-- `py2c_results` (`c_vlm.cpp:267-329`). -/
noncomputable def iPy2cResults (lat st res : NObj) : Except NErr NObj := do
  let L ← getLattice lat
  let info ← getInfo lat
  let s ← getState st
  let r ← getRefs st
  let m ← getResults res
  let m ← iResults L s r info.1.toNat m
  let d ← res.dict "panelwise"
  .ok (setResults s r m.ftot m.mtot (Function.update res "panelwise" (some (.dict
    (((((((((d.store "vx" m.iwX).store "vy" m.iwY).store "vz" m.iwZ).store "vmag" m.iwMag).store
      "fx" m.fX).store "fy" m.fY).store "fz" m.fZ).store "fmag" m.fMag).store "cp" m.cp)))))

/-- `gen_lattice` (`vlm.py:230-418`) after `pre_panelling`. -/
noncomputable def iGenLattice (strict : Bool) (env : RunEnv) (ac : PAircraft ℝ) (cur : CurSt ℝ) :
    Except NStop NObj :=
  match genBook ac with
  | .error x => .error (.stop (.raised x))
  | .ok b =>
    match mapE (entryCorners env.lat ac) b.entries with
    | .error x => .error (.stop (.raised x))
    | .ok cs =>
      if b.numP < 0 then .error (.stop (.raised .valueError))
      else
        let lat := latticeObject0 env.eps (countAllWings ac) (countAllControls ac) b
        match nCall strict (iPy2cLattice lat (stateObject cur env.refs) (cornersMem cs)
            (List.replicate b.symLength.toNat 0)
            (b.panelTable.flatMap fun t => [t.1, t.2])) lat with
        | .error x => .error x
        | .ok lat =>
          if env.doRot then
            match lat.array "n" with
            | .error _ => .error (.stop (.raised .typeError))
            | .ok m =>
              match rotateAll env.lat ac b.entries (normalRow m) with
              | .error x => .error (.stop (.raised x))
              | .ok f => .ok (lat.store "n" (normalsMem b.numP.toNat f))
          else .ok lat

/-- `calc_downwash` (`vlm.py:421-441`). -/
noncomputable def iCalcDownwash (strict : Bool) (lat d : NObj) : Except NStop NObj :=
  match infoPanels lat with
  | .error x => .error x
  | .ok n =>
    let dw := List.replicate (n.toNat * n.toNat) (.fin 0)
    match nCall strict (iPy2cDownwash lat dw) dw with
    | .error x => .error x
    | .ok dw =>
      if n.toNat = 0 then .error (.stop (.raised .linAlg))
      else .ok (Function.update d "matrix_downwash" (some (.val (.farray [n.toNat, n.toNat] dw))))

/-- `calc_boundary` (`vlm.py:444-463`). -/
noncomputable def iCalcBoundary (strict : Bool) (lat st d : NObj) : Except NStop NObj :=
  match infoPanels lat with
  | .error x => .error x
  | .ok n =>
    let rhs := List.replicate n.toNat (.fin 0)
    match nCall strict (iPy2cBoundary lat st rhs) rhs with
    | .error x => .error x
    | .ok rhs => .ok (Function.update d "array_rhs" (some (.val (.farray [n.toNat] rhs))))

/-- `calc_results` (`vlm.py:488-526`). -/
noncomputable def iCalcResults (strict : Bool) (lat st d : NObj) : Except NStop NObj :=
  match infoPanels lat, d "panelwise" with
  | .error x, _ => .error x
  | .ok n, some (.dict pw) =>
    let d := Function.update d "panelwise" (some (.dict (freshArrays n.toNat
      ["vx", "vy", "vz", "vmag", "fx", "fy", "fz", "fmag", "cp"] pw)))
    nCall strict (iPy2cResults lat st d) d
  | .ok _, _ => .error (.stop (.raised .attributeError))

/-- One pass of the loop from `gen_lattice` to `calc_results` (`run.py:129-135`). -/
noncomputable def iAnalyse (strict : Bool) (env : RunEnv) (ac : PAircraft ℝ) (cur : CurSt ℝ)
    (d : NObj) : Except NStop (NObj × NObj) :=
  let st := stateObject cur env.refs
  match iGenLattice strict env ac cur with
  | .error x => .error x
  | .ok lat =>
    match iCalcDownwash strict lat d with
    | .error x => .error x
    | .ok d1 =>
      match iCalcBoundary strict lat st d1 with
      | .error x => .error x
      | .ok d2 =>
        match nSolver env d2 with
        | .error x => .error x
        | .ok d3 =>
          match iCalcResults strict lat st d3 with
          | .error x => .error x
          | .ok d4 => .ok (lat, d4)

/-- One pass of the loop (`run.py:111-163`) for flight state number `i`. -/
noncomputable def iRunStep (strict : Bool) (env : RunEnv) (st : FlightSt ℝ) (i : ℕ) (x : NLoopSt) :
    Except NStop NLoopSt :=
  match orNStop (st.current i) with
  | .error e => .error e
  | .ok cur =>
    match orNStop (prePanelFirst i x.ac) with
    | .error e => .error e
    | .ok ac =>
      match cur.toFlow with
      | none => .error (.stop .notFinite)
      | some _ =>
        match iAnalyse strict env ac cur x.vlm with
        | .error e => .error e
        | .ok (l, v) =>
          match orNStop (saveAll env i cur v.vlm) with
          | .error e => .error e
          | .ok fs =>
            match orNStop (appendAll (v.floats "forces") forceColumns x.table) with
            | .error e => .error e
            | .ok t =>
              match orNStop (appendAll (v.floats "coeffs") coeffColumns t) with
              | .error e => .error e
              | .ok t' => .ok ⟨ac, v, t', x.files ++ fs, some l⟩

/-- The loop over the flight states (`run.py:110-164`). -/
noncomputable def iRunLoop (strict : Bool) (env : RunEnv) (st : FlightSt ℝ) : ℕ → ℕ → NLoopSt →
    Except (NStop × Files) NLoopSt
  | 0, _, x => .ok x
  | k + 1, i, x =>
    match iRunStep strict env st i x with
    | .error e => .error (e, x.files)
    | .ok x' => iRunLoop strict env st k (i + 1) x'

/-- `standard_run` after loading (`run.py:104-182`) with the native code in it. -/
noncomputable def iStandardRun (strict : Bool) (env : RunEnv) (ac : PAircraft ℝ) (st : FlightSt ℝ) :
    Except (NStop × Files) NRunOut :=
  match setAutopanels env.autoC env.autoS ac with
  | .error e => .error (.stop (.raised e), [])
  | .ok ac1 =>
    match iRunLoop strict env st st.num 0 ⟨ac1, VlmData.fresh.obj, Table.fresh, [], none⟩ with
    | .error e => .error e
    | .ok x =>
      match saveCpacsMap env x.table with
      | .error e => .error (.stop (.raised e), x.files)
      | .ok fs =>
        let files := x.files ++ fs ++ saveNativeMap env st.aero x.table
        match x.lattice with
        | none => .error (.stop (.raised .unboundLocal), files)
        | some l => .ok ⟨l, x.vlm, x.table, files⟩

end Verif
