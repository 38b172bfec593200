import Verif.Model.Lattice
import Mathlib.Data.Matrix.Mul

/-!
# The native solver kernels

Model of `vlm_downwash`, `vlm_boundary`, `vlm_results` and `vlm_coeffs`
(`/repo/src/lib/pytornado/aero/c_downwash.cpp`, `c_boundary.cpp`, `c_results.cpp`).
Simplifications: exact real arithmetic; the flat arrays of `3 n` or `12 n` numbers are a function
from panel numbers to panels; a
value that is not finite (division by zero) makes the whole result `none`.
-/

namespace Verif

open Classical in
/-- Division of the native code; `none` stands for a value that is not finite. -/
noncomputable def cdiv (x y : ℝ) : Option ℝ := if y = 0 then none else some (x / y)

/-- The lattice data of one panel that the solver reads (`latticestruct`, `c_vlm.h:68-80`). -/
@[ext] structure Panel where
  v1 : V3 ℝ
  v2 : V3 ℝ
  v3 : V3 ℝ
  v4 : V3 ℝ
  col : V3 ℝ
  mid : V3 ℝ
  n : V3 ℝ
  area : ℝ

/-- Data of a panel as written by the lattice generator. -/
noncomputable def PanelPts.toPanel (g : PanelPts ℝ) : Panel :=
  ⟨g.v1, g.v2, g.v3, g.v4, g.col, g.mid, g.normal, g.area⟩

/-- `statestruct` (`c_vlm.h:82-94`); angles in degree. -/
structure FlowState where
  airspeed : ℝ
  rho : ℝ
  alpha : ℝ
  beta : ℝ
  p : ℝ
  q : ℝ
  r : ℝ

/-- `refstruct` (`c_vlm.h:96-105`): centre of gravity, moment reference point, reference area, span
and chord. -/
structure Refs where
  cg : V3 ℝ
  rp : V3 ℝ
  area : ℝ
  span : ℝ
  chord : ℝ

/-! ## Induced velocity -/

/-- Denominator `r1r2_dot + r1_mag*r2_mag*(1 + EPSILON)` (`c_downwash.cpp:78`). -/
noncomputable def kernelDen (eps : ℝ) (r1 r2 : V3 ℝ) : ℝ :=
  r1.dot r2 + r1.norm * r2.norm * (1 + eps)

/-- Velocity at `x` induced by the filament from `a` to `b` (`c_downwash.cpp:58-81`, the same in
`c_results.cpp:92-115`).  Meaningful where `KernelOk` holds. -/
noncomputable def kernel (eps : ℝ) (x a b : V3 ℝ) : V3 ℝ :=
  let r1 := x - a
  let r2 := x - b
  (1 / (4 * Real.pi) * (1 / kernelDen eps r1 r2) * (1 / r1.norm + 1 / r2.norm)) • r1.cross r2

/-- No division by zero in `kernel`. -/
def KernelOk (eps : ℝ) (x a b : V3 ℝ) : Prop :=
  (x - a).norm ≠ 0 ∧ (x - b).norm ≠ 0 ∧ kernelDen eps (x - a) (x - b) ≠ 0

/-- Sum over the three legs of a horseshoe vortex (`c_downwash.cpp:42-88`). -/
noncomputable def horseshoe (eps : ℝ) (x : V3 ℝ) (g : Panel) : V3 ℝ :=
  0 + kernel eps x g.v1 g.v2 + kernel eps x g.v2 g.v3 + kernel eps x g.v3 g.v4

/-- No division by zero in `horseshoe`. -/
def HorseshoeOk (eps : ℝ) (x : V3 ℝ) (g : Panel) : Prop :=
  KernelOk eps x g.v1 g.v2 ∧ KernelOk eps x g.v2 g.v3 ∧ KernelOk eps x g.v3 g.v4

section
variable {n : ℕ}

open Classical in
/-- `vlm_downwash` (`c_downwash.cpp:27-96`) and the matrix that `calc_downwash` (`vlm.py:421-441`)
makes of it: row `i` is the receiving panel (`dw[i*num_pan + j]`, C order). -/
noncomputable def vlmDownwash (eps : ℝ) (P : Fin n → Panel) : Option (Matrix (Fin n) (Fin n) ℝ) :=
  if ∀ i j, HorseshoeOk eps (P i).col (P j) then
    some fun i j => (horseshoe eps (P i).col (P j)).dot (P i).n
  else none

/-! ## Boundary condition -/

/-- `vel_wind` (`c_boundary.cpp:39-42`, `c_results.cpp:47-50`). -/
noncomputable def velWind (s : FlowState) : V3 ℝ :=
  let u := freestreamDir (deg2rad s.alpha) (deg2rad s.beta)
  ⟨-s.airspeed * u.x, -s.airspeed * u.y, -s.airspeed * u.z⟩

/-- `vel_rot` (`c_boundary.cpp:50-59`, `c_results.cpp:140-148`). -/
def velRot (s : FlowState) (arm : V3 ℝ) : V3 ℝ :=
  ⟨s.q * arm.z - s.r * arm.y, s.r * arm.x - s.p * arm.z, s.p * arm.y - s.q * arm.x⟩

/-- `vlm_boundary` (`c_boundary.cpp:27-70`). -/
noncomputable def vlmBoundary (s : FlowState) (c : Refs) (P : Fin n → Panel) : Fin n → ℝ :=
  fun i => (velWind s + velRot s ((P i).col - c.cg)).dot (P i).n

/-! ## Results -/

/-- `iw_x, iw_y, iw_z` (`c_results.cpp:75-132`): accumulated in the order of the panels. -/
noncomputable def inwash (eps : ℝ) (P : Fin n → Panel) (gamma : Fin n → ℝ) (x : V3 ℝ) : V3 ℝ :=
  (List.finRange n).foldl (fun acc j => acc + gamma j • horseshoe eps x (P j)) 0

/-- `vel_x, vel_y, vel_z` (`c_results.cpp:150-153`). -/
noncomputable def panelVel (eps : ℝ) (s : FlowState) (c : Refs) (P : Fin n → Panel)
    (gamma : Fin n → ℝ) (i : Fin n) : V3 ℝ :=
  inwash eps P gamma (P i).mid - (velWind s + velRot s ((P i).mid - c.cg))

/-- `f_x, f_y, f_z` (`c_results.cpp:134-138, 155-158`). -/
noncomputable def panelForce (eps : ℝ) (s : FlowState) (c : Refs) (P : Fin n → Panel)
    (gamma : Fin n → ℝ) (i : Fin n) : V3 ℝ :=
  let w := (panelVel eps s c P gamma i).cross ((P i).v3 - (P i).v2)
  ⟨s.rho * w.x * gamma i, s.rho * w.y * gamma i, s.rho * w.z * gamma i⟩

/-- `m_x, m_y, m_z` (`c_results.cpp:172-181`). -/
noncomputable def panelMoment (eps : ℝ) (s : FlowState) (c : Refs) (P : Fin n → Panel)
    (gamma : Fin n → ℝ) (i : Fin n) : V3 ℝ :=
  ((P i).mid - c.rp).cross (panelForce eps s c P gamma i)

/-- `q` (`c_results.cpp:194-195, 219-220`). -/
noncomputable def dynPressure (s : FlowState) : ℝ := 0.5 * s.rho * (s.airspeed * s.airspeed)

/-- `cp` (`c_results.cpp:188-197`). -/
noncomputable def panelCp (eps : ℝ) (s : FlowState) (c : Refs) (P : Fin n → Panel)
    (gamma : Fin n → ℝ) (i : Fin n) : Option ℝ :=
  cdiv ((panelForce eps s c P gamma i).dot (P i).n) (dynPressure s * (P i).area)

/-- Wind-axes components (`c_results.cpp:234-250`): drag, side force, lift. -/
noncomputable def bodyToWind (s : FlowState) (f : V3 ℝ) : V3 ℝ :=
  let sa := Real.sin (deg2rad s.alpha)
  let ca := Real.cos (deg2rad s.alpha)
  let sb := Real.sin (deg2rad s.beta)
  let cb := Real.cos (deg2rad s.beta)
  ⟨cb * ca * f.x + -sb * f.y + cb * sa * f.z,
   sb * ca * f.x + cb * f.y + sb * sa * f.z,
   -sa * f.x + 0 * f.y + ca * f.z⟩

/-- Global coefficients; `none`: not finite. -/
@[ext] structure Coeffs where
  cx : Option ℝ
  cy : Option ℝ
  cz : Option ℝ
  cL : Option ℝ
  cD : Option ℝ
  cC : Option ℝ
  cl : Option ℝ
  cm : Option ℝ
  cn : Option ℝ

open Classical in
/-- `vlm_coeffs` (`c_results.cpp:205-262`). -/
noncomputable def vlmCoeffs (s : FlowState) (c : Refs) (ftot mtot : V3 ℝ) : Coeffs :=
  let q := if dynPressure s = 0 then 1 else dynPressure s
  let w := bodyToWind s ftot
  { cx := cdiv ftot.x (q * c.area), cy := cdiv ftot.y (q * c.area), cz := cdiv ftot.z (q * c.area)
    cL := cdiv w.z (q * c.area), cD := cdiv w.x (q * c.area), cC := cdiv w.y (q * c.area)
    cl := cdiv mtot.x (q * c.area * c.span), cm := cdiv mtot.y (q * c.area * c.chord)
    cn := cdiv mtot.z (q * c.area * c.span) }

/-- All results of `vlm_results` (`resultstruct`, `c_vlm.h:107-147`). -/
structure Results (n : ℕ) where
  iw : Fin n → V3 ℝ
  iwMag : Fin n → ℝ
  f : Fin n → V3 ℝ
  fMag : Fin n → ℝ
  cp : Fin n → Option ℝ
  ftot : V3 ℝ
  mtot : V3 ℝ
  /-- drag, side force, lift -/
  wind : V3 ℝ
  coeffs : Coeffs

open Classical in
/-- `vlm_results` (`c_results.cpp:38-202`). -/
noncomputable def vlmResults (eps : ℝ) (s : FlowState) (c : Refs) (P : Fin n → Panel)
    (gamma : Fin n → ℝ) : Option (Results n) :=
  if ∀ i j, HorseshoeOk eps (P i).mid (P j) then
    let f := panelForce eps s c P gamma
    let ftot := (List.finRange n).foldl (fun acc i => acc + f i) 0
    let mtot := (List.finRange n).foldl (fun acc i => acc + panelMoment eps s c P gamma i) 0
    some
      { iw := fun i => inwash eps P gamma (P i).mid
        iwMag := fun i => (inwash eps P gamma (P i).mid).norm
        f := f, fMag := fun i => (f i).norm
        cp := panelCp eps s c P gamma
        ftot := ftot, mtot := mtot, wind := bodyToWind s ftot
        coeffs := vlmCoeffs s c ftot mtot }
  else none

/-! ## Solver -/

/-- Contract of LAPACK `dgesv` as used in `solver` (`vlm.py:466-476`) for a regular matrix: the
vector returned solves the system. -/
def Solves (A : Matrix (Fin n) (Fin n) ℝ) (b gamma : Fin n → ℝ) : Prop :=
  A.mulVec gamma = b

end

/-- `FlightState.free_stream_velocity_vector` (`state.py:137-152`); angles in degree. -/
noncomputable def pyFreestream (airspeed alphaDeg betaDeg : ℝ) : V3 ℝ :=
  let alpha := alphaDeg * (Real.pi / 180)
  let beta := betaDeg * (Real.pi / 180)
  airspeed • (⟨Real.cos alpha * Real.cos beta, -Real.sin beta,
    Real.sin alpha * Real.cos beta⟩ : V3 ℝ)

end Verif
