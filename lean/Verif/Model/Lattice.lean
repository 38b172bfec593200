import Verif.Model.Geometry
import Verif.Model.Book
import Mathlib.Analysis.SpecialFunctions.Trigonometric.Basic

/-!
# The native lattice generator

Model of `vlm_lattice` (`/repo/src/lib/pytornado/aero/c_lattice.cpp:27-297`).  Simplifications:
exact arithmetic; the machine integers do not overflow; values that the code writes to an array
and reads back at once are passed on directly.
-/

namespace Verif

section
variable {K : Type*} [Field K]

/-- `alpha1..4`, `beta1..4`, `gamma1..4` (`c_lattice.cpp:119-135`), taken together. -/
@[ext] structure Coef (K : Type*) where
  c1 : V3 K
  c2 : V3 K
  c3 : V3 K
  c4 : V3 K
  deriving DecidableEq, Repr

/-- `c_lattice.cpp:119-135`. -/
def Coef.of (p : Corners (V3 K)) : Coef K :=
  ⟨p.a, p.b - p.a, p.d - p.a, p.a - p.b + p.c - p.d⟩

/-- Re-ordering of the corners for the mirrored pass (`c_lattice.cpp:102-118`). -/
def cReorder (sym : ℤ) (p : Corners (V3 K)) : Corners (V3 K) :=
  if sym = 2 then ⟨p.b, p.a, p.d, p.c⟩
  else if sym = 3 then ⟨p.d, p.c, p.b, p.a⟩
  else p

/-- Negated coordinate for the mirrored pass (`c_lattice.cpp:137-160`). -/
def cNegate (sym : ℤ) (v : V3 K) : V3 K :=
  if sym = 1 then ⟨v.x, v.y, -v.z⟩
  else if sym = 2 then ⟨v.x, -v.y, v.z⟩
  else if sym = 3 then ⟨-v.x, v.y, v.z⟩
  else v

/-- Coefficients of the mirrored pass. -/
def Coef.mirrored (sym : ℤ) (p : Corners (V3 K)) : Coef K :=
  let k := Coef.of (cReorder sym p)
  ⟨cNegate sym k.c1, cNegate sym k.c2, cNegate sym k.c3, cNegate sym k.c4⟩

/-- Point of the subarea with the coordinates `s` and `c` (`c_lattice.cpp:182-196`). -/
def Coef.at (k : Coef K) (s c : K) : V3 K := k.c1 + s • k.c2 + c • k.c3 + (s * c) • k.c4

/-- Points of a panel: corners `P, Q, R, S`, horseshoe `V1..V4`, collocation point and bound leg
midpoint. -/
@[ext] structure PanelPts (K : Type*) where
  p : V3 K
  q : V3 K
  r : V3 K
  s : V3 K
  v1 : V3 K
  v2 : V3 K
  v3 : V3 K
  v4 : V3 K
  col : V3 K
  mid : V3 K
  deriving DecidableEq, Repr

/-- Panel `i` (chordwise), `j` (spanwise) of a subarea with `panS` times `panC` panels;
`leg` is `hv_trail_leg_dir` (`c_lattice.cpp:166-230`). -/
def panelPts (k : Coef K) (leg : V3 K) (panS panC : ℤ) (i j : ℕ) : PanelPts K :=
  let ds : K := 1 / (panS : K)
  let dc : K := 1 / (panC : K)
  let sMin := ds * j
  let sMax := ds * (j + 1)
  let cMin := dc * i
  let cMax := dc * (i + 1)
  let p := k.at sMin cMin
  let q := k.at sMax cMin
  let r := k.at sMax cMax
  let s := k.at sMin cMax
  let v2 := (3 / 4 : K) • p + (1 / 4 : K) • s
  let v3 := (3 / 4 : K) • q + (1 / 4 : K) • r
  { p := p, q := q, r := r, s := s
    v2 := v2, v3 := v3, v1 := v2 + leg, v4 := v3 + leg
    col := (1 / 8 : K) • (p + q) + (3 / 8 : K) • (r + s)
    mid := (1 / 2 : K) • (v2 + v3) }

/-- `vec1 x vec2` (`c_lattice.cpp:232-243`). -/
def PanelPts.crossVec (g : PanelPts K) : V3 K :=
  let vec1 := g.col - (1 / 2 : K) • g.p - (1 / 2 : K) • g.q
  let vec2 := g.col - (3 / 4 : K) • g.r - (1 / 4 : K) • g.q
  vec1.cross vec2

/-- `span_x, span_y, span_z` (`c_lattice.cpp:250-258`). -/
def PanelPts.spanVec (g : PanelPts K) : V3 K := (1 / 2 : K) • (g.q - g.p + g.r - g.s)

/-- `chord_x, chord_y, chord_z` (`c_lattice.cpp:263-270`). -/
def PanelPts.chordVec (g : PanelPts K) : V3 K := (1 / 2 : K) • (g.s - g.p + g.r - g.q)

end

/-- Normal vector (`c_lattice.cpp:244-248`). -/
noncomputable def PanelPts.normal (g : PanelPts ℝ) : V3 ℝ :=
  (1 / g.crossVec.norm) • g.crossVec

/-- Panel area (`c_lattice.cpp:260-274`). -/
noncomputable def PanelPts.area (g : PanelPts ℝ) : ℝ := g.spanVec.norm * g.chordVec.norm

/-- Panel aspect ratio (`c_lattice.cpp:275`). -/
noncomputable def PanelPts.aspect (g : PanelPts ℝ) : ℝ := g.spanVec.norm / g.chordVec.norm

/-- `deg2rad` (`c_vlm.cpp:57-60`). -/
noncomputable def deg2rad (x : ℝ) : ℝ := x * (Real.pi / 180)

/-- `get_freestream_direction` (`c_vlm.cpp:76-93`); angles in radian. -/
noncomputable def freestreamDir (alpha beta : ℝ) : V3 ℝ :=
  ⟨Real.cos alpha * Real.cos beta, -Real.sin beta, Real.sin alpha * Real.cos beta⟩

/-- `hv_trail_leg_dir` (`c_lattice.cpp:48-61`); angles in degree. -/
noncomputable def trailLeg (alphaDeg betaDeg : ℝ) : V3 ℝ :=
  (10000 : ℝ) • freestreamDir (deg2rad alphaDeg) (deg2rad betaDeg)

/-- One row of the three input arrays: corners of a subarea, symmetry flag, numbers of spanwise
and chordwise panels. -/
structure SubInput (K : Type*) where
  pts : Corners (V3 K)
  sym : ℤ
  panS : ℤ
  panC : ℤ

section
variable {K : Type*} [Field K]

/-- The two inner loops (`c_lattice.cpp:162-289`): panel number and panel in the order of
writing. -/
def passPanels (k : Coef K) (leg : V3 K) (start panS panC : ℤ) : List (ℤ × PanelPts K) :=
  (List.range panC.toNat).flatMap fun i : ℕ =>
    (List.range panS.toNat).map fun j : ℕ =>
      (start + (j * panC + i), panelPts k leg panS panC i j)

/-- Loop over subareas and over the mirrored pass (`c_lattice.cpp:71-292`). -/
def latticeFrom (leg : V3 K) : ℤ → List (SubInput K) → List (ℤ × PanelPts K)
  | _, [] => []
  | start, u :: rest =>
    let n := u.panS * u.panC
    let first := passPanels (Coef.of u.pts) leg start u.panS u.panC
    if u.sym > 0 then
      first ++ (passPanels (Coef.mirrored u.sym u.pts) leg (start + n) u.panS u.panC ++
        latticeFrom leg (start + n + n) rest)
    else first ++ latticeFrom leg (start + n) rest

/-- `vlm_lattice` without statistics (`c_lattice.cpp:27-297`). -/
def vlmLattice (leg : V3 K) (l : List (SubInput K)) : List (ℤ × PanelPts K) := latticeFrom leg 0 l

end

/-- The output arrays of `vlm_lattice`. -/
inductive Arr | P | V | C | BoundLegMidpoint | N | A
  deriving DecidableEq, Repr

/-- Numbers per panel (`vlm.py:356-361`). -/
def Arr.width : Arr → ℕ
  | .P => 12 | .V => 12 | .C => 3 | .BoundLegMidpoint => 3 | .N => 3 | .A => 1

/-- Three consecutive elements. -/
def write3 (arr : Arr) (i : ℤ) (v : V3 ℝ) : List (Arr × ℤ × ℝ) :=
  [(arr, i, v.x), (arr, i + 1, v.y), (arr, i + 2, v.z)]

/-- Element writes of one panel: array, flat index, value (`c_lattice.cpp:175-287`;
`NUM_P = NUM_V = 4`, `NUM_COORD = 3`).  Simplification: the order of the writes to different
elements within one panel. -/
noncomputable def panelWrites (kp : ℤ × PanelPts ℝ) : List (Arr × ℤ × ℝ) :=
  let k := kp.1
  let g := kp.2
  write3 .P (k * 4 * 3) g.p ++ write3 .P (k * 4 * 3 + 1 * 3) g.q ++
  write3 .P (k * 4 * 3 + 2 * 3) g.r ++ write3 .P (k * 4 * 3 + 3 * 3) g.s ++
  write3 .V (k * 4 * 3) g.v1 ++ write3 .V (k * 4 * 3 + 1 * 3) g.v2 ++
  write3 .V (k * 4 * 3 + 2 * 3) g.v3 ++ write3 .V (k * 4 * 3 + 3 * 3) g.v4 ++
  write3 .C (k * 3) g.col ++ write3 .BoundLegMidpoint (k * 3) g.mid ++
  write3 .N (k * 3) g.normal ++ [(.A, k, g.area)]

/-- All element writes of `vlm_lattice`. -/
noncomputable def latticeWrites (leg : V3 ℝ) (l : List (SubInput ℝ)) : List (Arr × ℤ × ℝ) :=
  (vlmLattice leg l).flatMap panelWrites

/-- `DBL_MAX`. -/
noncomputable def dblMax : ℝ := (2 - 1 / 2 ^ 52) * 2 ^ 1023

/-- The statistics kept in `info` (`c_lattice.cpp:63-69, 277-284, 294-296`). -/
structure Stats where
  areaMin : ℝ
  areaMax : ℝ
  areaAvg : ℝ
  aspectMin : ℝ
  aspectMax : ℝ
  aspectAvg : ℝ

/-- `c_lattice.cpp:63-69`. -/
noncomputable def Stats.init : Stats := ⟨dblMax, -dblMax, 0, dblMax, -dblMax, 0⟩

/-- Update with one panel (`c_lattice.cpp:277-284`). -/
noncomputable def Stats.step (t : Stats) (g : PanelPts ℝ) : Stats :=
  { areaMax := if g.area > t.areaMax then g.area else t.areaMax
    areaMin := if g.area < t.areaMin then g.area else t.areaMin
    aspectMax := if g.aspect > t.aspectMax then g.aspect else t.aspectMax
    aspectMin := if g.aspect < t.aspectMin then g.aspect else t.aspectMin
    areaAvg := t.areaAvg + g.area
    aspectAvg := t.aspectAvg + g.aspect }

/-- Statistics after `vlm_lattice`; `numPan` is `info->num_pan` as set by `gen_lattice`. -/
noncomputable def latticeStats (leg : V3 ℝ) (l : List (SubInput ℝ)) (numPan : ℤ) : Stats :=
  let t := ((vlmLattice leg l).map Prod.snd).foldl Stats.step Stats.init
  { t with areaAvg := t.areaAvg / numPan, aspectAvg := t.aspectAvg / numPan }

/-- Input arrays as filled by `gen_lattice` (`vlm.py:331-354`): corners of the subareas, symmetry
flag 0, and the rows of `array_panels`. -/
def Book.inputsOf {K : Type*} (b : Book) (cs : List (Corners (V3 K))) : List (SubInput K) :=
  List.zipWith (fun c (t : ℤ × ℤ) => ⟨c, 0, t.1, t.2⟩) cs b.panelTable

/-- The same for corners given as a function of the entry. -/
def Book.inputs {K : Type*} (b : Book) (corners : BookEntry → Corners (V3 K)) :
    List (SubInput K) :=
  b.inputsOf (b.entries.map corners)

end Verif
