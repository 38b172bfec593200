import Verif.Model.Aircraft

/-!
# Continuity check of wings

Second part of `Wing.generate` (`objects/aircraft.py:410-500`).  Its only effects are warnings in the log:
one for each edge that is found discontinuous, and one for the wing.  A direction with entries that are
not a number (division of zero by zero) is `none`; comparisons with it are false.
-/

namespace Verif

/-- `abs(v)` of a numpy array. -/
def V3.abs (v : V3 ℝ) : V3 ℝ := ⟨|v.x|, |v.y|, |v.z|⟩

open scoped Classical in
/-- Direction of an edge of a segment (`aircraft.py:418-428`): `v = abs(v)`, `v = v/np.linalg.norm(v)`. -/
noncomputable def edgeDir (v : V3 ℝ) : Option (V3 ℝ) :=
  if v.abs.norm = 0 then none else some ((1 / v.abs.norm) • v.abs)

open scoped Classical in
/-- Direction between vertices of different segments (`aircraft.py:431-453`). -/
noncomputable def vertexDir (v : V3 ℝ) : V3 ℝ :=
  if v.abs.norm ≠ 0 then (1 / v.abs.norm) • v.abs else 0

/-- `TOL` (`aircraft.py:64`). -/
noncomputable def contTol : ℝ := 1 / 100

/-- `np.linalg.norm(u - v) < TOL`. -/
def dirsClose (u v : Option (V3 ℝ)) : Prop :=
  match u, v with
  | some u, some v => (u - v).norm < contTol
  | _, _ => False

open scoped Classical in
/-- `segment_continuous` for two segments (`aircraft.py:414-492`). -/
noncomputable def segmentContinuous (s1 s2 : Corners (V3 ℝ)) : Bool :=
  let a1d1 := edgeDir (s1.d - s1.a)
  let b1c1 := edgeDir (s1.c - s1.b)
  let a2d2 := edgeDir (s2.d - s2.a)
  let b2c2 := edgeDir (s2.c - s2.b)
  let a1c2 := vertexDir (s2.c - s1.a)
  let d1c2 := vertexDir (s2.c - s1.d)
  let b1d2 := vertexDir (s2.d - s1.b)
  let c1d2 := vertexDir (s2.d - s1.c)
  let b1c2 := vertexDir (s2.c - s1.b)
  let c1c2 := vertexDir (s2.c - s1.c)
  let a1d2 := vertexDir (s2.d - s1.a)
  let d1d2 := vertexDir (s2.d - s1.d)
  if dirsClose a2d2 b1c1 then
    decide (dirsClose a2d2 (some b1d2) ∨ dirsClose a2d2 (some c1d2))
  else if dirsClose b2c2 a1d1 then
    decide (dirsClose b2c2 (some a1c2) ∨ dirsClose b2c2 (some d1c2))
  else if dirsClose b2c2 b1c1 then
    decide (dirsClose b2c2 (some b1c2) ∨ dirsClose b2c2 (some c1c2))
  else if dirsClose a2d2 a1d1 then
    decide (dirsClose a2d2 (some a1d2) ∨ dirsClose a2d2 (some d1d2))
  else false

/-- The warnings of the check: numbers of the edges, and `wing_continuous`. -/
structure ContinuityLog where
  edges : List ℕ
  wing : Bool

/-- The loop over neighbouring segments (`aircraft.py:413-497`). -/
noncomputable def continuityFrom : ℕ → List (Corners (V3 ℝ)) → ContinuityLog → ContinuityLog
  | i, s1 :: s2 :: rest, log =>
    let c := segmentContinuous s1 s2
    continuityFrom (i + 1) (s2 :: rest)
      ⟨if c then log.edges else log.edges ++ [i], log.wing && c⟩
  | _, _, log => log

/-- The check of a whole wing (`aircraft.py:410-500`). -/
noncomputable def checkContinuity (segs : List (Corners (V3 ℝ))) : ContinuityLog :=
  continuityFrom 0 segs ⟨[], true⟩

end Verif
