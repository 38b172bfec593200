import Verif.Model.Geometry

/-!
# Directions of a segment

`WingSegment.normal_vector` and `WingSegment.main_direction`
(`/repo/src/lib/pytornado/objects/aircraft.py:647-674`).  Simplifications: exact arithmetic; all four
vertices are known.
-/

namespace Verif

variable {K : Type*} [Field K]

/-- `normal_vector` (`aircraft.py:648-658`). -/
def Corners.normalVector (v : Corners (V3 K)) : V3 K :=
  let ab := v.b - v.a
  let ad := v.d - v.a
  ab.cross ad

/-- `main_direction` (`aircraft.py:661-674`). -/
def Corners.mainDirection (v : Corners (V3 K)) : V3 K :=
  let ad := v.d - v.a
  ad.cross v.normalVector

end Verif
