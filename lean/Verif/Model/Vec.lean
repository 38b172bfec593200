import Mathlib.Analysis.Real.Sqrt
import Mathlib.Tactic.Ring
import Mathlib.Tactic.Linarith

/-!
# Vectors in space

Three coordinates, as numpy arrays of length three and `double[3]` in the code.  Generic in the
number type; lengths exist over the real numbers only.  Simplification: exact arithmetic.
-/

namespace Verif

/-- A point or vector. -/
@[ext] structure V3 (K : Type*) where
  x : K
  y : K
  z : K
  deriving DecidableEq, Repr

namespace V3
variable {K : Type*}

instance [Zero K] : Zero (V3 K) := ⟨⟨0, 0, 0⟩⟩
instance [Add K] : Add (V3 K) := ⟨fun u v => ⟨u.x + v.x, u.y + v.y, u.z + v.z⟩⟩
instance [Sub K] : Sub (V3 K) := ⟨fun u v => ⟨u.x - v.x, u.y - v.y, u.z - v.z⟩⟩
instance [Neg K] : Neg (V3 K) := ⟨fun u => ⟨-u.x, -u.y, -u.z⟩⟩
instance [Mul K] : SMul K (V3 K) := ⟨fun r u => ⟨r * u.x, r * u.y, r * u.z⟩⟩

/-- Scalar product. -/
def dot [Add K] [Mul K] (u v : V3 K) : K := u.x * v.x + u.y * v.y + u.z * v.z

/-- Vector product (`np.cross`). -/
def cross [Sub K] [Mul K] (u v : V3 K) : V3 K :=
  ⟨u.y * v.z - u.z * v.y, u.z * v.x - u.x * v.z, u.x * v.y - u.y * v.x⟩

/-- Length (`np.linalg.norm`, `sqrt(x*x + y*y + z*z)`). -/
noncomputable def norm (u : V3 ℝ) : ℝ := √(u.x * u.x + u.y * u.y + u.z * u.z)

@[simp] theorem zero_x [Zero K] : (0 : V3 K).x = 0 := rfl
@[simp] theorem zero_y [Zero K] : (0 : V3 K).y = 0 := rfl
@[simp] theorem zero_z [Zero K] : (0 : V3 K).z = 0 := rfl
@[simp] theorem add_x [Add K] (u v : V3 K) : (u + v).x = u.x + v.x := rfl
@[simp] theorem add_y [Add K] (u v : V3 K) : (u + v).y = u.y + v.y := rfl
@[simp] theorem add_z [Add K] (u v : V3 K) : (u + v).z = u.z + v.z := rfl
@[simp] theorem sub_x [Sub K] (u v : V3 K) : (u - v).x = u.x - v.x := rfl
@[simp] theorem sub_y [Sub K] (u v : V3 K) : (u - v).y = u.y - v.y := rfl
@[simp] theorem sub_z [Sub K] (u v : V3 K) : (u - v).z = u.z - v.z := rfl
@[simp] theorem neg_x [Neg K] (u : V3 K) : (-u).x = -u.x := rfl
@[simp] theorem neg_y [Neg K] (u : V3 K) : (-u).y = -u.y := rfl
@[simp] theorem neg_z [Neg K] (u : V3 K) : (-u).z = -u.z := rfl
@[simp] theorem smul_x [Mul K] (r : K) (u : V3 K) : (r • u).x = r * u.x := rfl
@[simp] theorem smul_y [Mul K] (r : K) (u : V3 K) : (r • u).y = r * u.y := rfl
@[simp] theorem smul_z [Mul K] (r : K) (u : V3 K) : (r • u).z = r * u.z := rfl
@[simp] theorem cross_x [Sub K] [Mul K] (u v : V3 K) : (cross u v).x = u.y * v.z - u.z * v.y := rfl
@[simp] theorem cross_y [Sub K] [Mul K] (u v : V3 K) : (cross u v).y = u.z * v.x - u.x * v.z := rfl
@[simp] theorem cross_z [Sub K] [Mul K] (u v : V3 K) : (cross u v).z = u.x * v.y - u.y * v.x := rfl

end V3

end Verif
