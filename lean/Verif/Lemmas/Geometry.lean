import Verif.Model.Geometry
import Mathlib.Tactic.FieldSimp
import Mathlib.Tactic.LinearCombination

/-!
# Helper lemmas on geometry
-/

namespace Verif

namespace V3

/-- Expand vectors into coordinates. -/
macro "vsimp" : tactic =>
  `(tactic| simp only [V3.dot, V3.add_x, V3.add_y, V3.add_z, V3.sub_x, V3.sub_y, V3.sub_z,
    V3.smul_x, V3.smul_y, V3.smul_z, V3.neg_x, V3.neg_y, V3.neg_z, V3.cross_x, V3.cross_y,
    V3.cross_z, V3.zero_x, V3.zero_y, V3.zero_z] at *)

theorem norm_smul (r : ℝ) (u : V3 ℝ) : (r • u).norm = |r| * u.norm := by
  unfold norm
  have : (r • u).x * (r • u).x + (r • u).y * (r • u).y + (r • u).z * (r • u).z
      = r ^ 2 * (u.x * u.x + u.y * u.y + u.z * u.z) := by vsimp; ring
  rw [this, Real.sqrt_mul (sq_nonneg r), Real.sqrt_sq_eq_abs]

theorem norm_pos {u : V3 ℝ} (h : u ≠ 0) : 0 < u.norm := by
  unfold norm
  apply Real.sqrt_pos.2
  by_contra hc
  apply h
  have hx := mul_self_nonneg u.x
  have hy := mul_self_nonneg u.y
  have hz := mul_self_nonneg u.z
  have h1 : u.x * u.x = 0 := by linarith
  have h2 : u.y * u.y = 0 := by linarith
  have h3 : u.z * u.z = 0 := by linarith
  ext
  · simpa using h1
  · simpa using h2
  · simpa using h3

theorem dot_self_pos {u : V3 ℝ} (h : u ≠ 0) : 0 < u.dot u := by
  have := norm_pos h
  unfold norm at this
  exact Real.sqrt_pos.1 this

end V3

open V3

/-- Corner parameters of the bilinear map. -/
theorem segPoint_eq {K : Type*} [Field K] (v : Corners (V3 K)) (eta xsi : K) :
    segPoint v eta xsi = v.a + eta • (v.b - v.a) +
      xsi • ((v.d - v.a) + eta • ((v.c - v.d) - (v.b - v.a))) := by
  unfold segPoint
  ext <;> vsimp <;> ring

/-- `N ⬝ (u × v)` -/
def br {K : Type*} [Field K] (N u v : V3 K) : K := N.dot (u.cross v)

/-- In the plane with normal `N`: a vector parallel to `D` is a multiple of `D`. -/
theorem colinear_of_br {N D r : V3 ℝ} (hN : N ≠ 0) (hD : D ≠ 0) (h1 : N.dot r = 0)
    (h2 : N.dot D = 0) (h3 : br N D r = 0) : r = (r.dot D / D.dot D) • D := by
  have hNN := dot_self_pos hN
  have hDD := dot_self_pos hD
  -- `(N·N) (D × r) = (N·(D × r)) N`, as `D × r` is parallel to `N`
  have hc : D.cross r = 0 := by
    unfold br at h3
    have e : ∀ x : ℝ, N.dot N * x = 0 → x = 0 := fun x hx =>
      (mul_eq_zero.1 hx).resolve_left hNN.ne'
    ext
    · apply e
      vsimp
      linear_combination N.x * h3 - (N.y * D.z - N.z * D.y) * h1 - (N.z * r.y - N.y * r.z) * h2
    · apply e
      vsimp
      linear_combination N.y * h3 - (N.z * D.x - N.x * D.z) * h1 - (N.x * r.z - N.z * r.x) * h2
    · apply e
      vsimp
      linear_combination N.z * h3 - (N.x * D.y - N.y * D.x) * h1 - (N.y * r.x - N.x * r.y) * h2
  have hx := congrArg V3.x hc
  have hy := congrArg V3.y hc
  have hz := congrArg V3.z hc
  have e : ∀ x y : ℝ, D.dot D * x = r.dot D * y → x = r.dot D / D.dot D * y := by
    intro x y hxy
    field_simp
    linarith
  ext
  · rw [V3.smul_x]; apply e; vsimp; linear_combination D.z * hy - D.y * hz
  · rw [V3.smul_y]; apply e; vsimp; linear_combination D.x * hz - D.z * hx
  · rw [V3.smul_z]; apply e; vsimp; linear_combination D.y * hx - D.x * hy

/-- Segment seen along `N = ab × ad`: its four corners turn the same way.  (`J`: Jacobian of the
segment map.) -/
def jac {K : Type*} [Field K] (v : Corners (V3 K)) (xsi eta : K) : K :=
  br ((v.b - v.a).cross (v.d - v.a)) ((v.b - v.a) + xsi • ((v.c - v.d) - (v.b - v.a)))
    ((v.d - v.a) + eta • ((v.c - v.d) - (v.b - v.a)))

theorem jac_pos {v : Corners (V3 ℝ)} (h00 : 0 < jac v 0 0) (h01 : 0 < jac v 0 1)
    (h10 : 0 < jac v 1 0) (h11 : 0 < jac v 1 1) {x e : ℝ} (hx : 0 ≤ x ∧ x ≤ 1)
    (he : 0 ≤ e ∧ e ≤ 1) : 0 < jac v x e := by
  have key : jac v x e = (1 - x) * ((1 - e) * jac v 0 0 + e * jac v 0 1) +
      x * ((1 - e) * jac v 1 0 + e * jac v 1 1) := by
    simp only [jac, br]
    generalize (v.b - v.a).cross (v.d - v.a) = N
    generalize v.b - v.a = U
    generalize v.d - v.a = V
    generalize v.c - v.d = C
    vsimp
    ring
  have p0 : 0 < (1 - e) * jac v 0 0 + e * jac v 0 1 := by
    rcases he.1.eq_or_lt with h | h
    · rw [← h]; simpa using h00
    · have := mul_nonneg (sub_nonneg.2 he.2) h00.le
      have := mul_pos h h01
      linarith
  have p1 : 0 < (1 - e) * jac v 1 0 + e * jac v 1 1 := by
    rcases he.1.eq_or_lt with h | h
    · rw [← h]; simpa using h10
    · have := mul_nonneg (sub_nonneg.2 he.2) h10.le
      have := mul_pos h h11
      linarith
  rw [key]
  rcases hx.1.eq_or_lt with h | h
  · rw [← h]; simpa using p0
  · have := mul_nonneg (sub_nonneg.2 hx.2) p0.le
    have := mul_pos h p1
    linarith

section interp
variable (v : Corners (V3 ℝ)) (eI xI eO xO e : ℝ)

/-- numerator of the line parameter in `xsi_interpol` -/
theorem interp_num :
    (((v.b - v.a).cross (v.d - v.a)).cross (segPoint v e 1 - segPoint v e 0)).dot
      (segPoint v e 0 - segPoint v eI xI) = (eI - e) * jac v xI e := by
  simp only [segPoint_eq, jac, br]
  generalize (v.b - v.a).cross (v.d - v.a) = N
  generalize v.b - v.a = U
  generalize v.d - v.a = V
  generalize v.c - v.d = C
  vsimp
  ring

/-- denominator of the line parameter in `xsi_interpol` -/
theorem interp_den :
    (((v.b - v.a).cross (v.d - v.a)).cross (segPoint v e 1 - segPoint v e 0)).dot
      (segPoint v eI xI - segPoint v eO xO) = (eO - e) * jac v xO e - (eI - e) * jac v xI e := by
  simp only [segPoint_eq, jac, br]
  generalize (v.b - v.a).cross (v.d - v.a) = N
  generalize v.b - v.a = U
  generalize v.d - v.a = V
  generalize v.c - v.d = C
  vsimp
  ring

/-- the chord line at `e` -/
theorem chord_ne_zero {v : Corners (V3 ℝ)} {x e : ℝ} (h : 0 < jac v x e) :
    segPoint v e 1 - segPoint v e 0 ≠ 0 := by
  intro hc
  have : segPoint v e 1 - segPoint v e 0 =
      (v.d - v.a) + e • ((v.c - v.d) - (v.b - v.a)) := by
    rw [segPoint_eq, segPoint_eq]; ext <;> vsimp <;> ring
  rw [this] at hc
  unfold jac at h
  rw [hc] at h
  simp only [br] at h
  vsimp
  simp at h

/-- The point found by `xsi_interpol`, as a point of the device edge. -/
noncomputable def interpPoint : V3 ℝ :=
  planeLineIntersect
    (((v.b - v.a).cross (v.d - v.a)).cross (segPoint v e 1 - segPoint v e 0)) (segPoint v e 0)
    (segPoint v eI xI - segPoint v eO xO) (segPoint v eI xI)

/-- the position on the device edge, 0 inner end, 1 outer end -/
noncomputable def interpParam : ℝ :=
  ((e - eI) * jac v xI e) / ((eO - e) * jac v xO e + (e - eI) * jac v xI e)

theorem interpPoint_eq : interpPoint v eI xI eO xO e =
    segPoint v eI xI + interpParam v eI xI eO xO e • (segPoint v eO xO - segPoint v eI xI) := by
  unfold interpPoint planeLineIntersect interpParam
  rw [interp_num, interp_den]
  have : (eI - e) * jac v xI e / ((eO - e) * jac v xO e - (eI - e) * jac v xI e) =
      -((e - eI) * jac v xI e / ((eO - e) * jac v xO e + (e - eI) * jac v xI e)) := by
    rw [← neg_div]; congr 1 <;> ring
  rw [this]
  generalize (e - eI) * jac v xI e / ((eO - e) * jac v xO e + (e - eI) * jac v xI e) = t
  ext <;> vsimp <;> ring

theorem xsiInterpol_eq : xsiInterpol v (eI, xI) (eO, xO) e =
    (interpPoint v eI xI eO xO e - segPoint v e 0).norm /
      (segPoint v e 1 - segPoint v e 0).norm := rfl

end interp

/-- A point of the segment's plane on the line of the chord at `e`. -/
theorem chord_coordinate {v : Corners (V3 ℝ)} {eI xI eO xO e : ℝ}
    (hpl : ((v.b - v.a).cross (v.d - v.a)).dot (v.c - v.a) = 0)
    (hden : (eO - e) * jac v xO e + (e - eI) * jac v xI e ≠ 0)
    (hN : (v.b - v.a).cross (v.d - v.a) ≠ 0) (hD : segPoint v e 1 - segPoint v e 0 ≠ 0) :
    ∃ l : ℝ, interpPoint v eI xI eO xO e - segPoint v e 0 =
        l • (segPoint v e 1 - segPoint v e 0) ∧
      (l - xI) * jac v xI e = interpParam v eI xI eO xO e * ((xO - xI) * jac v xI eO) ∧
      (l - xO) * jac v xO e = (1 - interpParam v eI xI eO xO e) * ((xI - xO) * jac v xO eI) := by
  have hw : ((v.b - v.a).cross (v.d - v.a)).dot ((v.c - v.d) - (v.b - v.a)) = 0 := by
    have : ((v.b - v.a).cross (v.d - v.a)).dot ((v.c - v.d) - (v.b - v.a)) =
      ((v.b - v.a).cross (v.d - v.a)).dot (v.c - v.a) := by vsimp; ring
    rw [this, hpl]
  have hu : ((v.b - v.a).cross (v.d - v.a)).dot (v.b - v.a) = 0 := by vsimp; ring
  have hv : ((v.b - v.a).cross (v.d - v.a)).dot (v.d - v.a) = 0 := by vsimp; ring
  have ht : interpParam v eI xI eO xO e *
      ((eO - e) * jac v xO e + (e - eI) * jac v xI e) = (e - eI) * jac v xI e := by
    unfold interpParam; field_simp
  rw [interpPoint_eq]
  generalize interpParam v eI xI eO xO e = t at *
  have hc := @colinear_of_br ((v.b - v.a).cross (v.d - v.a)) (segPoint v e 1 - segPoint v e 0)
    (segPoint v eI xI + t • (segPoint v eO xO - segPoint v eI xI) - segPoint v e 0) hN hD
  have e1 : ((v.b - v.a).cross (v.d - v.a)).dot
      (segPoint v eI xI + t • (segPoint v eO xO - segPoint v eI xI) - segPoint v e 0) = 0 := by
    simp only [segPoint_eq]
    generalize (v.b - v.a).cross (v.d - v.a) = N at *
    generalize (v.c - v.d) - (v.b - v.a) = W at *
    generalize v.b - v.a = U at *
    generalize v.d - v.a = V at *
    clear ht hden hc hpl
    vsimp
    linear_combination ((eI - e) + t * (eO - eI)) * hu + (xI + t * (xO - xI)) * hv +
      (xI * eI + t * (xO * eO - xI * eI)) * hw
  have e2 : ((v.b - v.a).cross (v.d - v.a)).dot (segPoint v e 1 - segPoint v e 0) = 0 := by
    simp only [segPoint_eq]
    generalize (v.b - v.a).cross (v.d - v.a) = N at *
    generalize (v.c - v.d) - (v.b - v.a) = W at *
    generalize v.b - v.a = U at *
    generalize v.d - v.a = V at *
    clear ht hden hc hpl
    vsimp
    linear_combination hv + e * hw
  have e3 : br ((v.b - v.a).cross (v.d - v.a)) (segPoint v e 1 - segPoint v e 0)
      (segPoint v eI xI + t • (segPoint v eO xO - segPoint v eI xI) - segPoint v e 0) = 0 := by
    clear hc hpl e1 e2 hu hv hw hden
    simp only [segPoint_eq, br, jac] at *
    generalize (v.b - v.a).cross (v.d - v.a) = N at *
    generalize (v.c - v.d) - (v.b - v.a) = W at *
    generalize v.b - v.a = U at *
    generalize v.d - v.a = V at *
    vsimp
    linear_combination -ht
  refine ⟨_, hc e1 e2 e3, ?_, ?_⟩
  all_goals
    have hl := hc e1 e2 e3
    generalize V3.dot (segPoint v eI xI + t • (segPoint v eO xO - segPoint v eI xI) -
      segPoint v e 0) (segPoint v e 1 - segPoint v e 0) /
      V3.dot (segPoint v e 1 - segPoint v e 0) (segPoint v e 1 - segPoint v e 0) = l at *
  · have hb := congrArg (br ((v.b - v.a).cross (v.d - v.a))
      ((v.b - v.a) + xI • ((v.c - v.d) - (v.b - v.a)))) hl
    clear hc hpl e1 e2 e3 hu hv hw hden hl ht hN hD
    simp only [segPoint_eq, br, jac] at *
    generalize (v.b - v.a).cross (v.d - v.a) = N at *
    generalize (v.c - v.d) - (v.b - v.a) = W at *
    generalize v.b - v.a = U at *
    generalize v.d - v.a = V at *
    vsimp
    linear_combination -hb
  · have hb := congrArg (br ((v.b - v.a).cross (v.d - v.a))
      ((v.b - v.a) + xO • ((v.c - v.d) - (v.b - v.a)))) hl
    clear hc hpl e1 e2 e3 hu hv hw hden hl ht hN hD
    simp only [segPoint_eq, br, jac] at *
    generalize (v.b - v.a).cross (v.d - v.a) = N at *
    generalize (v.c - v.d) - (v.b - v.a) = W at *
    generalize v.b - v.a = U at *
    generalize v.d - v.a = V at *
    vsimp
    linear_combination -hb

end Verif
