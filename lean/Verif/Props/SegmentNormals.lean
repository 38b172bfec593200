import Verif.Model.SegmentAxes
import Verif.Props.Normals
import Verif.Props.Deflection
import Verif.Props.NormalsExamples

/-!
# C147: the normal of a segment is the normal of its panels
-/

namespace Verif
open V3

/-! ## Normals at the corners -/

/-- Normal of the outline a-b-c-d at the corner b. -/
def Corners.normalB (v : Corners (V3 ℝ)) : V3 ℝ := (v.b - v.a).cross (v.c - v.b)

/-- Normal of the outline at the corner c. -/
def Corners.normalC (v : Corners (V3 ℝ)) : V3 ℝ := (v.c - v.d).cross (v.c - v.b)

/-- Normal of the outline at the corner d. -/
def Corners.normalD (v : Corners (V3 ℝ)) : V3 ℝ := (v.c - v.d).cross (v.d - v.a)

/-- A direction seen from which the outline turns the same way at all corners; the tip (b, c) or the
root (a, d) may be a point. -/
structure Corners.Faces (v : Corners (V3 ℝ)) (u : V3 ℝ) : Prop where
  a : 0 ≤ v.normalVector.dot u
  b : 0 ≤ v.normalB.dot u
  c : 0 ≤ v.normalC.dot u
  d : 0 ≤ v.normalD.dot u
  strict : (0 < v.normalVector.dot u ∧ 0 < v.normalD.dot u) ∨ (0 < v.normalB.dot u ∧ 0 < v.normalC.dot u)

/-- A segment in one plane whose outline turns the same way at all corners; the tip (b, c) may be a
point. -/
structure Corners.PlaneShape (v : Corners (V3 ℝ)) : Prop where
  plane : v.normalVector.dot (v.c - v.a) = 0
  a : v.normalVector ≠ 0
  b : 0 ≤ v.normalB.dot v.normalVector
  c : 0 ≤ v.normalC.dot v.normalVector
  d : 0 < v.normalD.dot v.normalVector

/-- Interpolation between four vectors. -/
def blend (s c : ℝ) (na nb nc nd : V3 ℝ) : V3 ℝ :=
  ((1 - s) * (1 - c)) • na + (s * (1 - c)) • nb + (s * c) • nc + ((1 - s) * c) • nd

theorem blend_dot (s c : ℝ) (na nb nc nd u : V3 ℝ) : (blend s c na nb nc nd).dot u =
    (1 - s) * (1 - c) * na.dot u + s * (1 - c) * nb.dot u + s * c * nc.dot u +
      (1 - s) * c * nd.dot u := by
  unfold blend
  vsimp
  ring

/-- The cross product of a panel, in terms of the corners of its subarea. -/
theorem crossVec_blend (v : Corners (V3 ℝ)) (leg : V3 ℝ) (n : ℤ) (k : ℕ) :
    (panelPts (Coef.of v) leg 1 n k 0).crossVec =
      (3/8 * (1 / (n : ℝ))) • blend (1/2) (1 / (n : ℝ) * (k + 3/4)) v.normalVector v.normalB
        v.normalC v.normalD := by
  unfold PanelPts.crossVec panelPts Coef.of Coef.at blend Corners.normalVector Corners.normalB
    Corners.normalC Corners.normalD
  generalize (1 / (n : ℝ)) = t
  ext <;> vsimp <;> norm_num <;> ring

/-- The corners of a subarea: points of the segment. -/
noncomputable def patch (v : Corners (V3 ℝ)) (e1 e2 xa xb xc xd : ℝ) : Corners (V3 ℝ) :=
  ⟨segPoint v e1 xa, segPoint v e2 xb, segPoint v e2 xc, segPoint v e1 xd⟩

/-- Normal of the segment at the point with coordinates `e` and `x`. -/
noncomputable def Corners.normalAt (v : Corners (V3 ℝ)) (e x : ℝ) : V3 ℝ :=
  blend e x v.normalVector v.normalB v.normalC v.normalD

theorem patch_normals (v : Corners (V3 ℝ)) (e1 e2 xa xb xc xd : ℝ) :
    (patch v e1 e2 xa xb xc xd).normalVector = ((e2 - e1) * (xd - xa)) • v.normalAt e1 xb ∧
    (patch v e1 e2 xa xb xc xd).normalB = ((e2 - e1) * (xc - xb)) • v.normalAt e2 xa ∧
    (patch v e1 e2 xa xb xc xd).normalC = ((e2 - e1) * (xc - xb)) • v.normalAt e2 xd ∧
    (patch v e1 e2 xa xb xc xd).normalD = ((e2 - e1) * (xd - xa)) • v.normalAt e1 xc := by
  obtain ⟨a, b, c, d⟩ := v
  refine ⟨?_, ?_, ?_, ?_⟩ <;>
  · unfold Corners.normalAt blend Corners.normalVector Corners.normalB Corners.normalC
      Corners.normalD patch segPoint
    ext <;> vsimp <;> ring

/-! ## Main direction -/

/-- **C147**, main direction: it is perpendicular to the root chord and to the normal vector, and points
from the root to the tip: along the leading edge if this does not lie along the root chord, and along
the trailing edge for segments that face along their normal at d. -/
theorem C147_main_direction (v : Corners (V3 ℝ)) :
    v.mainDirection.dot (v.d - v.a) = 0 ∧ v.mainDirection.dot v.normalVector = 0 ∧
    0 ≤ v.mainDirection.dot (v.b - v.a) ∧
    (0 < v.mainDirection.dot (v.b - v.a) ↔ v.normalVector ≠ 0) ∧
    v.mainDirection.dot (v.c - v.d) = v.normalD.dot v.normalVector := by
  have key : v.mainDirection.dot (v.b - v.a) = v.normalVector.dot v.normalVector := by
    unfold Corners.mainDirection Corners.normalVector
    vsimp
    ring
  have hz : ∀ u : V3 ℝ, 0 ≤ u.dot u ∧ (0 < u.dot u ↔ u ≠ 0) := by
    intro u
    have h0 : 0 ≤ u.dot u := by
      unfold V3.dot
      nlinarith [mul_self_nonneg u.x, mul_self_nonneg u.y, mul_self_nonneg u.z]
    refine ⟨h0, fun h e => ?_, fun h => lt_of_le_of_ne h0 fun e => h ?_⟩
    · rw [e] at h
      simp [V3.dot] at h
    · unfold V3.dot at e
      ext
      · exact mul_self_eq_zero.1 (show u.x * u.x = 0 by
          nlinarith [mul_self_nonneg u.x, mul_self_nonneg u.y, mul_self_nonneg u.z])
      · exact mul_self_eq_zero.1 (show u.y * u.y = 0 by
          nlinarith [mul_self_nonneg u.x, mul_self_nonneg u.y, mul_self_nonneg u.z])
      · exact mul_self_eq_zero.1 (show u.z * u.z = 0 by
          nlinarith [mul_self_nonneg u.x, mul_self_nonneg u.y, mul_self_nonneg u.z])
  refine ⟨?_, ?_, ?_, ?_, ?_⟩
  · unfold Corners.mainDirection
    vsimp
    ring
  · unfold Corners.mainDirection
    vsimp
    ring
  · rw [key]; exact (hz _).1
  · rw [key]; exact (hz _).2
  · unfold Corners.mainDirection Corners.normalD
    vsimp
    ring

/-! ## Panels -/

/-- Interpolation between four numbers. -/
def blendVal (s c a b d e : ℝ) : ℝ := (1 - s) * (1 - c) * a + s * (1 - c) * b + s * c * d + (1 - s) * c * e

theorem blendVal_nonneg {s c a b d e : ℝ} (hs : 0 ≤ s ∧ s ≤ 1) (hc : 0 ≤ c ∧ c ≤ 1) (ha : 0 ≤ a) (hb : 0 ≤ b)
    (hd : 0 ≤ d) (he : 0 ≤ e) : 0 ≤ blendVal s c a b d e := by
  have h1 : 0 ≤ 1 - s := by linarith [hs.2]
  have h2 : 0 ≤ 1 - c := by linarith [hc.2]
  have h3 := hs.1
  have h4 := hc.1
  unfold blendVal
  positivity

theorem blendVal_pos {s c a b d e : ℝ} (hs : 0 ≤ s ∧ s ≤ 1) (hc : 0 ≤ c ∧ c ≤ 1) (ha : 0 ≤ a) (hb : 0 ≤ b)
    (hd : 0 ≤ d) (he : 0 ≤ e) (h : (s < 1 ∧ 0 < a ∧ 0 < e) ∨ (0 < s ∧ 0 < b ∧ 0 < d)) :
    0 < blendVal s c a b d e := by
  have h1 : 0 ≤ 1 - s := by linarith [hs.2]
  have h2 : 0 ≤ 1 - c := by linarith [hc.2]
  have h3 := hs.1
  have h4 := hc.1
  unfold blendVal
  rcases h with ⟨k1, k2, k3⟩ | ⟨k1, k2, k3⟩
  · have key : 0 < (1 - c) * a + c * e := by
      rcases eq_or_lt_of_le h4 with rfl | hc0
      · simpa using k2
      · have := mul_pos hc0 k3
        have := mul_nonneg h2 k2.le
        linarith
    have e1 : 0 < (1 - s) * ((1 - c) * a + c * e) := mul_pos (by linarith) key
    have e2 : 0 ≤ s * (1 - c) * b := by positivity
    have e3 : 0 ≤ s * c * d := by positivity
    nlinarith
  · have key : 0 < (1 - c) * b + c * d := by
      rcases eq_or_lt_of_le h4 with rfl | hc0
      · simpa using k2
      · have := mul_pos hc0 k3
        have := mul_nonneg h2 k2.le
        linarith
    have e1 : 0 < s * ((1 - c) * b + c * d) := mul_pos k1 key
    have e2 : 0 ≤ (1 - s) * (1 - c) * a := by positivity
    have e3 : 0 ≤ (1 - s) * c * e := by positivity
    nlinarith

/-- Relative coordinates of a subarea. -/
structure PatchOk (e1 e2 xa xb xc xd : ℝ) : Prop where
  span : 0 ≤ e1 ∧ e1 < e2 ∧ e2 ≤ 1
  inner : 0 ≤ xa ∧ xa < xd ∧ xd ≤ 1
  outer : 0 ≤ xb ∧ xb < xc ∧ xc ≤ 1

/-- What the cross product of a panel amounts to if the normals at the corners of the segment are
measured by numbers. -/
noncomputable def patchVal (e1 e2 xa xb xc xd c a b d e : ℝ) : ℝ :=
  blendVal (1/2) c ((e2 - e1) * (xd - xa) * blendVal e1 xb a b d e)
    ((e2 - e1) * (xc - xb) * blendVal e2 xa a b d e) ((e2 - e1) * (xc - xb) * blendVal e2 xd a b d e)
    ((e2 - e1) * (xd - xa) * blendVal e1 xc a b d e)

theorem patchVal_pos {e1 e2 xa xb xc xd c a b d e : ℝ} (h : PatchOk e1 e2 xa xb xc xd)
    (hc : 0 ≤ c ∧ c ≤ 1) (ha : 0 ≤ a) (hb : 0 ≤ b) (hd : 0 ≤ d) (he : 0 ≤ e)
    (hs : (0 < a ∧ 0 < e) ∨ (0 < b ∧ 0 < d)) : 0 < patchVal e1 e2 xa xb xc xd c a b d e := by
  obtain ⟨⟨s1, s2, s3⟩, ⟨i1, i2, i3⟩, o1, o2, o3⟩ := h
  have hi : 0 < (e2 - e1) * (xd - xa) := mul_pos (by linarith) (by linarith)
  have ho : 0 < (e2 - e1) * (xc - xb) := mul_pos (by linarith) (by linarith)
  have n1 := blendVal_nonneg (s := e1) (c := xb) ⟨s1, by linarith⟩ ⟨o1, by linarith⟩ ha hb hd he
  have n2 := blendVal_nonneg (s := e2) (c := xa) ⟨by linarith, s3⟩ ⟨i1, by linarith⟩ ha hb hd he
  have n3 := blendVal_nonneg (s := e2) (c := xd) ⟨by linarith, s3⟩ ⟨by linarith, i3⟩ ha hb hd he
  have n4 := blendVal_nonneg (s := e1) (c := xc) ⟨s1, by linarith⟩ ⟨by linarith, o3⟩ ha hb hd he
  unfold patchVal
  refine blendVal_pos (by norm_num) hc (mul_nonneg hi.le n1) (mul_nonneg ho.le n2)
    (mul_nonneg ho.le n3) (mul_nonneg hi.le n4) ?_
  rcases hs with ⟨k1, k2⟩ | ⟨k1, k2⟩
  · exact .inl ⟨by norm_num,
      mul_pos hi (blendVal_pos ⟨s1, by linarith⟩ ⟨o1, by linarith⟩ ha hb hd he (.inl ⟨by linarith, k1, k2⟩)),
      mul_pos hi (blendVal_pos ⟨s1, by linarith⟩ ⟨by linarith, o3⟩ ha hb hd he (.inl ⟨by linarith, k1, k2⟩))⟩
  · exact .inr ⟨by norm_num,
      mul_pos ho (blendVal_pos ⟨by linarith, s3⟩ ⟨i1, by linarith⟩ ha hb hd he (.inr ⟨by linarith, k1, k2⟩)),
      mul_pos ho (blendVal_pos ⟨by linarith, s3⟩ ⟨by linarith, i3⟩ ha hb hd he (.inr ⟨by linarith, k1, k2⟩))⟩

theorem station {n : ℤ} {k : ℕ} (hk : (k : ℤ) < n) :
    0 < 1 / (n : ℝ) ∧ 0 ≤ 1 / (n : ℝ) * (k + 3/4) ∧ 1 / (n : ℝ) * (k + 3/4) ≤ 1 := by
  have h1 : ((k : ℤ) : ℝ) + 1 ≤ n := by exact_mod_cast hk
  rw [Int.cast_natCast] at h1
  have h0 : (0 : ℝ) ≤ k := Nat.cast_nonneg k
  have hn : (0 : ℝ) < n := by linarith
  refine ⟨by positivity, by positivity, ?_⟩
  rw [one_div, inv_mul_le_iff₀ hn]
  linarith

/-- The panels of a patch face where the segment does. -/
theorem patch_faces {v : Corners (V3 ℝ)} {u : V3 ℝ} (h : v.Faces u) {e1 e2 xa xb xc xd : ℝ}
    (hp : PatchOk e1 e2 xa xb xc xd) (leg : V3 ℝ) {n : ℤ} {k : ℕ} (hk : (k : ℤ) < n) :
    0 < (panelPts (Coef.of (patch v e1 e2 xa xb xc xd)) leg 1 n k 0).crossVec.dot u := by
  obtain ⟨t1, t2, t3⟩ := station hk
  obtain ⟨p1, p2, p3, p4⟩ := patch_normals v e1 e2 xa xb xc xd
  have := patchVal_pos hp ⟨t2, t3⟩ h.a h.b h.c h.d h.strict
  have e : (panelPts (Coef.of (patch v e1 e2 xa xb xc xd)) leg 1 n k 0).crossVec.dot u =
      3/8 * (1 / (n : ℝ)) * patchVal e1 e2 xa xb xc xd (1 / (n : ℝ) * (k + 3/4))
        (v.normalVector.dot u) (v.normalB.dot u) (v.normalC.dot u) (v.normalD.dot u) := by
    rw [crossVec_blend, p1, p2, p3, p4]
    unfold Corners.normalAt patchVal blendVal blend
    vsimp
    ring
  rw [e]
  positivity

/-- The normals at the corners are multiples of one vector. -/
def Corners.Along (v : Corners (V3 ℝ)) (N : V3 ℝ) : Prop :=
  ∃ a b c d : ℝ, 0 ≤ a ∧ 0 ≤ b ∧ 0 ≤ c ∧ 0 ≤ d ∧ ((0 < a ∧ 0 < d) ∨ (0 < b ∧ 0 < c)) ∧
    v.normalVector = a • N ∧ v.normalB = b • N ∧ v.normalC = c • N ∧ v.normalD = d • N

theorem finNormal_of_pos {g : PanelPts ℝ} {N : V3 ℝ} {r : ℝ} (hr : 0 < r) (hN : N.norm ≠ 0)
    (h : g.crossVec = r • N) : g.finNormal = some ((1 / N.norm) • N) := by
  have h1 : (r • N).norm = r * N.norm := by rw [V3.norm_smul, abs_of_pos hr]
  unfold PanelPts.finNormal PanelPts.normal
  rw [h, h1, if_neg (mul_ne_zero hr.ne' hN)]
  congr 1
  ext <;> vsimp <;> field_simp

theorem patch_along {v : Corners (V3 ℝ)} {N : V3 ℝ} (h : v.Along N) (hN : N.norm ≠ 0)
    {e1 e2 xa xb xc xd : ℝ} (hp : PatchOk e1 e2 xa xb xc xd) (leg : V3 ℝ) {n : ℤ} {k : ℕ}
    (hk : (k : ℤ) < n) :
    (panelPts (Coef.of (patch v e1 e2 xa xb xc xd)) leg 1 n k 0).finNormal = some ((1 / N.norm) • N) := by
  obtain ⟨a, b, c, d, ha, hb, hc, hd, hs, q1, q2, q3, q4⟩ := h
  obtain ⟨t1, t2, t3⟩ := station hk
  obtain ⟨p1, p2, p3, p4⟩ := patch_normals v e1 e2 xa xb xc xd
  refine finNormal_of_pos (r := 3/8 * (1 / (n : ℝ)) * patchVal e1 e2 xa xb xc xd
    (1 / (n : ℝ) * (k + 3/4)) a b c d) ?_ hN ?_
  · have := patchVal_pos hp ⟨t2, t3⟩ ha hb hc hd hs
    positivity
  · rw [crossVec_blend, p1, p2, p3, p4]
    unfold Corners.normalAt patchVal blendVal blend
    rw [q1, q2, q3, q4]
    ext <;> vsimp <;> ring

theorem parallel_of_perp {x y N : V3 ℝ} (hx : x.dot N = 0) (hy : y.dot N = 0) (hN : N.dot N ≠ 0) :
    x.cross y = ((x.cross y).dot N / N.dot N) • N := by
  have key : (x.cross y).cross N = (x.dot N) • y - (y.dot N) • x := by ext <;> vsimp <;> ring
  rw [hx, hy] at key
  have h2 : (N.dot N) • (x.cross y) = ((x.cross y).dot N) • N + N.cross ((x.cross y).cross N) := by
    ext <;> vsimp <;> ring
  rw [key] at h2
  have hx' := congrArg V3.x h2
  have hy' := congrArg V3.y h2
  have hz' := congrArg V3.z h2
  ext
  · rw [smul_x, div_mul_eq_mul_div, eq_div_iff hN]
    simp at hx'
    simp
    linarith
  · rw [smul_y, div_mul_eq_mul_div, eq_div_iff hN]
    simp at hy'
    simp
    linarith
  · rw [smul_z, div_mul_eq_mul_div, eq_div_iff hN]
    simp at hz'
    simp
    linarith

theorem dot_pos_of_ne {u : V3 ℝ} (h : u ≠ 0) : 0 < u.dot u := by
  have h0 : 0 ≤ u.dot u := by
    unfold V3.dot
    nlinarith [mul_self_nonneg u.x, mul_self_nonneg u.y, mul_self_nonneg u.z]
  refine lt_of_le_of_ne h0 fun e => h ?_
  unfold V3.dot at e
  ext
  · exact mul_self_eq_zero.1 (show u.x * u.x = 0 by
      nlinarith [mul_self_nonneg u.x, mul_self_nonneg u.y, mul_self_nonneg u.z])
  · exact mul_self_eq_zero.1 (show u.y * u.y = 0 by
      nlinarith [mul_self_nonneg u.x, mul_self_nonneg u.y, mul_self_nonneg u.z])
  · exact mul_self_eq_zero.1 (show u.z * u.z = 0 by
      nlinarith [mul_self_nonneg u.x, mul_self_nonneg u.y, mul_self_nonneg u.z])

theorem Corners.PlaneShape.along {v : Corners (V3 ℝ)} (h : v.PlaneShape) : v.Along v.normalVector := by
  have hN := dot_pos_of_ne h.a
  have hb : (v.b - v.a).dot v.normalVector = 0 := by unfold Corners.normalVector; vsimp; ring
  have hd : (v.d - v.a).dot v.normalVector = 0 := by unfold Corners.normalVector; vsimp; ring
  have hc : (v.c - v.a).dot v.normalVector = 0 := by rw [← h.plane]; vsimp; ring
  have hcb : (v.c - v.b).dot v.normalVector = 0 := by
    have : (v.c - v.b).dot v.normalVector = (v.c - v.a).dot v.normalVector - (v.b - v.a).dot v.normalVector := by
      vsimp; ring
    rw [this, hc, hb, sub_zero]
  have hcd : (v.c - v.d).dot v.normalVector = 0 := by
    have : (v.c - v.d).dot v.normalVector = (v.c - v.a).dot v.normalVector - (v.d - v.a).dot v.normalVector := by
      vsimp; ring
    rw [this, hc, hd, sub_zero]
  refine ⟨1, _, _, _, zero_le_one, ?_, ?_, ?_, .inl ⟨zero_lt_one, ?_⟩, ?_,
    parallel_of_perp hb hcb hN.ne', parallel_of_perp hcd hcb hN.ne', parallel_of_perp hcd hd hN.ne'⟩
  · exact div_nonneg h.b hN.le
  · exact div_nonneg h.c hN.le
  · exact div_nonneg h.d.le hN.le
  · exact div_pos h.d hN
  · ext <;> vsimp <;> ring

/-! ## The two sides of a wing -/

/-- Corners of a segment on the side of the wing: on the mirrored side the images, named in the order
of the mirrored half for the flag 2 and in the old order for the flags 1 and 3. -/
noncomputable def Corners.onSide (v : Corners (V3 ℝ)) (sym : ℕ) (mirror : Bool) : Corners (V3 ℝ) :=
  let M := reflect (symNormal (K := ℝ) sym)
  if mirror then if sym = 2 then ⟨M v.b, M v.a, M v.d, M v.c⟩ else ⟨M v.a, M v.b, M v.c, M v.d⟩
  else v

/-- The direction on a side of the wing that corresponds to a direction on the first side: on the
mirrored side the image for the flag 2 and its opposite for the flags 1 and 3. -/
noncomputable def sideDir (sym : ℕ) (mirror : Bool) (u : V3 ℝ) : V3 ℝ :=
  if mirror then if sym = 2 then reflect (symNormal sym) u else -reflect (symNormal sym) u else u

theorem sideDir_smul (sym : ℕ) (hs : SymFlag sym) (mirror : Bool) (r : ℝ) (u : V3 ℝ) :
    sideDir sym mirror (r • u) = r • sideDir sym mirror u := by
  rcases hs with rfl | rfl | rfl <;> cases mirror <;> ext <;> simp [sideDir, reflect, symNormal] <;>
    vsimp <;> ring

theorem sideDir_dot (sym : ℕ) (hs : SymFlag sym) (mirror : Bool) (u w : V3 ℝ) :
    (sideDir sym mirror u).dot (sideDir sym mirror w) = u.dot w := by
  rcases hs with rfl | rfl | rfl <;> cases mirror <;> simp [sideDir, reflect, symNormal] <;>
    vsimp <;> ring

theorem sideDir_norm (sym : ℕ) (hs : SymFlag sym) (mirror : Bool) (u : V3 ℝ) :
    (sideDir sym mirror u).norm = u.norm := by
  have := sideDir_dot sym hs mirror u u
  unfold V3.dot at this
  unfold V3.norm
  congr 1

/-- Normals at the corners on the other side. -/
theorem onSide_normals (v : Corners (V3 ℝ)) (sym : ℕ) (hs : SymFlag sym) (mirror : Bool) :
    let w := v.onSide sym mirror
    let D := sideDir sym mirror
    (w.normalVector = D v.normalVector ∧ w.normalB = D v.normalB ∧ w.normalC = D v.normalC ∧
      w.normalD = D v.normalD) ∨
    (w.normalVector = D v.normalB ∧ w.normalB = D v.normalVector ∧ w.normalC = D v.normalD ∧
      w.normalD = D v.normalC) := by
  obtain ⟨⟨a1, a2, a3⟩, ⟨b1, b2, b3⟩, ⟨c1, c2, c3⟩, ⟨d1, d2, d3⟩⟩ := v
  cases mirror with
  | false => left; exact ⟨rfl, rfl, rfl, rfl⟩
  | true =>
    rcases hs with rfl | rfl | rfl
    · left
      refine ⟨?_, ?_, ?_, ?_⟩ <;> ext <;>
        simp [Corners.onSide, sideDir, reflect, symNormal, Corners.normalVector, Corners.normalB,
          Corners.normalC, Corners.normalD] <;> vsimp <;> ring
    · right
      refine ⟨?_, ?_, ?_, ?_⟩ <;> ext <;>
        simp [Corners.onSide, sideDir, reflect, symNormal, Corners.normalVector, Corners.normalB,
          Corners.normalC, Corners.normalD] <;> vsimp <;> ring
    · left
      refine ⟨?_, ?_, ?_, ?_⟩ <;> ext <;>
        simp [Corners.onSide, sideDir, reflect, symNormal, Corners.normalVector, Corners.normalB,
          Corners.normalC, Corners.normalD] <;> vsimp <;> ring

theorem Corners.Faces.onSide {v : Corners (V3 ℝ)} {u : V3 ℝ} (h : v.Faces u) (sym : ℕ)
    (hs : SymFlag sym) (mirror : Bool) : (v.onSide sym mirror).Faces (sideDir sym mirror u) := by
  obtain ⟨h1, h2, h3, h4, h5⟩ := h
  rcases onSide_normals v sym hs mirror with ⟨e1, e2, e3, e4⟩ | ⟨e1, e2, e3, e4⟩
  · refine ⟨?_, ?_, ?_, ?_, ?_⟩ <;> simp only [e1, e2, e3, e4, sideDir_dot sym hs] <;> assumption
  · refine ⟨?_, ?_, ?_, ?_, ?_⟩ <;> simp only [e1, e2, e3, e4, sideDir_dot sym hs] <;>
      first | assumption | exact h5.symm

theorem Corners.Along.onSide {v : Corners (V3 ℝ)} {N : V3 ℝ} (h : v.Along N) (sym : ℕ)
    (hs : SymFlag sym) (mirror : Bool) : (v.onSide sym mirror).Along (sideDir sym mirror N) := by
  obtain ⟨a, b, c, d, ha, hb, hc, hd, h5, q1, q2, q3, q4⟩ := h
  rcases onSide_normals v sym hs mirror with ⟨e1, e2, e3, e4⟩ | ⟨e1, e2, e3, e4⟩
  · exact ⟨a, b, c, d, ha, hb, hc, hd, h5, by rw [e1, q1, sideDir_smul sym hs],
      by rw [e2, q2, sideDir_smul sym hs], by rw [e3, q3, sideDir_smul sym hs],
      by rw [e4, q4, sideDir_smul sym hs]⟩
  · exact ⟨b, a, d, c, hb, ha, hd, hc, h5.symm, by rw [e1, q2, sideDir_smul sym hs],
      by rw [e2, q1, sideDir_smul sym hs], by rw [e3, q4, sideDir_smul sym hs],
      by rw [e4, q3, sideDir_smul sym hs]⟩

/-- Mirrored corners exist only for the three flags. -/
theorem symFlag_of_mirrored {g : GeoEnv ℝ} {s : Strip ℝ} {q : Quad ℝ} {v : Corners (V3 ℝ)}
    (h : subareaVertices g s q true = .ok v) : SymFlag g.symmetry := by
  by_contra hs
  unfold SymFlag at hs
  push Not at hs
  obtain ⟨h1, h2, h3⟩ := hs
  unfold subareaVertices at h
  cases hv : s.absVertices g true with
  | error x => simp [hv] at h
  | ok sd => simp [hv, orderMirrored, h1, h2, h3] at h

/-! ## Subareas of panelled aircraft -/

theorem panelled_quad {ac ac' : PAircraft ℝ} (hu : ac.Unpanelled) (h : prePanelling ac = .ok ac')
    {w : PWing ℝ} (hw : w ∈ ac'.wings) {s : PSegment ℝ} (hs : s ∈ w.segments) {d : Strip ℝ}
    (hd : d ∈ s.strips) {a : Subarea ℝ} (ha : a ∈ d.subareas) :
    PatchOk d.etaA d.etaB a.quad.xsiA a.quad.xsiB a.quad.xsiC a.quad.xsiD := by
  have hspan := (C01_aircraft_strips_tile ac ac' hu h w hw s hs).inside _
    (List.mem_map_of_mem (f := Strip.range) hd)
  obtain ⟨j1, j2⟩ := C05_aircraft_chordwise_tiling ac ac' hu h w hw s hs d hd
  obtain ⟨p1, p2, -⟩ := C06_aircraft_gap ac ac' hu h w hw s hs d hd
  obtain ⟨-, -, hlist⟩ := C60_strip_subareas ac ac' hu h w hw s hs d hd
  unfold Strip.innerExtents at j1 p1
  unfold Strip.outerExtents at j2 p2
  refine ⟨hspan, ?_, ?_⟩
  all_goals
    rcases (hlist a).1 ha with rfl | ⟨f, hf, rfl⟩ | ⟨f, hf, rfl⟩
    · cases hsl : d.slat <;> cases hfl : d.flap <;> simp [hsl, hfl, Joins] at j1 j2 p1 p2 ⊢ <;>
        refine ⟨?_, ?_, ?_⟩ <;> linarith
    · cases hfl : d.flap <;> simp [hf, hfl, Joins] at j1 j2 p1 p2 ⊢ <;>
        refine ⟨?_, ?_, ?_⟩ <;> linarith
    · cases hsl : d.slat <;> simp [hf, hsl, Joins] at j1 j2 p1 p2 ⊢ <;>
        refine ⟨?_, ?_, ?_⟩ <;> linarith

/-- The corners of each subarea of an undeformed segment are a patch of the segment. -/
theorem subarea_patch {ac ac' : PAircraft ℝ} (hu : ac.Unpanelled) (h : prePanelling ac = .ok ac')
    {w : PWing ℝ} (hw : w ∈ ac'.wings) {s : PSegment ℝ} (hs : s ∈ w.segments) {d : Strip ℝ}
    (hd : d ∈ s.strips) {a : Subarea ℝ} (ha : a ∈ d.subareas) {g : GeoEnv ℝ} (hg : g.isDeformed = false)
    {mirror : Bool} {v : Corners (V3 ℝ)} (hv : subareaVertices g d a.quad mirror = .ok v) :
    ∃ e1 e2 xa xb xc xd : ℝ, PatchOk e1 e2 xa xb xc xd ∧
      v = patch (g.vertices.onSide g.symmetry mirror) e1 e2 xa xb xc xd := by
  have hp := panelled_quad hu h hw hs hd ha
  unfold GeoEnv.isDeformed at hg
  rw [Bool.or_eq_false_iff, Option.isSome_eq_false_iff, Option.isSome_eq_false_iff,
    Option.isNone_iff_eq_none, Option.isNone_iff_eq_none] at hg
  obtain ⟨g1, g2⟩ := hg
  have hc := C22_aircraft_subarea_corners ac ac' hu h g g1 w hw s hs d hd
  cases mirror with
  | false =>
    rw [hc a.quad] at hv
    cases hv
    exact ⟨_, _, _, _, _, _, hp, rfl⟩
  | true =>
    have hk := symFlag_of_mirrored hv
    have hdef : g.SymmetricDef := by intro p; rw [g1, g2]; rfl
    obtain ⟨m0, m1, m2, m3⟩ := subareaVertices_mirror g hk hdef d a.quad
    obtain ⟨n0, -⟩ := subareaVertices_mirror g hk hdef d
      ⟨1 - a.quad.xsiD, 1 - a.quad.xsiC, 1 - a.quad.xsiB, 1 - a.quad.xsiA⟩
    rw [hc] at m0 n0
    simp only [Except.ok.injEq, Corners.mk.injEq] at m0 n0
    obtain ⟨q1, q2, q3, q4⟩ := m0
    obtain ⟨r1, r2, r3, r4⟩ := n0
    obtain ⟨⟨s1, s2, s3⟩, ⟨i1, i2, i3⟩, o1, o2, o3⟩ := hp
    rcases hk with hk | hk | hk
    · rw [m1 hk, ← q1, ← q2, ← q3, ← q4, hk] at hv
      cases hv
      refine ⟨d.etaA, d.etaB, _, _, _, _, ⟨⟨s1, s2, s3⟩, ⟨i1, i2, i3⟩, o1, o2, o3⟩, ?_⟩
      rw [hk]
      simp only [patch, Corners.onSide, Corners.mk.injEq]
      refine ⟨?_, ?_, ?_, ?_⟩ <;> ext <;> simp [segPoint, reflect, symNormal] <;>
        vsimp <;> ring
    · rw [m2 hk, ← q1, ← q2, ← q3, ← q4, hk] at hv
      cases hv
      refine ⟨1 - d.etaB, 1 - d.etaA, a.quad.xsiB, a.quad.xsiA, a.quad.xsiD, a.quad.xsiC,
        ⟨⟨by linarith, by linarith, by linarith⟩, ⟨o1, o2, o3⟩, i1, i2, i3⟩, ?_⟩
      rw [hk]
      simp only [patch, Corners.onSide, Corners.mk.injEq]
      refine ⟨?_, ?_, ?_, ?_⟩ <;> ext <;> simp [segPoint, reflect, symNormal] <;>
        first | (vsimp; ring) | ring
    · rw [m3 hk, ← r1, ← r2, ← r3, ← r4, hk] at hv
      cases hv
      refine ⟨d.etaA, d.etaB, 1 - a.quad.xsiD, 1 - a.quad.xsiC, 1 - a.quad.xsiB, 1 - a.quad.xsiA,
        ⟨⟨s1, s2, s3⟩, ⟨by linarith, by linarith, by linarith⟩, by linarith, by linarith, by linarith⟩, ?_⟩
      rw [hk]
      simp only [patch, Corners.onSide, Corners.mk.injEq]
      refine ⟨?_, ?_, ?_, ?_⟩ <;> ext <;> simp [segPoint, reflect, symNormal] <;>
        vsimp <;> ring

/-- The normals of a lattice without deflections and camber are those of the panels. -/
theorem plain_normals {ac ac' : PAircraft ℝ} (hu : ac.Unpanelled) (h : prePanelling ac = .ok ac')
    (hn : ac.NumC 0) {env : LatticeEnv} {doRot : Bool} {alpha beta : ℝ}
    (hrot : doRot = true → (∀ w c, (env.deflection w c).1 ∈ [none, some 0] ∧
      (env.deflection w c).2 ∈ [none, some 0]) ∧ ∀ w s eta xsi, env.camber w s eta xsi = 0)
    {l : LatticeData} (hl : genLattice env doRot alpha beta ac' = .ok l) (k : ℤ) :
    l.normal k = (l.pts k).bind PanelPts.finNormal := by
  cases doRot with
  | false =>
    obtain ⟨-, -, -, -, -, k5, -⟩ := genLattice_ok hl
    rw [k5 rfl]
  | true =>
    obtain ⟨r1, r2⟩ := hrot rfl
    exact (C73_no_deflection ac ac' hu h hn env alpha beta r1 r2).2 l hl k

theorem entry_patch {ac ac' : PAircraft ℝ} (hu : ac.Unpanelled) (h : prePanelling ac = .ok ac')
    (hn : ac.NumC 0) {env : LatticeEnv} {doRot : Bool} {alpha beta : ℝ} {l : LatticeData}
    (hl : genLattice env doRot alpha beta ac' = .ok l) {e : BookEntry} (he : e ∈ l.book.entries)
    (hg : (env.geo e.path.wing e.path.seg).isDeformed = false) :
    (e.mirror = true → SymFlag (env.geo e.path.wing e.path.seg).symmetry) ∧
    ∃ e1 e2 xa xb xc xd : ℝ, PatchOk e1 e2 xa xb xc xd ∧ ∀ k : ℕ, (k : ℤ) < e.numC →
      l.pts (e.start + k) = some (panelPts (Coef.of (patch ((env.geo e.path.wing e.path.seg).vertices.onSide
        (env.geo e.path.wing e.path.seg).symmetry e.mirror) e1 e2 xa xb xc xd))
        (trailLeg alpha beta) 1 e.numC k 0) := by
  obtain ⟨-, -, -, hent, -⟩ := lattice_entry hu h hn hl
  obtain ⟨t, ht, hpath, -, v, hv, hpts⟩ := hent e he
  obtain ⟨m1, m2, m3, m4⟩ := mem_allSubareas ht
  have hgeo : env.geo t.2.2.2.1 t.2.2.1.1 = env.geo e.path.wing e.path.seg := by rw [hpath]; rfl
  rw [hgeo] at hv
  obtain ⟨e1, e2, xa, xb, xc, xd, hp, rfl⟩ := subarea_patch hu h m1 m2 m3 m4 hg hv
  refine ⟨fun hm => ?_, e1, e2, xa, xb, xc, xd, hp, hpts⟩
  rw [hm] at hv
  exact symFlag_of_mirrored hv

theorem norm_ne_zero_of_ne {u : V3 ℝ} (h : u ≠ 0) : u.norm ≠ 0 := by
  have := dot_pos_of_ne h
  unfold V3.dot at this
  unfold V3.norm
  exact (Real.sqrt_pos.2 (by nlinarith)).ne'

theorem finNormal_of_dot {g : PanelPts ℝ} {u : V3 ℝ} (h : 0 < g.crossVec.dot u) :
    ∃ n, g.finNormal = some n ∧ n.norm = 1 ∧ 0 < n.dot u := by
  have h0 : g.crossVec ≠ 0 := by
    intro e
    rw [e] at h
    simp [V3.dot] at h
  have h1 := norm_ne_zero_of_ne h0
  refine ⟨g.normal, by unfold PanelPts.finNormal; rw [if_neg h1], normal_norm h1, ?_⟩
  have e : g.normal.dot u = 1 / g.crossVec.norm * g.crossVec.dot u := by
    unfold PanelPts.normal
    generalize g.crossVec = c
    generalize 1 / c.norm = r
    vsimp
    ring
  rw [e]
  have := lt_of_le_of_ne (V3.norm_nonneg g.crossVec) (Ne.symm h1)
  positivity

/-! ## C147 -/

/-- **C147**, same side: all panels of an undeformed segment have unit normals that face the way the
segment does, on either side of the wing. -/
theorem C147_same_side (ac ac' : PAircraft ℝ) (hu : ac.Unpanelled) (h : prePanelling ac = .ok ac')
    (hn : ac.NumC 0) (env : LatticeEnv) (doRot : Bool) (alpha beta : ℝ)
    (hrot : doRot = true → (∀ w c, (env.deflection w c).1 ∈ [none, some 0] ∧
      (env.deflection w c).2 ∈ [none, some 0]) ∧ ∀ w s eta xsi, env.camber w s eta xsi = 0)
    (l : LatticeData) (hl : genLattice env doRot alpha beta ac' = .ok l) :
    ∀ e ∈ l.book.entries, (env.geo e.path.wing e.path.seg).isDeformed = false →
    ∀ u, (env.geo e.path.wing e.path.seg).vertices.Faces u →
    ∀ k : ℕ, (k : ℤ) < e.numC → ∃ n, l.normal (e.start + k) = some n ∧ n.norm = 1 ∧
      (e.mirror = false → 0 < n.dot u) ∧
      (e.mirror = true →
        ((env.geo e.path.wing e.path.seg).symmetry = 2 → 0 < n.dot (reflect ⟨0, 1, 0⟩ u)) ∧
        ((env.geo e.path.wing e.path.seg).symmetry = 1 → 0 < n.dot (-reflect ⟨0, 0, 1⟩ u)) ∧
        ((env.geo e.path.wing e.path.seg).symmetry = 3 → 0 < n.dot (-reflect ⟨1, 0, 0⟩ u))) := by
  intro e he hg u hf k hk
  obtain ⟨hs, e1, e2, xa, xb, xc, xd, hp, hpts⟩ := entry_patch hu h hn hl he hg
  have hf' : ((env.geo e.path.wing e.path.seg).vertices.onSide
      (env.geo e.path.wing e.path.seg).symmetry e.mirror).Faces
      (sideDir (env.geo e.path.wing e.path.seg).symmetry e.mirror u) := by
    cases hm : e.mirror with
    | false => exact hf
    | true => exact hf.onSide _ (hs hm) true
  have hpos := patch_faces hf' hp (trailLeg alpha beta) hk
  obtain ⟨n, n1, n2, n3⟩ := finNormal_of_dot hpos
  refine ⟨n, ?_, n2, fun hm => ?_, fun hm => ⟨fun hy => ?_, fun hy => ?_, fun hy => ?_⟩⟩
  · rw [plain_normals hu h hn hrot hl, hpts k hk, Option.bind_some, n1]
  all_goals
    try rw [hy] at n3
    rw [hm] at n3
    simpa [sideDir, symNormal] using n3

/-- **C147**, plane segments: the normal of all panels of an undeformed plane segment is the segment's
`normal_vector` made a unit vector.  On the mirrored side it is the image of it for the symmetry
plane xz and the opposite of the image for the planes xy and yz. -/
theorem C147_plane_segment (ac ac' : PAircraft ℝ) (hu : ac.Unpanelled) (h : prePanelling ac = .ok ac')
    (hn : ac.NumC 0) (env : LatticeEnv) (doRot : Bool) (alpha beta : ℝ)
    (hrot : doRot = true → (∀ w c, (env.deflection w c).1 ∈ [none, some 0] ∧
      (env.deflection w c).2 ∈ [none, some 0]) ∧ ∀ w s eta xsi, env.camber w s eta xsi = 0)
    (l : LatticeData) (hl : genLattice env doRot alpha beta ac' = .ok l) :
    ∀ e ∈ l.book.entries, (env.geo e.path.wing e.path.seg).isDeformed = false →
    (env.geo e.path.wing e.path.seg).vertices.PlaneShape →
    ∀ N, N = (env.geo e.path.wing e.path.seg).vertices.normalVector →
    ∀ k : ℕ, (k : ℤ) < e.numC →
      (e.mirror = false → l.normal (e.start + k) = some ((1 / N.norm) • N)) ∧
      (e.mirror = true →
        ((env.geo e.path.wing e.path.seg).symmetry = 2 →
          l.normal (e.start + k) = some ((1 / N.norm) • reflect ⟨0, 1, 0⟩ N)) ∧
        ((env.geo e.path.wing e.path.seg).symmetry = 1 →
          l.normal (e.start + k) = some ((1 / N.norm) • -reflect ⟨0, 0, 1⟩ N)) ∧
        ((env.geo e.path.wing e.path.seg).symmetry = 3 →
          l.normal (e.start + k) = some ((1 / N.norm) • -reflect ⟨1, 0, 0⟩ N))) := by
  intro e he hg hf N hN k hk
  obtain ⟨hs, e1, e2, xa, xb, xc, xd, hp, hpts⟩ := entry_patch hu h hn hl he hg
  have ha : (env.geo e.path.wing e.path.seg).vertices.Along N := by rw [hN]; exact hf.along
  have hnorm : N.norm ≠ 0 := by
    rw [hN]
    exact norm_ne_zero_of_ne hf.a
  have hside : ((env.geo e.path.wing e.path.seg).vertices.onSide
      (env.geo e.path.wing e.path.seg).symmetry e.mirror).Along
      (sideDir (env.geo e.path.wing e.path.seg).symmetry e.mirror N) ∧
      (sideDir (env.geo e.path.wing e.path.seg).symmetry e.mirror N).norm = N.norm := by
    cases hm : e.mirror with
    | false => exact ⟨ha, rfl⟩
    | true => exact ⟨ha.onSide _ (hs hm) true, sideDir_norm _ (hs hm) _ _⟩
  have key : l.normal (e.start + k) = some ((1 / N.norm) •
      sideDir (env.geo e.path.wing e.path.seg).symmetry e.mirror N) := by
    rw [plain_normals hu h hn hrot hl, hpts k hk, Option.bind_some,
      patch_along hside.1 (by rw [hside.2]; exact hnorm) hp (trailLeg alpha beta) hk, hside.2]
  refine ⟨fun hm => ?_, fun hm => ⟨fun hy => ?_, fun hy => ?_, fun hy => ?_⟩⟩
  all_goals
    try rw [hy] at key
    rw [hm] at key
    simpa [sideDir, symNormal] using key

/-! ## Non-vacuity -/

/-- A swept and tapered segment with dihedral, in one plane. -/
noncomputable def taperedPlane : Corners (V3 ℝ) :=
  ⟨⟨0, 0, 0⟩, ⟨1, 4, 1⟩, ⟨2, 4, 1⟩, ⟨3, 0, 0⟩⟩

/-- A twisted segment: the outer section is turned nose up. -/
noncomputable def twistedSeg : Corners (V3 ℝ) :=
  ⟨⟨0, 0, 0⟩, ⟨1, 4, 1/5⟩, ⟨2, 4, -1/5⟩, ⟨3, 0, 0⟩⟩

/-- A triangular segment. -/
noncomputable def deltaSeg : Corners (V3 ℝ) :=
  ⟨⟨0, 0, 0⟩, ⟨3, 4, 0⟩, ⟨3, 4, 0⟩, ⟨3, 0, 0⟩⟩

theorem taperedPlane_shape : taperedPlane.PlaneShape ∧ taperedPlane.normalVector = ⟨0, 3, -12⟩ := by
  have e : taperedPlane.normalVector = ⟨0, 3, -12⟩ := by
    unfold taperedPlane Corners.normalVector
    ext <;> vsimp <;> norm_num
  refine ⟨⟨?_, ?_, ?_, ?_, ?_⟩, e⟩
  · rw [e]; unfold taperedPlane; vsimp; norm_num
  · rw [e]; intro h; have := congrArg V3.y h; norm_num at this
  · rw [e]; unfold taperedPlane Corners.normalB; vsimp; norm_num
  · rw [e]; unfold taperedPlane Corners.normalC; vsimp; norm_num
  · rw [e]; unfold taperedPlane Corners.normalD; vsimp; norm_num

theorem deltaSeg_shape : deltaSeg.PlaneShape := by
  have e : deltaSeg.normalVector = ⟨0, 0, -12⟩ := by
    unfold deltaSeg Corners.normalVector
    ext <;> vsimp <;> norm_num
  refine ⟨?_, ?_, ?_, ?_, ?_⟩
  · rw [e]; unfold deltaSeg; vsimp; norm_num
  · rw [e]; intro h; have := congrArg V3.z h; norm_num at this
  · rw [e]; unfold deltaSeg Corners.normalB; vsimp; norm_num
  · rw [e]; unfold deltaSeg Corners.normalC; vsimp; norm_num
  · rw [e]; unfold deltaSeg Corners.normalD; vsimp; norm_num

/-- The twisted segment faces down; it does not lie in a plane. -/
theorem twistedSeg_faces : twistedSeg.Faces ⟨0, 0, -1⟩ ∧
    twistedSeg.normalVector.dot (twistedSeg.c - twistedSeg.a) ≠ 0 := by
  refine ⟨⟨?_, ?_, ?_, ?_, .inl ⟨?_, ?_⟩⟩, ?_⟩ <;>
  · unfold twistedSeg
    try unfold Corners.normalVector
    try unfold Corners.normalB
    try unfold Corners.normalC
    try unfold Corners.normalD
    vsimp
    norm_num

/-- A wing all of whose segments have the given corners; the deflection of its flap is zero. -/
noncomputable def cornersEnv (v : Corners (V3 ℝ)) (sym : ℕ) : LatticeEnv :=
  ⟨fun _ _ => ⟨v, sym, none, none⟩, fun _ _ => (none, some 0), fun _ _ _ _ => 0⟩

theorem cornersEnv_lattice (v : Corners (V3 ℝ)) {sym : ℕ} (hs : SymFlag sym) :
    ∃ l, genLattice (cornersEnv v sym) true 2 0 (flapPanelled sym) = .ok l ∧
      l.book.entries = flapBook := by
  obtain ⟨l, hl⟩ := C76_lattice_generated _ _ (flapAircraft_ok sym).1 (flapAircraft_panelled sym)
    (flapAircraft_ok sym).2 (cornersEnv v sym) true 2 0 (fun _ _ _ => hs)
  obtain ⟨b, hb, h1, -⟩ := flapAircraft_book (sym := sym) (by rcases hs with rfl | rfl | rfl <;> norm_num)
  obtain ⟨-, k1, -⟩ := genLattice_ok hl
  rw [hb] at k1
  cases k1
  exact ⟨l, hl, h1⟩

theorem cornersEnv_plain (v : Corners (V3 ℝ)) (sym : ℕ) : true = true →
    (∀ w c, ((cornersEnv v sym).deflection w c).1 ∈ [none, some 0] ∧
      ((cornersEnv v sym).deflection w c).2 ∈ [none, some 0]) ∧
    ∀ w s eta xsi, (cornersEnv v sym).camber w s eta xsi = 0 :=
  fun _ => ⟨fun _ _ => by simp [cornersEnv], fun _ _ _ _ => rfl⟩

/-- Non-vacuity of `C147_plane_segment`: the tapered wing with a flap, mirrored at the xz plane.  The
flap on the right side and its image on the left side have the normals of the segment and its
image. -/
example : ∃ l, genLattice (cornersEnv taperedPlane 2) true 2 0 (flapPanelled 2) = .ok l ∧
    l.normal 2 = some ((1 / (⟨0, 3, -12⟩ : V3 ℝ).norm) • ⟨0, 3, -12⟩) ∧
    l.normal 3 = some ((1 / (⟨0, 3, -12⟩ : V3 ℝ).norm) • ⟨0, -3, -12⟩) := by
  obtain ⟨l, hl, hb⟩ := cornersEnv_lattice taperedPlane (sym := 2) (.inr (.inl rfl))
  obtain ⟨h1, h2⟩ := taperedPlane_shape
  have key := C147_plane_segment _ _ (flapAircraft_ok 2).1 (flapAircraft_panelled 2) (flapAircraft_ok 2).2
    _ true 2 0 (cornersEnv_plain taperedPlane 2) l hl
  have k2 := key ⟨⟨0, 0, 0, 1⟩, "W", 2, 3, 1, false⟩ (by rw [hb]; simp [flapBook]) rfl h1 _ h2.symm 0
    (by norm_num)
  have k3 := key ⟨⟨0, 0, 0, 1⟩, "W", 3, 4, 1, true⟩ (by rw [hb]; simp [flapBook]) rfl h1 _ h2.symm 0
    (by norm_num)
  refine ⟨l, hl, by simpa using k2.1 rfl, ?_⟩
  have e : reflect ⟨0, 1, 0⟩ (⟨0, 3, -12⟩ : V3 ℝ) = ⟨0, -3, -12⟩ := by
    unfold reflect
    ext <;> vsimp <;> norm_num
  rw [← e]
  simpa using (k3.2 rfl).1 rfl

/-- Non-vacuity of `C147_same_side`: the panel on the twisted segment faces down. -/
example : ∃ l, genLattice (cornersEnv twistedSeg 1) true 2 0 (flapPanelled 1) = .ok l ∧
    ∃ n, l.normal 0 = some n ∧ n.norm = 1 ∧ 0 < n.dot ⟨0, 0, -1⟩ := by
  obtain ⟨l, hl, hb⟩ := cornersEnv_lattice twistedSeg (sym := 1) (.inl rfl)
  obtain ⟨n, h1, h2, h3, -⟩ := C147_same_side _ _ (flapAircraft_ok 1).1 (flapAircraft_panelled 1)
    (flapAircraft_ok 1).2 _ true 2 0 (cornersEnv_plain twistedSeg 1) l hl
    ⟨⟨0, 0, 0, 0⟩, "W", 0, 1, 1, false⟩ (by rw [hb]; simp [flapBook]) rfl _ twistedSeg_faces.1 0
    (by norm_num)
  exact ⟨l, hl, n, by simpa using h1, h2, h3 rfl⟩

end Verif
