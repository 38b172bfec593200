import Verif.Lemmas.Geometry
import Verif.Props.PrePanel
import Verif.Model.Book
import Mathlib.Data.Fin.VecNotation

/-!
# Properties C08, C19–C24: geometry of segments, mirroring, deformation
-/

set_option linter.unusedSectionVars false

namespace Verif

open V3

/-! ## Specification -/

section Spec
variable {K : Type*} [Field K]

/-- Unit normal of the symmetry plane with flag `k`: 1 is the x-y plane, 2 the x-z plane, 3 the
y-z plane. -/
def symNormal (k : ℕ) : V3 K := if k = 1 then ⟨0, 0, 1⟩ else if k = 2 then ⟨0, 1, 0⟩ else ⟨1, 0, 0⟩

/-- Reflection in the plane through the origin with unit normal `n`. -/
def reflect (n p : V3 K) : V3 K := p - (2 * p.dot n) • n

/-- Valid symmetry flag of a symmetric wing. -/
def SymFlag (k : ℕ) : Prop := k = 1 ∨ k = 2 ∨ k = 3

/-- The four corner points. -/
def Corners.list {P : Type*} (v : Corners P) : List P := [v.a, v.b, v.c, v.d]

/-- The designed (undeformed) wing. -/
def GeoEnv.designed (g : GeoEnv K) : GeoEnv K :=
  { g with defField := none, defFieldMirror := none }

/-- Where a point goes under an optional deformation. -/
def displaced (f : Option (DefField K)) (p : V3 K) : V3 K :=
  match f with
  | none => p
  | some f => f p

/-- The deformation of the mirrored half is the mirror image of the deformation of the original
half (in particular: no deformation at all). -/
def GeoEnv.SymmetricDef (g : GeoEnv K) : Prop :=
  ∀ p, displaced g.defFieldMirror (reflect (symNormal g.symmetry) p) =
    reflect (symNormal g.symmetry) (displaced g.defField p)

/-- Squared distance. -/
def distSq (p q : V3 K) : K := (p - q).dot (p - q)

end Spec

/-- Seen along its normal `ab × ad`, the outline a-b-c-d of a segment turns the same way at all
four corners. -/
structure ConvexOutline (v : Corners (V3 ℝ)) : Prop where
  at_a : 0 < ((v.b - v.a).cross (v.d - v.a)).dot ((v.b - v.a).cross (v.d - v.a))
  at_b : 0 < ((v.b - v.a).cross (v.d - v.a)).dot ((v.c - v.b).cross (v.a - v.b))
  at_c : 0 < ((v.b - v.a).cross (v.d - v.a)).dot ((v.d - v.c).cross (v.b - v.c))
  at_d : 0 < ((v.b - v.a).cross (v.d - v.a)).dot ((v.a - v.d).cross (v.c - v.d))

/-- The fourth corner is in the plane of the others (no twist). -/
def Planar (v : Corners (V3 ℝ)) : Prop :=
  ((v.b - v.a).cross (v.d - v.a)).dot (v.c - v.a) = 0

/-! ## C08 -/

theorem ConvexOutline.jac_pos {v : Corners (V3 ℝ)} (h : ConvexOutline v) {x e : ℝ}
    (hx : 0 ≤ x ∧ x ≤ 1) (he : 0 ≤ e ∧ e ≤ 1) : 0 < jac v x e := by
  refine Verif.jac_pos ?_ ?_ ?_ ?_ hx he
  · have := h.at_a
    have e : jac v 0 0 = ((v.b - v.a).cross (v.d - v.a)).dot ((v.b - v.a).cross (v.d - v.a)) := by
      unfold jac br
      vsimp; ring
    rwa [e]
  · have := h.at_b
    have e : jac v 0 1 = ((v.b - v.a).cross (v.d - v.a)).dot ((v.c - v.b).cross (v.a - v.b)) := by
      unfold jac br
      generalize (v.b - v.a).cross (v.d - v.a) = N at *
      vsimp; ring
    rwa [e]
  · have := h.at_d
    have e : jac v 1 0 = ((v.b - v.a).cross (v.d - v.a)).dot ((v.a - v.d).cross (v.c - v.d)) := by
      unfold jac br
      generalize (v.b - v.a).cross (v.d - v.a) = N at *
      vsimp; ring
    rwa [e]
  · have := h.at_c
    have e : jac v 1 1 = ((v.b - v.a).cross (v.d - v.a)).dot ((v.d - v.c).cross (v.b - v.c)) := by
      unfold jac br
      generalize (v.b - v.a).cross (v.d - v.a) = N at *
      vsimp; ring
    rwa [e]

theorem interp_den_pos {v : Corners (V3 ℝ)} (hv : ConvexOutline v) {eI xI eO xO e : ℝ}
    (hxI : 0 ≤ xI ∧ xI ≤ 1) (hxO : 0 ≤ xO ∧ xO ≤ 1) (hI : 0 ≤ eI) (hO : eO ≤ 1)
    (hIO : eI < eO) (h1 : eI ≤ e) (h2 : e ≤ eO) :
    0 < (eO - e) * jac v xO e + (e - eI) * jac v xI e := by
  have he : 0 ≤ e ∧ e ≤ 1 := ⟨hI.trans h1, h2.trans hO⟩
  have jI := hv.jac_pos hxI he
  have jO := hv.jac_pos hxO he
  rcases h1.eq_or_lt with h | h
  · have := mul_pos (sub_pos.2 (h ▸ hIO : e < eO)) jO
    have := mul_nonneg (sub_nonneg.2 h1) jI.le
    linarith
  · have := mul_pos (sub_pos.2 h) jI
    have := mul_nonneg (sub_nonneg.2 h2) jO.le
    linarith

/-- **C08**, well-posedness: the plane through the chord line at `eta` is not parallel to the
device edge and the chord line has positive length, so that no division by zero occurs; twisted
segments included. -/
theorem C08_well_posed (v : Corners (V3 ℝ)) (hv : ConvexOutline v) (eI xI eO xO e : ℝ)
    (hxI : 0 ≤ xI ∧ xI ≤ 1) (hxO : 0 ≤ xO ∧ xO ≤ 1) (hI : 0 ≤ eI) (hO : eO ≤ 1)
    (hIO : eI < eO) (h1 : eI ≤ e) (h2 : e ≤ eO) :
    (((v.b - v.a).cross (v.d - v.a)).cross (segPoint v e 1 - segPoint v e 0)).dot
      (segPoint v eI xI - segPoint v eO xO) ≠ 0 ∧
    (segPoint v e 1 - segPoint v e 0).norm ≠ 0 := by
  refine ⟨?_, (norm_pos (chord_ne_zero
    (hv.jac_pos hxI ⟨hI.trans h1, h2.trans hO⟩))).ne'⟩
  rw [interp_den]
  have := interp_den_pos hv hxI hxO hI hO hIO h1 h2
  have e' : (eO - e) * jac v xO e - (eI - e) * jac v xI e =
    (eO - e) * jac v xO e + (e - eI) * jac v xI e := by ring
  rw [e']
  exact this.ne'

/-- **C08**, ends: at the inner (outer) end of the device edge the result is the given inner
(outer) chord position; twisted segments included. -/
theorem C08_ends (v : Corners (V3 ℝ)) (hv : ConvexOutline v) (eI xI eO xO : ℝ)
    (hxI : 0 ≤ xI ∧ xI ≤ 1) (hxO : 0 ≤ xO ∧ xO ≤ 1) (hI : 0 ≤ eI) (hO : eO ≤ 1) (hIO : eI < eO) :
    xsiInterpol v (eI, xI) (eO, xO) eI = xI ∧ xsiInterpol v (eI, xI) (eO, xO) eO = xO := by
  have hI1 : 0 ≤ eI ∧ eI ≤ 1 := ⟨hI, hIO.le.trans hO⟩
  have hO1 : 0 ≤ eO ∧ eO ≤ 1 := ⟨hI.trans hIO.le, hO⟩
  constructor
  · have hn := norm_pos (chord_ne_zero (hv.jac_pos hxI hI1))
    rw [xsiInterpol_eq, interpPoint_eq, interpParam]
    have : segPoint v eI xI + ((eI - eI) * jac v xI eI /
        ((eO - eI) * jac v xO eI + (eI - eI) * jac v xI eI)) •
          (segPoint v eO xO - segPoint v eI xI) - segPoint v eI 0 =
        xI • (segPoint v eI 1 - segPoint v eI 0) := by
      rw [sub_self, zero_mul, zero_div]
      simp only [segPoint_eq]
      ext <;> vsimp <;> ring
    rw [this, norm_smul, abs_of_nonneg hxI.1]
    field_simp
  · have jI := hv.jac_pos hxI hO1
    have hn := norm_pos (chord_ne_zero (hv.jac_pos hxO hO1))
    rw [xsiInterpol_eq, interpPoint_eq, interpParam]
    have h1 : (eO - eI) * jac v xI eO /
        ((eO - eO) * jac v xO eO + (eO - eI) * jac v xI eO) = 1 := by
      rw [sub_self, zero_mul, zero_add]
      exact div_self (mul_pos (sub_pos.2 hIO) jI).ne'
    have : segPoint v eI xI + (1 : ℝ) •
          (segPoint v eO xO - segPoint v eI xI) - segPoint v eO 0 =
        xO • (segPoint v eO 1 - segPoint v eO 0) := by
      simp only [segPoint_eq]
      ext <;> vsimp <;> ring
    rw [h1, this, norm_smul, abs_of_nonneg hxO.1]
    field_simp

/-- **C08**: on a planar convex segment the interpolated position lies on the straight line from
the inner to the outer end of the device edge (`t` is the fraction of the way) and between the two
given chord positions; inside the edge it is strictly between them if they differ. -/
theorem C08_between (v : Corners (V3 ℝ)) (hv : ConvexOutline v) (hp : Planar v)
    (eI xI eO xO e : ℝ) (hxI : 0 ≤ xI ∧ xI ≤ 1) (hxO : 0 ≤ xO ∧ xO ≤ 1)
    (hI : 0 ≤ eI) (hO : eO ≤ 1) (hIO : eI < eO) (h1 : eI ≤ e) (h2 : e ≤ eO) :
    let x := xsiInterpol v (eI, xI) (eO, xO) e
    (∃ t : ℝ, 0 ≤ t ∧ t ≤ 1 ∧ segPoint v e x =
      segPoint v eI xI + t • (segPoint v eO xO - segPoint v eI xI)) ∧
    min xI xO ≤ x ∧ x ≤ max xI xO ∧
    (eI < e → e < eO → xI ≠ xO → min xI xO < x ∧ x < max xI xO) := by
  intro x
  have he : 0 ≤ e ∧ e ≤ 1 := ⟨hI.trans h1, h2.trans hO⟩
  have jI := hv.jac_pos hxI he
  have jO := hv.jac_pos hxO he
  have jIO := hv.jac_pos hxI ⟨hI.trans hIO.le, hO⟩
  have jOI := hv.jac_pos hxO ⟨hI, hIO.le.trans hO⟩
  have hden := interp_den_pos hv hxI hxO hI hO hIO h1 h2
  have hD := chord_ne_zero jI
  have hn := norm_pos hD
  have hN : (v.b - v.a).cross (v.d - v.a) ≠ 0 := by
    intro h0
    have := hv.at_a
    rw [h0] at this
    clear hp hD
    vsimp
    simp at this
  obtain ⟨l, hl, hlI, hlO⟩ := chord_coordinate hp hden.ne' hN hD
  set t := interpParam v eI xI eO xO e with ht
  have t0 : 0 ≤ t := div_nonneg (mul_nonneg (sub_nonneg.2 h1) jI.le) hden.le
  have t1 : t ≤ 1 := by
    rw [ht, interpParam, div_le_one hden]
    have := mul_nonneg (sub_nonneg.2 h2) jO.le
    linarith
  have eqI : l - xI = t * (xO - xI) * (jac v xI eO / jac v xI e) := by
    field_simp; linarith
  have eqO : l - xO = (1 - t) * (xI - xO) * (jac v xO eI / jac v xO e) := by
    field_simp; linarith
  have rI : 0 < jac v xI eO / jac v xI e := div_pos jIO jI
  have rO : 0 < jac v xO eI / jac v xO e := div_pos jOI jO
  have hmin : min xI xO ≤ l ∧ l ≤ max xI xO := by
    rcases le_total xI xO with h | h
    · have a1 := mul_nonneg (mul_nonneg t0 (sub_nonneg.2 h)) rI.le
      have a2 := mul_nonneg (mul_nonneg (sub_nonneg.2 t1) (sub_nonneg.2 h)) rO.le
      rw [min_eq_left h, max_eq_right h]
      constructor
      · linarith
      · have : (1 - t) * (xI - xO) * (jac v xO eI / jac v xO e) =
          -((1 - t) * (xO - xI) * (jac v xO eI / jac v xO e)) := by ring
        linarith
    · have a1 := mul_nonneg (mul_nonneg t0 (sub_nonneg.2 h)) rI.le
      have a2 := mul_nonneg (mul_nonneg (sub_nonneg.2 t1) (sub_nonneg.2 h)) rO.le
      rw [min_eq_right h, max_eq_left h]
      constructor
      · linarith
      · have : t * (xO - xI) * (jac v xI eO / jac v xI e) =
          -(t * (xI - xO) * (jac v xI eO / jac v xI e)) := by ring
        linarith
  have l0 : 0 ≤ l := (le_min hxI.1 hxO.1).trans hmin.1
  have hx : x = l := by
    show xsiInterpol v (eI, xI) (eO, xO) e = l
    rw [xsiInterpol_eq, hl, norm_smul, abs_of_nonneg l0]
    field_simp
  refine ⟨⟨t, t0, t1, ?_⟩, hx ▸ hmin.1, hx ▸ hmin.2, ?_⟩
  · rw [hx, ← interpPoint_eq]
    have : interpPoint v eI xI eO xO e = segPoint v e 0 + l • (segPoint v e 1 - segPoint v e 0) := by
      rw [← hl]; ext <;> simp
    rw [this]
    simp only [segPoint_eq]
    clear hl hp hD hN
    ext <;> vsimp <;> ring
  · intro g1 g2 hne
    have t0' : 0 < t := div_pos (mul_pos (sub_pos.2 g1) jI) hden
    have t1' : 0 < 1 - t := by
      rw [ht, interpParam, sub_pos, div_lt_one hden]
      have := mul_pos (sub_pos.2 g2) jO
      linarith
    rw [hx]
    rcases lt_or_gt_of_ne hne with h | h
    · have a1 := mul_pos (mul_pos t0' (sub_pos.2 h)) rI
      have a2 := mul_pos (mul_pos t1' (sub_pos.2 h)) rO
      rw [min_eq_left h.le, max_eq_right h.le]
      constructor
      · linarith
      · have : (1 - t) * (xI - xO) * (jac v xO eI / jac v xO e) =
          -((1 - t) * (xO - xI) * (jac v xO eI / jac v xO e)) := by ring
        linarith
    · have a1 := mul_pos (mul_pos t0' (sub_pos.2 h)) rI
      have a2 := mul_pos (mul_pos t1' (sub_pos.2 h)) rO
      rw [min_eq_right h.le, max_eq_left h.le]
      constructor
      · linarith
      · have : t * (xO - xI) * (jac v xI eO / jac v xI e) =
          -(t * (xI - xO) * (jac v xI eO / jac v xI e)) := by ring
        linarith

/-- A swept, tapered wing segment with dihedral. -/
def taperedSeg {K : Type*} [Field K] : Corners (V3 K) :=
  ⟨⟨0, 0, 0⟩, ⟨1, 4, 1⟩, ⟨2, 4, 1⟩, ⟨2, 0, 0⟩⟩

/-- The hypotheses of C08 hold for the tapered segment ... -/
example : ConvexOutline taperedSeg ∧ Planar taperedSeg := by
  refine ⟨⟨?_, ?_, ?_, ?_⟩, ?_⟩ <;> simp only [taperedSeg, Planar] <;> vsimp <;> norm_num

/-- ... and those of `C08_ends` for the same segment with a twisted tip. -/
example : ConvexOutline ⟨⟨0, 0, 0⟩, ⟨1, 4, 1⟩, ⟨2, 4, 4/5⟩, ⟨2, 0, 0⟩⟩ ∧
    ¬ Planar ⟨⟨0, 0, 0⟩, ⟨1, 4, 1⟩, ⟨2, 4, 4/5⟩, ⟨2, 0, 0⟩⟩ := by
  refine ⟨⟨?_, ?_, ?_, ?_⟩, ?_⟩ <;> simp only [Planar] <;> vsimp <;> norm_num

section generic
variable {K : Type*} [Field K]

/-! ## C19 -/

theorem mirrorPoint_eq (p : V3 K) {k : ℕ} (hk : SymFlag k) :
    mirrorPoint p k = .ok (reflect (symNormal k) p) := by
  rcases hk with rfl | rfl | rfl <;> simp only [mirrorPoint, symNormal, reflect] <;> norm_num <;>
    (ext <;> vsimp <;> ring)

/-- **C19**: mirroring is the reflection in the plane of the flag; other flags raise
`ValueError`. -/
theorem C19_mirror_is_reflection (p : V3 K) (k : ℕ) :
    (SymFlag k → mirrorPoint p k = .ok (reflect (symNormal k) p)) ∧
    (¬ SymFlag k → mirrorPoint p k = .error .valueError) := by
  refine ⟨fun hk => mirrorPoint_eq p hk, fun hk => ?_⟩
  simp only [SymFlag, not_or] at hk
  simp [mirrorPoint, hk]

/-- **C19**: mirroring twice gives the point back, distances are preserved, and exactly the
points of the symmetry plane stay fixed. -/
theorem C19_mirror_involution [CharZero K] (p q p' q' : V3 K) (k : ℕ)
    (hp : mirrorPoint p k = .ok p') (hq : mirrorPoint q k = .ok q') :
    mirrorPoint p' k = .ok p ∧ distSq p' q' = distSq p q ∧
    (p' = p ↔ (k = 1 ∧ p.z = 0) ∨ (k = 2 ∧ p.y = 0) ∨ (k = 3 ∧ p.x = 0)) := by
  by_cases hk : SymFlag k
  · have h0 : ∀ x : K, -x = x ↔ x = 0 := fun x => by
      constructor
      · intro h
        have : (2 : K) * x = 0 := by linear_combination -h
        simpa using this
      · rintro rfl; simp
    rcases hk with rfl | rfl | rfl <;> simp [mirrorPoint] at hp hq <;> subst hp <;> subst hq <;>
      refine ⟨by simp [mirrorPoint], by simp only [distSq]; vsimp; ring, ?_⟩ <;>
      simp [V3.ext_iff, h0]
  · rw [(C19_mirror_is_reflection p k).2 hk] at hp
    cases hp

example : mirrorPoint (⟨1, 2, 3⟩ : V3 ℚ) 2 = .ok ⟨1, -2, 3⟩ ∧
    (mirrorPoint (⟨1, 2, 3⟩ : V3 ℚ) 4).toOption = none := by decide

/-! ## C20 -/

theorem reflect_affine (n a d : V3 K) (x : K) :
    reflect n (a + x • (d - a)) = reflect n a + x • (reflect n d - reflect n a) := by
  unfold reflect
  ext <;> vsimp <;> ring

theorem deformedPoint_eq (g : GeoEnv K) (e x : K) :
    g.deformedPoint e x false = .ok (displaced g.defField (segPoint g.vertices e x)) := by
  unfold GeoEnv.deformedPoint displaced
  cases g.defField <;> simp

theorem deformedPoint_mirror_eq (g : GeoEnv K) (hk : SymFlag g.symmetry) (e x : K) :
    g.deformedPoint e x true =
      .ok (displaced g.defFieldMirror (reflect (symNormal g.symmetry)
        (segPoint g.vertices e x))) := by
  unfold GeoEnv.deformedPoint displaced
  simp only [if_true, mirrorPoint_eq _ hk]
  cases g.defFieldMirror <;> rfl

/-- corners of a strip of the original half -/
def stripCorners (g : GeoEnv K) (s : Strip K) : Corners (V3 K) :=
  ⟨displaced g.defField (segPoint g.vertices s.etaA 0),
   displaced g.defField (segPoint g.vertices s.etaB 0),
   displaced g.defField (segPoint g.vertices s.etaC 1),
   displaced g.defField (segPoint g.vertices s.etaD 1)⟩

theorem segPoint_zero (v : Corners (V3 K)) (e : K) :
    segPoint v e 0 = v.a + e • (v.b - v.a) := by
  unfold segPoint; ext <;> vsimp <;> ring

theorem segPoint_one (v : Corners (V3 K)) (e : K) :
    segPoint v e 1 = v.d + e • (v.c - v.d) := by
  unfold segPoint; ext <;> vsimp <;> ring

theorem not_isDeformed {g : GeoEnv K} (h : ¬ g.isDeformed) :
    g.defField = none ∧ g.defFieldMirror = none := by
  unfold GeoEnv.isDeformed at h
  cases h1 : g.defField <;> cases h2 : g.defFieldMirror <;> simp [h1, h2] at h ⊢

theorem absVertices_eq (g : GeoEnv K) (s : Strip K) :
    s.absVertices g false = .ok (stripCorners g s) := by
  unfold Strip.absVertices
  split
  · simp [Corners.mapE, deformedPoint_eq, stripCorners]
  · rename_i h
    obtain ⟨h1, h2⟩ := not_isDeformed h
    simp [stripCorners, displaced, h1, segPoint_zero, segPoint_one]

/-- corners of a strip of the mirrored half before reordering -/
def stripCornersMirror (g : GeoEnv K) (s : Strip K) : Corners (V3 K) :=
  let f := fun p => displaced g.defFieldMirror (reflect (symNormal g.symmetry) p)
  ⟨f (segPoint g.vertices s.etaA 0), f (segPoint g.vertices s.etaB 0),
   f (segPoint g.vertices s.etaC 1), f (segPoint g.vertices s.etaD 1)⟩

theorem absVertices_mirror_eq (g : GeoEnv K) (hk : SymFlag g.symmetry) (s : Strip K) :
    s.absVertices g true = orderMirrored (stripCornersMirror g s) g.symmetry := by
  unfold Strip.absVertices
  split
  · simp [Corners.mapE, deformedPoint_mirror_eq g hk, stripCornersMirror]
  · rename_i h
    obtain ⟨h1, h2⟩ := not_isDeformed h
    simp [mirrorVertices, Corners.mapE, stripCornersMirror, displaced, h2, segPoint_zero,
      segPoint_one, mirrorPoint_eq _ hk]

/-- The mirrored corners for each symmetry plane, for a symmetric (or no) deformation.  `M` is the
reflection. -/
theorem subareaVertices_mirror (g : GeoEnv K) (hk : SymFlag g.symmetry) (hd : g.SymmetricDef)
    (s : Strip K) (q : Quad K) :
    let M := reflect (symNormal g.symmetry)
    let S := stripCorners g s
    subareaVertices g s q false = .ok
      ⟨S.a + q.xsiA • (S.d - S.a), S.b + q.xsiB • (S.c - S.b),
       S.b + q.xsiC • (S.c - S.b), S.a + q.xsiD • (S.d - S.a)⟩ ∧
    (g.symmetry = 1 → subareaVertices g s q true = .ok
      ⟨M (S.a + q.xsiA • (S.d - S.a)), M (S.b + q.xsiB • (S.c - S.b)),
       M (S.b + q.xsiC • (S.c - S.b)), M (S.a + q.xsiD • (S.d - S.a))⟩) ∧
    (g.symmetry = 2 → subareaVertices g s q true = .ok
      ⟨M (S.b + q.xsiB • (S.c - S.b)), M (S.a + q.xsiA • (S.d - S.a)),
       M (S.a + q.xsiD • (S.d - S.a)), M (S.b + q.xsiC • (S.c - S.b))⟩) ∧
    (g.symmetry = 3 → subareaVertices g s q true = .ok
      ⟨M (S.a + (1 - q.xsiD) • (S.d - S.a)), M (S.b + (1 - q.xsiC) • (S.c - S.b)),
       M (S.b + (1 - q.xsiB) • (S.c - S.b)), M (S.a + (1 - q.xsiA) • (S.d - S.a))⟩) := by
  intro M S
  have hM : stripCornersMirror g s = ⟨M S.a, M S.b, M S.c, M S.d⟩ := by
    simp only [stripCornersMirror, hd _, M, S, stripCorners]
  refine ⟨?_, ?_, ?_, ?_⟩
  · simp [subareaVertices, absVertices_eq, S]
  · intro h
    rw [subareaVertices, absVertices_mirror_eq g hk, hM, h]
    simp [orderMirrored, M, reflect_affine]
  · intro h
    rw [subareaVertices, absVertices_mirror_eq g hk, hM, h]
    simp [orderMirrored, M, reflect_affine]
  · intro h
    rw [subareaVertices, absVertices_mirror_eq g hk, hM, h]
    simp only [orderMirrored, M, reflect_affine]
    norm_num
    refine ⟨?_, ?_, ?_, ?_⟩ <;> (ext <;> vsimp <;> ring)

/-- Full statement of **C20** for one symmetry flag. -/
def MirroredSubareas (K : Type*) [Field K] (k : ℕ) : Prop :=
  ∀ (g : GeoEnv K) (s : Strip K) (q : Quad K), g.symmetry = k → g.SymmetricDef →
    ∃ v w, subareaVertices g s q false = .ok v ∧ subareaVertices g s q true = .ok w ∧
      w.list.Perm (v.list.map (reflect (symNormal k)))

/-- **C20** (partial): for the flags 1 and 2 the mirrored corners are the mirror images of the
corners, for each strip and each subarea, undeformed or symmetrically deformed.  Missing: flag 3,
where the claim is false for devices, see below. -/
theorem C20_mirror_image_partial : MirroredSubareas K 1 ∧ MirroredSubareas K 2 := by
  constructor
  · intro g s q h hd
    obtain ⟨h0, h1, -, -⟩ := subareaVertices_mirror g (.inl h) hd s q
    refine ⟨_, _, h0, h1 h, ?_⟩
    rw [h]
    exact List.Perm.refl _
  · intro g s q h hd
    obtain ⟨h0, -, h1, -⟩ := subareaVertices_mirror g (.inr (.inl h)) hd s q
    refine ⟨_, _, h0, h1 h, ?_⟩
    rw [h]
    simp only [Corners.list, List.map_cons, List.map_nil]
    exact (List.Perm.swap _ _ _).trans
      (List.Perm.cons _ (List.Perm.cons _ (List.Perm.swap _ _ _)))

/-- **C20** for the flag 3: the mirrored subarea is the mirror image of the subarea with the
chord positions counted from the trailing edge instead of the leading edge; hence it is right for
strips without devices ... -/
theorem C20_mirror_image_yz (g : GeoEnv K) (s : Strip K) (q : Quad K) (h : g.symmetry = 3)
    (hd : g.SymmetricDef) :
    ∃ v w, subareaVertices g s ⟨1 - q.xsiA, 1 - q.xsiB, 1 - q.xsiC, 1 - q.xsiD⟩ false = .ok v ∧
      subareaVertices g s q true = .ok w ∧
      w.list.Perm (v.list.map (reflect (symNormal 3))) := by
  obtain ⟨-, -, -, h1⟩ := subareaVertices_mirror g (.inr (.inr h)) hd s q
  obtain ⟨h0, -⟩ := subareaVertices_mirror g (.inr (.inr h)) hd s
    ⟨1 - q.xsiA, 1 - q.xsiB, 1 - q.xsiC, 1 - q.xsiD⟩
  refine ⟨_, _, h0, h1 h, ?_⟩
  rw [h]
  simp only [Corners.list, List.map_cons, List.map_nil]
  exact List.reverse_perm [_, _, _, _]

/-- ... and for them the corners are in place: -/
theorem C20_mirror_image_yz_full_chord_partial (g : GeoEnv K) (s : Strip K) (h : g.symmetry = 3)
    (hd : g.SymmetricDef) :
    ∃ v w, subareaVertices g s ⟨0, 0, 1, 1⟩ false = .ok v ∧
      subareaVertices g s ⟨0, 0, 1, 1⟩ true = .ok w ∧
      w.list = v.list.map (reflect (symNormal 3)) := by
  obtain ⟨h0, -, -, h1⟩ := subareaVertices_mirror g (.inr (.inr h)) hd s ⟨0, 0, 1, 1⟩
  refine ⟨_, _, h0, h1 h, ?_⟩
  rw [h]
  simp [Corners.list]

end generic

/-- A flap from 70 % chord on a wing which is mirrored in the y-z plane. -/
def flapStrip : Strip ℚ :=
  { etaA := 0, etaB := 1, etaC := 1, etaD := 0, main := ⟨0, 0, 7/10, 7/10⟩, slat := none,
    flap := some { xsiA := 7/10, xsiB := 7/10, xsiC := 1, xsiD := 1, h1 := 7/10, h2 := 7/10,
                   ctrl := ⟨"flap", "flap"⟩ },
    keys := ["main", "flap"] }

/-- An undeformed segment on a wing with the given symmetry. -/
def demoEnv (k : ℕ) : GeoEnv ℚ := ⟨taperedSeg, k, none, none⟩

theorem demoEnv_sym (k : ℕ) : (demoEnv k).SymmetricDef := by
  intro p; simp [demoEnv, displaced]

/-- **C20** is *false* for the flag 3: the flap at 70-100 % chord is mirrored to a flap at
0-30 % chord. -/
theorem C20_mirror_image_yz_false : ¬ MirroredSubareas ℚ 3 := by
  intro h
  obtain ⟨v, w, hv, hw, hp⟩ :=
    h (demoEnv 3) flapStrip ⟨7/10, 7/10, 1, 1⟩ rfl (demoEnv_sym 3)
  have hv' : subareaVertices (demoEnv 3) flapStrip ⟨7/10, 7/10, 1, 1⟩ false =
      .ok ⟨⟨7/5, 0, 0⟩, ⟨17/10, 4, 1⟩, ⟨2, 4, 1⟩, ⟨2, 0, 0⟩⟩ := by decide +kernel
  have hw' : subareaVertices (demoEnv 3) flapStrip ⟨7/10, 7/10, 1, 1⟩ true =
      .ok ⟨⟨0, 0, 0⟩, ⟨-1, 4, 1⟩, ⟨-13/10, 4, 1⟩, ⟨-3/5, 0, 0⟩⟩ := by decide +kernel
  rw [hv'] at hv; cases hv
  rw [hw'] at hw; cases hw
  have := (hp.mem_iff (a := (⟨0, 0, 0⟩ : V3 ℚ))).1 (by decide)
  revert this
  decide +kernel

/-- Non-vacuity: the flap on a wing which is mirrored in the x-z plane. -/
example : (subareaVertices (demoEnv 2) flapStrip ⟨7/10, 7/10, 1, 1⟩ true) =
      .ok ⟨⟨17/10, -4, 1⟩, ⟨7/5, 0, 0⟩, ⟨2, 0, 0⟩, ⟨2, -4, 1⟩⟩ := by decide +kernel

section generic
variable {K : Type*} [Field K]

/-! ## C21 -/

/-- Full statement of **C21** for one symmetry flag. -/
def MirroredHinges (K : Type*) [Field K] (k : ℕ) : Prop :=
  ∀ (g : GeoEnv K) (s : Strip K) (h1 h2 : K), g.symmetry = k → g.SymmetricDef →
    ∃ p q : V3 K × V3 K, hingeVertices g s h1 h2 false = .ok p ∧
      hingeVertices g s h1 h2 true = .ok q ∧
      [q.1, q.2].Perm ([p.1, p.2].map (reflect (symNormal k)))

theorem hingeVertices_mirror (g : GeoEnv K) (hk : SymFlag g.symmetry) (hd : g.SymmetricDef)
    (s : Strip K) (h1 h2 : K) :
    let M := reflect (symNormal g.symmetry)
    let S := stripCorners g s
    hingeVertices g s h1 h2 false = .ok (S.a + h1 • (S.d - S.a), S.b + h2 • (S.c - S.b)) ∧
    (g.symmetry = 1 → hingeVertices g s h1 h2 true = .ok
      (M (S.a + h1 • (S.d - S.a)), M (S.b + h2 • (S.c - S.b)))) ∧
    (g.symmetry = 2 → hingeVertices g s h1 h2 true = .ok
      (M (S.b + h2 • (S.c - S.b)), M (S.a + h1 • (S.d - S.a)))) ∧
    (g.symmetry = 3 → hingeVertices g s h1 h2 true = .ok
      (M (S.a + (1 - h1) • (S.d - S.a)), M (S.b + (1 - h2) • (S.c - S.b)))) := by
  intro M S
  have hM : stripCornersMirror g s = ⟨M S.a, M S.b, M S.c, M S.d⟩ := by
    simp only [stripCornersMirror, hd _, M, S, stripCorners]
  refine ⟨?_, ?_, ?_, ?_⟩
  · simp [hingeVertices, absVertices_eq, S]
  · intro h
    rw [hingeVertices, absVertices_mirror_eq g hk, hM, h]
    simp [orderMirrored, M, reflect_affine]
  · intro h
    rw [hingeVertices, absVertices_mirror_eq g hk, hM, h]
    simp [orderMirrored, M, reflect_affine]
  · intro h
    rw [hingeVertices, absVertices_mirror_eq g hk, hM, h]
    simp only [orderMirrored, M, reflect_affine]
    norm_num
    refine ⟨?_, ?_⟩ <;> (ext <;> vsimp <;> ring)

/-- **C21** (partial): right for the flags 1 and 2.  Missing: flag 3 (false, see below). -/
theorem C21_mirror_hinge_partial : MirroredHinges K 1 ∧ MirroredHinges K 2 := by
  constructor
  · intro g s h1 h2 h hd
    obtain ⟨e0, e1, -, -⟩ := hingeVertices_mirror g (.inl h) hd s h1 h2
    refine ⟨_, _, e0, e1 h, ?_⟩
    rw [h]
    exact List.Perm.refl _
  · intro g s h1 h2 h hd
    obtain ⟨e0, -, e1, -⟩ := hingeVertices_mirror g (.inr (.inl h)) hd s h1 h2
    refine ⟨_, _, e0, e1 h, ?_⟩
    rw [h]
    exact List.Perm.swap _ _ _

/-- The hinge *axis* (about which control deflections turn the panel normals): for the flag 1 it
is the mirror image of the axis, for the flag 2 the mirror image taken in the opposite sense (from
outboard to inboard), so that on both halves the axis points the same way along y. -/
theorem C21_mirror_axis (g : GeoEnv K) (hd : g.SymmetricDef) (s : Strip K) (h1 h2 : K)
    (ax axM : V3 K) (h : hingeAxis g s h1 h2 false = .ok ax)
    (hm : hingeAxis g s h1 h2 true = .ok axM) :
    (g.symmetry = 1 → axM = reflect (symNormal 1) ax) ∧
    (g.symmetry = 2 → axM = -reflect (symNormal 2) ax) := by
  constructor
  · intro hk
    obtain ⟨e0, e1, -, -⟩ := hingeVertices_mirror g (.inl hk) hd s h1 h2
    rw [hingeAxis, e0] at h
    rw [hingeAxis, e1 hk, hk] at hm
    cases h; cases hm
    simp only [reflect]
    ext <;> vsimp <;> ring
  · intro hk
    obtain ⟨e0, -, e1, -⟩ := hingeVertices_mirror g (.inr (.inl hk)) hd s h1 h2
    rw [hingeAxis, e0] at h
    rw [hingeAxis, e1 hk, hk] at hm
    cases h; cases hm
    simp only [reflect]
    ext <;> vsimp <;> ring

end generic

/-- **C21** is *false* for the flag 3: the hinge at 70 % chord is mirrored to 30 % chord. -/
theorem C21_mirror_hinge_yz_false : ¬ MirroredHinges ℚ 3 := by
  intro h
  obtain ⟨v, w, hv, hw, hp⟩ := h (demoEnv 3) flapStrip (7/10) (7/10) rfl (demoEnv_sym 3)
  have hv' : hingeVertices (demoEnv 3) flapStrip (7/10) (7/10) false =
      .ok (⟨7/5, 0, 0⟩, ⟨17/10, 4, 1⟩) := by decide +kernel
  have hw' : hingeVertices (demoEnv 3) flapStrip (7/10) (7/10) true =
      .ok (⟨-3/5, 0, 0⟩, ⟨-13/10, 4, 1⟩) := by decide +kernel
  rw [hv'] at hv; cases hv
  rw [hw'] at hw; cases hw
  have := (hp.mem_iff (a := (⟨-3/5, 0, 0⟩ : V3 ℚ))).1 (by simp)
  revert this
  decide +kernel

example : hingeVertices (demoEnv 2) flapStrip (7/10) (4/5) false =
      .ok (⟨7/5, 0, 0⟩, ⟨9/5, 4, 1⟩) ∧
    hingeVertices (demoEnv 2) flapStrip (7/10) (4/5) true =
      .ok (⟨9/5, -4, 1⟩, ⟨7/5, 0, 0⟩) := by decide +kernel

/-! ## C22 -/

section ordered
variable {K : Type*} [Field K] [LinearOrder K] [IsStrictOrderedRing K]

/-- **C22**, strips: the corners of every strip of the designed wing are the points of the
segment map. -/
theorem C22_strip_corners (g : GeoEnv K) (s : Strip K) (hg : g.defField = none) :
    s.absVertices g false = .ok
      ⟨segPoint g.vertices s.etaA 0, segPoint g.vertices s.etaB 0,
       segPoint g.vertices s.etaC 1, segPoint g.vertices s.etaD 1⟩ := by
  rw [absVertices_eq, stripCorners, hg]
  rfl

theorem subarea_corners_of_chord_lines (g : GeoEnv K) (s : Strip K) (q : Quad K)
    (hg : g.defField = none) (hAD : s.etaA = s.etaD) (hBC : s.etaB = s.etaC) :
    subareaVertices g s q false = .ok
      ⟨segPoint g.vertices s.etaA q.xsiA, segPoint g.vertices s.etaB q.xsiB,
       segPoint g.vertices s.etaB q.xsiC, segPoint g.vertices s.etaA q.xsiD⟩ := by
  rw [subareaVertices, C22_strip_corners g s hg]
  simp only [← hAD, ← hBC, segPoint_zero, segPoint_one]
  rfl

/-- **C22**, subareas: after every history of calls with chord lines and on every strip, the
corners of each subarea of the designed wing are the points of the segment map at the relative
coordinates of the subarea. -/
theorem C22_subarea_corners (interp : Interp K) (ops : List (SegOp K))
    (hops : ∀ op ∈ ops, op.chordLine) (g : GeoEnv K) (hg : g.defField = none) :
    ∀ s ∈ runOps interp ops, ∀ q : Quad K, subareaVertices g s q false = .ok
      ⟨segPoint g.vertices s.etaA q.xsiA, segPoint g.vertices s.etaB q.xsiB,
       segPoint g.vertices s.etaB q.xsiC, segPoint g.vertices s.etaA q.xsiD⟩ := by
  intro s hs q
  obtain ⟨h1, h2⟩ := C04_chord_lines interp ops hops s hs
  exact subarea_corners_of_chord_lines g s q hg h1 h2

/-- **C22** for a whole aircraft after pre-panelling. -/
theorem C22_aircraft_subarea_corners (ac ac' : PAircraft K) (hu : ac.Unpanelled)
    (h : prePanelling ac = .ok ac') (g : GeoEnv K) (hg : g.defField = none) :
    ∀ w ∈ ac'.wings, ∀ seg ∈ w.segments, ∀ s ∈ seg.strips, ∀ q : Quad K,
      subareaVertices g s q false = .ok
        ⟨segPoint g.vertices s.etaA q.xsiA, segPoint g.vertices s.etaB q.xsiB,
         segPoint g.vertices s.etaB q.xsiC, segPoint g.vertices s.etaA q.xsiD⟩ := by
  intro w hw seg hseg s hs q
  obtain ⟨h1, h2⟩ := C04_aircraft_chord_lines ac ac' hu h w hw seg hseg s hs
  exact subarea_corners_of_chord_lines g s q hg h1 h2

end ordered

/-- Non-vacuity: the second strip of the demo history carries a flap. -/
example : ((runOps linInterp demoOps)[1]?.bind fun s => s.flap.bind fun f =>
    (subareaVertices (demoEnv 0) s f.toQuad false).toOption) =
    some ⟨segPoint taperedSeg (1/5) (7/10), segPoint taperedSeg (2/5) (3/4),
      segPoint taperedSeg (2/5) 1, segPoint taperedSeg (1/5) 1⟩ := by decide +kernel

/-! ## C23 -/

section generic
variable {K : Type*} [Field K]

/-- **C23**: without (or with the identity as) deformation of the original half its strips are
those of the designed wing, whatever happens to the mirrored half ... -/
theorem C23_original_half (g : GeoEnv K) (s : Strip K) (q : Quad K) (h1 h2 : K)
    (hf : ∀ f, g.defField = some f → ∀ p, f p = p) :
    s.absVertices g false = s.absVertices g.designed false ∧
    subareaVertices g s q false = subareaVertices g.designed s q false ∧
    hingeVertices g s h1 h2 false = hingeVertices g.designed s h1 h2 false := by
  have h0 : s.absVertices g false = s.absVertices g.designed false := by
    rw [absVertices_eq, absVertices_eq]
    have : ∀ p, displaced g.defField p = p := by
      intro p
      unfold displaced
      cases hd : g.defField with
      | none => rfl
      | some f => exact hf f hd p
    simp only [stripCorners, this]
    simp [GeoEnv.designed, displaced]
  refine ⟨h0, ?_, ?_⟩
  · simp only [subareaVertices, h0]; rfl
  · simp only [hingeVertices, h0]; rfl

theorem absVertices_mirror_bad {g : GeoEnv K} (hk : ¬ SymFlag g.symmetry) (s : Strip K) :
    s.absVertices g true = .error .valueError := by
  unfold Strip.absVertices
  simp [Corners.mapE, mirrorVertices, GeoEnv.deformedPoint, (C19_mirror_is_reflection _ _).2 hk]

/-- ... and the other way round for the mirrored half. -/
theorem C23_mirrored_half (g : GeoEnv K) (s : Strip K) (q : Quad K) (h1 h2 : K)
    (hf : ∀ f, g.defFieldMirror = some f → ∀ p, f p = p) :
    s.absVertices g true = s.absVertices g.designed true ∧
    subareaVertices g s q true = subareaVertices g.designed s q true ∧
    hingeVertices g s h1 h2 true = hingeVertices g.designed s h1 h2 true := by
  have h0 : s.absVertices g true = s.absVertices g.designed true := by
    by_cases hk : SymFlag g.symmetry
    · rw [absVertices_mirror_eq g hk, absVertices_mirror_eq g.designed hk]
      have : ∀ p, displaced g.defFieldMirror p = p := by
        intro p
        unfold displaced
        cases hd : g.defFieldMirror with
        | none => rfl
        | some f => exact hf f hd p
      simp only [stripCornersMirror, this]
      simp [GeoEnv.designed, displaced]
    · rw [absVertices_mirror_bad hk, absVertices_mirror_bad (g := g.designed) hk]
  refine ⟨h0, ?_, ?_⟩
  · simp only [subareaVertices, h0]; rfl
  · simp only [hingeVertices, h0]; rfl

end generic

/-- Bend the original half up; the mirrored half stays as it is. -/
def bentEnv : GeoEnv ℚ :=
  { demoEnv 2 with defField := some fun p => ⟨p.x, p.y, p.z + p.y * p.y / 10⟩ }

example : (∀ f, bentEnv.defFieldMirror = some f → ∀ p, f p = p) ∧
    flapStrip.absVertices bentEnv true = .ok
      ⟨⟨1, -4, 1⟩, ⟨0, 0, 0⟩, ⟨2, 0, 0⟩, ⟨2, -4, 1⟩⟩ ∧
    flapStrip.absVertices bentEnv false = .ok
      ⟨⟨0, 0, 0⟩, ⟨1, 4, 13/5⟩, ⟨2, 4, 13/5⟩, ⟨2, 0, 0⟩⟩ :=
  ⟨by simp [bentEnv, demoEnv], by decide +kernel, by decide +kernel⟩

/-! ## C24 -/

section ordered
variable {K : Type*} [Field K] [LinearOrder K] [IsStrictOrderedRing K]

/-- **C24**: one camber station per chordwise panel, strictly increasing, strictly inside the
subarea, the `i`-th at three quarters of the `i`-th of `n` equal pieces of the middle line. -/
theorem C24_camber_stations (q : Quad K) (n : ℕ) (le te : K)
    (hle : le = (q.xsiA + q.xsiB) / 2) (hte : te = (q.xsiC + q.xsiD) / 2) (hpos : le < te) :
    (collocationXsi q n).length = n ∧
    (collocationXsi q n).Pairwise (· < ·) ∧
    (∀ x ∈ collocationXsi q n, le < x ∧ x < te) ∧
    ∀ (i : ℕ) (x : K), (collocationXsi q n)[i]? = some x →
      ∃ p r : K, p = le + i * ((te - le) / n) ∧ r = le + (i + 1) * ((te - le) / n) ∧
        x = 1/4 * p + 3/4 * r := by
  have hL : 0 < te - le := sub_pos.2 hpos
  refine ⟨by simp [collocationXsi], ?_, ?_, ?_⟩
  · unfold collocationXsi
    rw [List.pairwise_map]
    refine (List.pairwise_lt_range (n := n)).imp_of_mem ?_
    intro i j hi _ hij
    have hn : (0 : K) < n := by
      have := List.mem_range.1 hi
      exact_mod_cast Nat.zero_lt_of_lt this
    rw [← hle, ← hte]
    have h : ((i : K) + 3/4) / n < ((j : K) + 3/4) / n := by
      gcongr
    have := mul_lt_mul_of_pos_right h hL
    linarith
  · intro x hx
    unfold collocationXsi at hx
    rw [← hle, ← hte] at hx
    obtain ⟨i, hi, rfl⟩ := List.mem_map.1 hx
    have hi' := List.mem_range.1 hi
    have hn : (0 : K) < n := by exact_mod_cast Nat.zero_lt_of_lt hi'
    have hi0 : (0 : K) ≤ i := Nat.cast_nonneg i
    have hi1 : (i : K) + 1 ≤ n := by exact_mod_cast hi'
    have h0 : 0 < ((i : K) + 3/4) / n := div_pos (by linarith) hn
    have h1 : ((i : K) + 3/4) / n < 1 := by rw [div_lt_one hn]; linarith
    have a0 := mul_pos h0 hL
    have a1 := mul_lt_mul_of_pos_right h1 hL
    constructor <;> linarith
  · intro i x hx
    simp only [collocationXsi, ← hle, ← hte] at hx
    rw [List.getElem?_map, Option.map_eq_some_iff] at hx
    obtain ⟨j, hj, rfl⟩ := hx
    obtain ⟨hlt, rfl⟩ := List.getElem?_eq_some_iff.1 hj
    rw [List.length_range] at hlt
    have hn : (0 : K) < n := by exact_mod_cast Nat.zero_lt_of_lt hlt
    refine ⟨_, _, rfl, rfl, ?_⟩
    simp only [List.getElem_range]
    field_simp
    ring

end ordered

example : collocationXsi (⟨7/10, 4/5, 1, 1⟩ : Quad ℚ) 3 = [13/16, 43/48, 47/48] := by
  decide +kernel

end Verif
