import Verif.Props.GivenTwice
import Verif.Props.PanelOrder

/-!
# Property C150: a wing of one panel lifts and has drag
-/

namespace Verif

open V3

/-! ## One panel in a level plane -/

/-- A filament induces a velocity along the vector product of the directions to its ends. -/
theorem kernel_along {eps : ℝ} (he : 0 < eps) {x a b : V3 ℝ} (ha : x ≠ a) (hb : x ≠ b) :
    ∃ k : ℝ, 0 < k ∧ kernel eps x a b = k • (x - a).cross (x - b) := by
  have h1 := norm_pos (sub_ne_zero.2 ha)
  have h2 := norm_pos (sub_ne_zero.2 hb)
  have h3 := kernelDen_pos he (sub_ne_zero.2 ha) (sub_ne_zero.2 hb)
  refine ⟨_, ?_, rfl⟩
  have := Real.pi_pos
  positivity

/-- A panel in a plane of constant z: its collocation point lies between the ends of the bound vortex
and behind it. -/
structure Panel.Lifting (g : Panel) (t : V3 ℝ) : Prop where
  wake : g.v1 = g.v2 + (10000 : ℝ) • t ∧ g.v4 = g.v3 + (10000 : ℝ) • t
  mid : g.mid = (1 / 2 : ℝ) • (g.v2 + g.v3)
  flat : g.v2.z = g.col.z ∧ g.v3.z = g.col.z
  left : g.v2.y < g.col.y
  right : g.col.y < g.v3.y
  behind : 0 < (g.col.x - g.v2.x) * (g.v3.y - g.col.y) + (g.col.x - g.v3.x) * (g.col.y - g.v2.y)
  normal : g.n = ⟨0, 0, 1⟩ ∨ g.n = ⟨0, 0, -1⟩

section
variable {g : Panel} {eps ca sa : ℝ}

/-- The wake does not pass through the collocation point or the middle of the bound vortex. -/
theorem Panel.Lifting.ok (h : g.Lifting ⟨ca, 0, sa⟩) (he : 0 < eps) :
    HorseshoeOk eps g.col g ∧ HorseshoeOk eps g.mid g := by
  obtain ⟨⟨h1, h4⟩, hm, -, hl, hr, -, -⟩ := h
  have y1 : g.v1.y = g.v2.y := by rw [h1]; simp
  have y4 : g.v4.y = g.v3.y := by rw [h4]; simp
  have ym : g.mid.y = (g.v2.y + g.v3.y) / 2 := by rw [hm]; simp; ring
  have key : ∀ {x y : V3 ℝ}, x.y ≠ y.y → x ≠ y := fun h e => h (by rw [e])
  refine ⟨⟨(kernelOk_iff he _ _ _).2 ⟨key ?_, key ?_⟩, (kernelOk_iff he _ _ _).2 ⟨key ?_, key ?_⟩,
    (kernelOk_iff he _ _ _).2 ⟨key ?_, key ?_⟩⟩, (kernelOk_iff he _ _ _).2 ⟨key ?_, key ?_⟩,
    (kernelOk_iff he _ _ _).2 ⟨key ?_, key ?_⟩, (kernelOk_iff he _ _ _).2 ⟨key ?_, key ?_⟩⟩ <;>
  · try rw [ym]
    try rw [y1]
    try rw [y4]
    intro e
    linarith

/-- The panel induces a velocity downwards at its collocation point. -/
theorem Panel.Lifting.down (h : g.Lifting ⟨ca, 0, sa⟩) (he : 0 < eps) (hc : 0 ≤ ca) :
    (horseshoe eps g.col g).z < 0 := by
  obtain ⟨hok, -⟩ := h.ok he
  obtain ⟨⟨h1, h4⟩, -, ⟨z2, z3⟩, hl, hr, hb, -⟩ := h
  obtain ⟨k1, k2, k3⟩ := hok
  obtain ⟨a1, p1, e1⟩ := kernel_along he ((kernelOk_iff he _ _ _).1 k1).1 ((kernelOk_iff he _ _ _).1 k1).2
  obtain ⟨a2, p2, e2⟩ := kernel_along he ((kernelOk_iff he _ _ _).1 k2).1 ((kernelOk_iff he _ _ _).1 k2).2
  obtain ⟨a3, p3, e3⟩ := kernel_along he ((kernelOk_iff he _ _ _).1 k3).1 ((kernelOk_iff he _ _ _).1 k3).2
  have q1 : 0 < g.col.y - g.v2.y := by linarith
  have q3 : 0 < g.v3.y - g.col.y := by linarith
  have c1 : ((g.col - g.v1).cross (g.col - g.v2)).z = -(10000 * ca * (g.col.y - g.v2.y)) := by
    rw [h1]
    simp
    ring
  have c2 : ((g.col - g.v2).cross (g.col - g.v3)).z =
      -((g.col.x - g.v2.x) * (g.v3.y - g.col.y) + (g.col.x - g.v3.x) * (g.col.y - g.v2.y)) := by
    simp
    ring
  have c3 : ((g.col - g.v3).cross (g.col - g.v4)).z = -(10000 * ca * (g.v3.y - g.col.y)) := by
    rw [h4]
    simp
    ring
  have : (horseshoe eps g.col g).z = a1 * ((g.col - g.v1).cross (g.col - g.v2)).z +
      a2 * ((g.col - g.v2).cross (g.col - g.v3)).z + a3 * ((g.col - g.v3).cross (g.col - g.v4)).z := by
    unfold horseshoe
    rw [e1, e2, e3]
    simp
  rw [this, c1, c2, c3]
  have m1 : 0 ≤ a1 * (10000 * ca * (g.col.y - g.v2.y)) := by positivity
  have m3 : 0 ≤ a3 * (10000 * ca * (g.v3.y - g.col.y)) := by positivity
  have m2 := mul_pos p2 hb
  linarith

/-- Velocity that the panel induces in the middle of its bound vortex. -/
theorem Panel.Lifting.midwash (h : g.Lifting ⟨ca, 0, sa⟩) (he : 0 < eps) :
    ∃ k : ℝ, 0 < k ∧ horseshoe eps g.mid g = -k • (⟨ca, 0, sa⟩ : V3 ℝ).cross (g.v3 - g.v2) := by
  obtain ⟨-, hok⟩ := h.ok he
  obtain ⟨⟨h1, h4⟩, hm, -⟩ := h
  obtain ⟨k1, k2, k3⟩ := hok
  obtain ⟨a1, p1, e1⟩ := kernel_along he ((kernelOk_iff he _ _ _).1 k1).1 ((kernelOk_iff he _ _ _).1 k1).2
  obtain ⟨a2, p2, e2⟩ := kernel_along he ((kernelOk_iff he _ _ _).1 k2).1 ((kernelOk_iff he _ _ _).1 k2).2
  obtain ⟨a3, p3, e3⟩ := kernel_along he ((kernelOk_iff he _ _ _).1 k3).1 ((kernelOk_iff he _ _ _).1 k3).2
  refine ⟨5000 * (a1 + a3), by positivity, ?_⟩
  unfold horseshoe
  rw [e1, e2, e3, h1, h4, hm]
  ext <;> simp <;> ring

/-- Lift and drag of the panel, from its circulation. -/
theorem Panel.Lifting.loads (h : g.Lifting ⟨ca, 0, sa⟩) (he : 0 < eps) (hcs : ca ^ 2 + sa ^ 2 = 1)
    (hc : 0 ≤ ca) {V gam : ℝ} (hV : 0 < V) (hs : 0 ≤ gam * sa) (hg : gam ≠ 0) (f : V3 ℝ)
    (hf : f = gam • (gam • horseshoe eps g.mid g + V • (⟨ca, 0, sa⟩ : V3 ℝ)).cross (g.v3 - g.v2)) :
    0 < ca * f.x + sa * f.z ∧ 0 < gam * (-sa * f.x + ca * f.z) := by
  obtain ⟨k, hk, hmid⟩ := h.midwash he
  obtain ⟨-, -, ⟨z2, z3⟩, hl, hr, -⟩ := h
  have hy : 0 < g.v3.y - g.v2.y := by linarith
  have hz : g.v3.z - g.v2.z = 0 := by linarith
  rw [hmid] at hf
  set lx := g.v3.x - g.v2.x with hlx
  set ly := g.v3.y - g.v2.y with hly
  have fx : f.x = gam * (gam * k * (ca * (lx ^ 2 + ly ^ 2) - lx * (ca * lx)) - V * sa * ly) := by
    rw [hf]
    simp [hz, ← hlx, ← hly]
    ring
  have fz : f.z = gam * (gam * k * sa * (lx ^ 2 + ly ^ 2) + V * ca * ly) := by
    rw [hf]
    simp [hz, ← hlx, ← hly]
    left
    ring
  have hg2 : 0 < gam ^ 2 := by positivity
  constructor
  · have : ca * f.x + sa * f.z = gam ^ 2 * k * ((ca ^ 2 + sa ^ 2) * ly ^ 2 + sa ^ 2 * lx ^ 2) := by
      rw [fx, fz]
      ring
    rw [this, hcs]
    positivity
  · have : gam * (-sa * f.x + ca * f.z) =
        gam ^ 2 * (V * ly * (ca ^ 2 + sa ^ 2) + (gam * sa) * (k * ca * lx ^ 2)) := by
      rw [fx, fz]
      ring
    rw [this, hcs]
    positivity

end

/-! ## The equation of one panel -/

theorem level_stream (alpha : ℝ) : freestreamDir (deg2rad alpha) (deg2rad 0) =
    ⟨Real.cos (deg2rad alpha), 0, Real.sin (deg2rad alpha)⟩ := by
  unfold freestreamDir
  simp [deg2rad]

theorem deg_cos {alpha : ℝ} (h : -90 ≤ alpha ∧ alpha ≤ 90) : 0 ≤ Real.cos (deg2rad alpha) := by
  apply Real.cos_nonneg_of_neg_pi_div_two_le_of_le <;> unfold deg2rad <;> nlinarith [Real.pi_pos]

theorem deg_sin {alpha : ℝ} (h : -90 ≤ alpha ∧ alpha ≤ 90) (h0 : alpha ≠ 0) :
    0 < alpha * Real.sin (deg2rad alpha) := by
  have hp := Real.pi_pos
  rcases lt_or_gt_of_ne h0 with h1 | h1
  · apply mul_pos_of_neg_of_neg h1
    apply Real.sin_neg_of_neg_of_neg_pi_lt <;> unfold deg2rad <;> nlinarith
  · apply mul_pos h1
    apply Real.sin_pos_of_pos_of_lt_pi <;> unfold deg2rad <;> nlinarith

/-- Solution and loads of one panel in a plane of constant z. -/
theorem one_panel {n : ℕ} (hn : n = 1) {eps : ℝ} (he : 0 < eps) {s : FlowState} {c : Refs}
    {P : Fin n → Panel} {A : Matrix (Fin n) (Fin n) ℝ} {g : Fin n → ℝ} {R : Results n}
    (hP : ∀ k, (P k).Lifting ⟨Real.cos (deg2rad s.alpha), 0, Real.sin (deg2rad s.alpha)⟩)
    (hA : vlmDownwash eps P = some A) (hsol : IsUnit A.det → Solves A (vlmBoundary s c P) g)
    (hR : vlmResults eps s c P g = some R) (hb : s.beta = 0) (ha : -90 ≤ s.alpha ∧ s.alpha ≤ 90) :
    A.det ≠ 0 ∧ (0 < s.airspeed → 0 < s.rho → s.p = 0 → s.q = 0 → s.r = 0 → s.alpha ≠ 0 →
      0 < R.wind.x ∧ 0 < s.alpha * R.wind.z) := by
  subst hn
  have h0 := hP 0
  have hc := deg_cos ha
  have hdown := h0.down he hc
  have hdet : A.det = (horseshoe eps (P 0).col (P 0)).z * (P 0).n.z := by
    have e : A 0 0 = (horseshoe eps (P 0).col (P 0)).dot (P 0).n := by
      unfold vlmDownwash at hA
      split_ifs at hA
      rw [← Option.some.inj hA]
    rw [Matrix.det_eq_elem_of_subsingleton A 0, e]
    rcases h0.normal with h | h <;> rw [h] <;> simp [V3.dot]
  have hnz : (P 0).n.z * (P 0).n.z = 1 := by
    rcases h0.normal with h | h <;> rw [h] <;> norm_num
  have hne : A.det ≠ 0 := by
    rw [hdet]
    refine mul_ne_zero hdown.ne ?_
    intro h
    rw [h] at hnz
    norm_num at hnz
  refine ⟨hne, fun hV hrho hp hq hr hal => ?_⟩
  have hsin := deg_sin ha hal
  -- the circulation
  have heq : A.det * g 0 = -(s.airspeed * Real.sin (deg2rad s.alpha)) * (P 0).n.z := by
    have := congrFun (hsol (isUnit_iff_ne_zero.2 hne)) 0
    rw [Matrix.det_eq_elem_of_subsingleton _ 0]
    rw [Matrix.mulVec, dotProduct, Fin.sum_univ_one] at this
    rw [this]
    unfold vlmBoundary velWind velRot
    rw [hp, hq, hr, hb, level_stream]
    rcases h0.normal with h | h <;> rw [h] <;> simp [V3.dot]
  have hgam : (horseshoe eps (P 0).col (P 0)).z * g 0 = -(s.airspeed * Real.sin (deg2rad s.alpha)) := by
    rw [hdet] at heq
    have : (horseshoe eps (P 0).col (P 0)).z * g 0 * ((P 0).n.z * (P 0).n.z) =
        -(s.airspeed * Real.sin (deg2rad s.alpha)) * ((P 0).n.z * (P 0).n.z) := by
      linear_combination (P 0).n.z * heq
    simpa [hnz] using this
  set H := (horseshoe eps (P 0).col (P 0)).z with hH
  have hgs : 0 < s.alpha * g 0 := by
    have h1 : -H * (s.alpha * g 0) = s.airspeed * (s.alpha * Real.sin (deg2rad s.alpha)) := by
      linear_combination (-s.alpha) * hgam
    have h2 : 0 < -H * (s.alpha * g 0) := by
      rw [h1]
      positivity
    exact pos_of_mul_pos_right h2 (by linarith)
  have hg0 : g 0 ≠ 0 := by
    rintro h
    rw [h] at hgs
    simp at hgs
  have hss : 0 ≤ g 0 * Real.sin (deg2rad s.alpha) := by
    have h2 : 0 < (s.alpha ^ 2) * (g 0 * Real.sin (deg2rad s.alpha)) := by
      have := mul_pos hgs hsin
      nlinarith
    exact (pos_of_mul_pos_right h2 (by positivity)).le
  -- the loads
  obtain ⟨d1, d2⟩ := h0.loads he (by rw [add_comm]; exact Real.sin_sq_add_cos_sq _) hc hV hss hg0 _ rfl
  have hwind : R.wind = bodyToWind s (panelForce eps s c P g 0) := by
    unfold vlmResults at hR
    split_ifs at hR
    cases hR
    simp [List.finRange_succ]
  have hforce : panelForce eps s c P g 0 = s.rho • (g 0 • (g 0 • horseshoe eps (P 0).mid (P 0) +
      s.airspeed • (⟨Real.cos (deg2rad s.alpha), 0, Real.sin (deg2rad s.alpha)⟩ : V3 ℝ)).cross
      ((P 0).v3 - (P 0).v2)) := by
    unfold panelForce panelVel inwash velWind velRot
    rw [hp, hq, hr, hb, level_stream]
    simp only [List.finRange_succ, List.finRange_zero, List.map_nil, List.foldl_cons, List.foldl_nil]
    ext <;> simp <;> ring
  rw [hwind, hforce]
  unfold bodyToWind
  rw [hb]
  simp only [deg2rad, zero_mul, Real.sin_zero, Real.cos_zero] at d1 d2 ⊢
  generalize g 0 • (g 0 • horseshoe eps (P 0).mid (P 0) + s.airspeed • (⟨Real.cos _, 0, Real.sin _⟩ : V3 ℝ)).cross
      ((P 0).v3 - (P 0).v2) = f at d1 d2 ⊢
  constructor
  · have := mul_pos hrho d1
    simp
    linarith
  · have h3 := mul_pos (mul_pos hrho hgs) d2
    have hg2 : 0 < g 0 ^ 2 := by positivity
    have : 0 < g 0 ^ 2 * (s.alpha * (s.rho * (-Real.sin (s.alpha * (Real.pi / 180)) * f.x +
        Real.cos (s.alpha * (Real.pi / 180)) * f.z))) := by
      nlinarith
    have := pos_of_mul_pos_right this hg2.le
    simp
    linarith

/-! ## Level wings -/

/-- A segment in a plane of constant z with root and tip chord along x, from left to right. -/
structure Corners.Planform (v : Corners (V3 ℝ)) : Prop where
  level : v.b.z = v.a.z ∧ v.c.z = v.a.z ∧ v.d.z = v.a.z
  root : v.d.y = v.a.y
  tip : v.c.y = v.b.y
  span : v.a.y < v.b.y
  rootChord : v.a.x < v.d.x
  tipChord : v.b.x < v.c.x

theorem Corners.Planform.backwards {v : Corners (V3 ℝ)} (h : v.Planform) : v.Backwards :=
  ⟨by linarith [h.rootChord], by linarith [h.tipChord], .inl (by linarith [h.rootChord])⟩

theorem Corners.Planform.onSide {v : Corners (V3 ℝ)} (h : v.Planform) {sym : ℕ} {m : Bool}
    (hs : m = true → sym = 1 ∨ sym = 2) : (v.onSide sym m).Planform := by
  cases m with
  | false => exact h
  | true =>
    obtain ⟨⟨h1, h2, h3⟩, h4, h5, h6, h7, h8⟩ := h
    rcases hs rfl with rfl | rfl <;> simp only [Corners.onSide, reflect, symNormal] <;> norm_num <;> vsimp
    · constructor <;> simp [*]
    · refine ⟨?_, ?_, ?_, ?_, ?_, ?_⟩ <;> simp [*]
      linarith

/-- The strips and control surfaces of a level segment are level. -/
theorem Corners.Planform.patch {v : Corners (V3 ℝ)} (h : v.Planform) {e1 e2 xa xb xc xd : ℝ}
    (hp : PatchOk e1 e2 xa xb xc xd) : (patch v e1 e2 xa xb xc xd).Planform := by
  obtain ⟨⟨h1, h2, h3⟩, h4, h5, h6, h7, h8⟩ := h
  obtain ⟨⟨s1, s2, s3⟩, ⟨i1, i2, i3⟩, o1, o2, o3⟩ := hp
  obtain ⟨c1, c2⟩ := patch_chords v e1 e2 xa xb xc xd
  have y : ∀ e x, (segPoint v e x).y = v.a.y + e * (v.b.y - v.a.y) := by
    intro e x
    unfold segPoint
    simp [h4, h5]
  have z : ∀ e x, (segPoint v e x).z = v.a.z := by
    intro e x
    unfold segPoint
    simp [h1, h2, h3]
  have chord : ∀ e, 0 ≤ e → e ≤ 1 → 0 < (1 - e) * (v.d.x - v.a.x) + e * (v.c.x - v.b.x) := by
    intro e e0 e1
    rcases e1.eq_or_lt with rfl | e1
    · linarith
    · have := mul_pos (sub_pos.2 e1) (sub_pos.2 h7)
      have := mul_nonneg e0 (sub_pos.2 h8).le
      linarith
  refine ⟨⟨?_, ?_, ?_⟩, ?_, ?_, ?_, ?_, ?_⟩
  · show (segPoint v _ _).z = (segPoint v _ _).z
    rw [z, z]
  · show (segPoint v _ _).z = (segPoint v _ _).z
    rw [z, z]
  · show (segPoint v _ _).z = (segPoint v _ _).z
    rw [z, z]
  · show (segPoint v _ _).y = (segPoint v _ _).y
    rw [y, y]
  · show (segPoint v _ _).y = (segPoint v _ _).y
    rw [y, y]
  · show (segPoint v _ _).y < (segPoint v _ _).y
    rw [y, y]
    nlinarith
  · have := mul_pos (sub_pos.2 i2) (chord e1 s1 (by linarith))
    rw [← c1] at this
    linarith
  · have := mul_pos (sub_pos.2 o2) (chord e2 (by linarith) s3)
    rw [← c2] at this
    linarith

theorem unit_vertical {z : ℝ} (h : z ≠ 0) : (1 / (⟨0, 0, z⟩ : V3 ℝ).norm) • (⟨0, 0, z⟩ : V3 ℝ) = ⟨0, 0, 1⟩ ∨
    (1 / (⟨0, 0, z⟩ : V3 ℝ).norm) • (⟨0, 0, z⟩ : V3 ℝ) = ⟨0, 0, -1⟩ := by
  have hn : (⟨0, 0, z⟩ : V3 ℝ).norm = |z| := by
    unfold V3.norm
    simp [← pow_two, Real.sqrt_sq_eq_abs]
  rw [hn]
  rcases lt_or_gt_of_ne h with h1 | h1
  · right
    rw [abs_of_neg h1]
    ext <;> simp
    field_simp
  · left
    rw [abs_of_pos h1]
    ext <;> simp
    field_simp

theorem Corners.Planform.shape {v : Corners (V3 ℝ)} (h : v.Planform) : v.PlaneShape ∧
    v.normalVector = ⟨0, 0, -((v.b.y - v.a.y) * (v.d.x - v.a.x))⟩ := by
  obtain ⟨⟨h1, h2, h3⟩, h4, h5, h6, h7, h8⟩ := h
  have q1 := sub_pos.2 h6
  have q2 := sub_pos.2 h7
  have q3 := sub_pos.2 h8
  have hN : v.normalVector = ⟨0, 0, -((v.b.y - v.a.y) * (v.d.x - v.a.x))⟩ := by
    unfold Corners.normalVector
    ext <;> simp [h1, h3, h4]
  have hB : v.normalB.dot v.normalVector =
      (v.b.y - v.a.y) * (v.c.x - v.b.x) * ((v.b.y - v.a.y) * (v.d.x - v.a.x)) := by
    rw [hN]
    unfold Corners.normalB
    vsimp
    simp only [h5]
    ring
  have hC : v.normalC.dot v.normalVector =
      (v.b.y - v.a.y) * (v.c.x - v.b.x) * ((v.b.y - v.a.y) * (v.d.x - v.a.x)) := by
    rw [hN]
    unfold Corners.normalC
    vsimp
    simp only [h5, h4]
    ring
  have hD : v.normalD.dot v.normalVector =
      (v.b.y - v.a.y) * (v.d.x - v.a.x) * ((v.b.y - v.a.y) * (v.d.x - v.a.x)) := by
    rw [hN]
    unfold Corners.normalD
    vsimp
    simp only [h5, h4]
    ring
  refine ⟨⟨?_, ?_, ?_, ?_, ?_⟩, hN⟩
  · rw [hN]
    vsimp
    rw [h2]
    ring
  · rw [hN]
    intro e
    have := congrArg V3.z e
    simp at this
    rcases this with e | e <;> linarith
  · rw [hB]
    positivity
  · rw [hC]
    positivity
  · rw [hD]
    positivity

/-- All panels of a level segment in a flow without sideslip. -/
theorem level_panels {ac ac' : PAircraft ℝ} (hu : ac.Unpanelled) (h : prePanelling ac = .ok ac')
    (hn : ac.NumC 0) {env : LatticeEnv} {doRot : Bool} {alpha : ℝ}
    (hrot : doRot = true → (∀ w c, (env.deflection w c).1 ∈ [none, some 0] ∧
      (env.deflection w c).2 ∈ [none, some 0]) ∧ ∀ w s eta xsi, env.camber w s eta xsi = 0)
    {l : LatticeData} (hl : genLattice env doRot alpha 0 ac' = .ok l) {e : BookEntry} (he : e ∈ l.book.entries)
    (hg : (env.geo e.path.wing e.path.seg).isDeformed = false)
    (hv : (env.geo e.path.wing e.path.seg).vertices.Planform)
    (hs : e.mirror = true → (env.geo e.path.wing e.path.seg).symmetry = 1 ∨
      (env.geo e.path.wing e.path.seg).symmetry = 2) (k : ℕ) (hk : (k : ℤ) < e.numC) :
    ∃ g, l.panelAt (e.start + k) = some g ∧
      g.Lifting ⟨Real.cos (deg2rad alpha), 0, Real.sin (deg2rad alpha)⟩ := by
  obtain ⟨-, e1, e2, xa, xb, xc, xd, hp, hpts⟩ := entry_patch hu h hn hl he hg
  have hw := (hv.onSide hs).patch hp
  have hfront := panel_front hw.backwards (trailLeg alpha 0) hk
  obtain ⟨hshape, hN⟩ := hv.shape
  obtain ⟨m1, m2⟩ := C147_plane_segment ac ac' hu h hn env doRot alpha 0 hrot l hl e he hg hshape _ hN.symm k hk
  have hz : -(((env.geo e.path.wing e.path.seg).vertices.b.y - (env.geo e.path.wing e.path.seg).vertices.a.y) *
      ((env.geo e.path.wing e.path.seg).vertices.d.x - (env.geo e.path.wing e.path.seg).vertices.a.x)) ≠ 0 := by
    have := mul_pos (sub_pos.2 hv.span) (sub_pos.2 hv.rootChord)
    linarith
  generalize -(((env.geo e.path.wing e.path.seg).vertices.b.y - (env.geo e.path.wing e.path.seg).vertices.a.y) *
      ((env.geo e.path.wing e.path.seg).vertices.d.x - (env.geo e.path.wing e.path.seg).vertices.a.x)) = z at *
  have hnormal : l.normal (e.start + k) = some ((1 / (⟨0, 0, z⟩ : V3 ℝ).norm) • (⟨0, 0, z⟩ : V3 ℝ)) := by
    cases hm : e.mirror with
    | false => exact m1 hm
    | true =>
      rcases hs hm with hy | hy
      · rw [(m2 hm).2.1 hy]
        congr 2
        unfold reflect
        ext <;> vsimp <;> simp
        ring
      · rw [(m2 hm).1 hy]
        congr 2
        unfold reflect
        ext <;> vsimp <;> simp
  refine ⟨{ (panelPts (Coef.of (patch ((env.geo e.path.wing e.path.seg).vertices.onSide
        (env.geo e.path.wing e.path.seg).symmetry e.mirror) e1 e2 xa xb xc xd))
        (trailLeg alpha 0) 1 e.numC k 0).toPanel with
        n := (1 / (⟨0, 0, z⟩ : V3 ℝ).norm) • (⟨0, 0, z⟩ : V3 ℝ) }, ?_, ?_⟩
  · unfold LatticeData.panelAt
    simp only [hpts k hk, hnormal]
  generalize patch ((env.geo e.path.wing e.path.seg).vertices.onSide
        (env.geo e.path.wing e.path.seg).symmetry e.mirror) e1 e2 xa xb xc xd = v at hw hfront
  obtain ⟨⟨h1, h2, h3⟩, h4, h5, h6, h7, h8⟩ := hw
  have hcol := hfront.col
  have y2 : (panelPts (Coef.of v) (trailLeg alpha 0) 1 e.numC k 0).v2.y = v.a.y := by
    unfold panelPts Coef.of Coef.at
    simp [h4, h5]
    try ring
  have y3 : (panelPts (Coef.of v) (trailLeg alpha 0) 1 e.numC k 0).v3.y = v.b.y := by
    unfold panelPts Coef.of Coef.at
    simp [h4, h5]
    try ring
  have yc : (panelPts (Coef.of v) (trailLeg alpha 0) 1 e.numC k 0).col.y = (v.a.y + v.b.y) / 2 := by
    unfold panelPts Coef.of Coef.at
    simp [h4, h5]
    try ring
  have z2 : (panelPts (Coef.of v) (trailLeg alpha 0) 1 e.numC k 0).v2.z = v.a.z := by
    unfold panelPts Coef.of Coef.at
    simp [h1, h2, h3]
    try ring
  have z3 : (panelPts (Coef.of v) (trailLeg alpha 0) 1 e.numC k 0).v3.z = v.a.z := by
    unfold panelPts Coef.of Coef.at
    simp [h1, h2, h3]
    try ring
  have zc : (panelPts (Coef.of v) (trailLeg alpha 0) 1 e.numC k 0).col.z = v.a.z := by
    unfold panelPts Coef.of Coef.at
    simp [h1, h2, h3]
    try ring
  have hmid : (panelPts (Coef.of v) (trailLeg alpha 0) 1 e.numC k 0).mid = (1 / 2 : ℝ) •
      ((panelPts (Coef.of v) (trailLeg alpha 0) 1 e.numC k 0).v2 +
       (panelPts (Coef.of v) (trailLeg alpha 0) 1 e.numC k 0).v3) := rfl
  have hwake : (panelPts (Coef.of v) (trailLeg alpha 0) 1 e.numC k 0).v1 =
      (panelPts (Coef.of v) (trailLeg alpha 0) 1 e.numC k 0).v2 + trailLeg alpha 0 ∧
      (panelPts (Coef.of v) (trailLeg alpha 0) 1 e.numC k 0).v4 =
      (panelPts (Coef.of v) (trailLeg alpha 0) 1 e.numC k 0).v3 + trailLeg alpha 0 := ⟨rfl, rfl⟩
  have hleg : trailLeg alpha 0 = (10000 : ℝ) • ⟨Real.cos (deg2rad alpha), 0, Real.sin (deg2rad alpha)⟩ := by
    unfold trailLeg
    rw [level_stream]
  generalize panelPts (Coef.of v) (trailLeg alpha 0) 1 e.numC k 0 = g at *
  rw [hleg] at hwake
  refine ⟨hwake, hmid, ⟨z2.trans zc.symm, z3.trans zc.symm⟩, ?_, ?_, ?_, unit_vertical hz⟩
  · show g.v2.y < g.col.y
    rw [y2, yc]
    linarith
  · show g.col.y < g.v3.y
    rw [y3, yc]
    linarith
  · show 0 < (g.col.x - g.v2.x) * (g.v3.y - g.col.y) + (g.col.x - g.v3.x) * (g.col.y - g.v2.y)
    have hx : g.mid.x = (g.v2.x + g.v3.x) / 2 := by rw [hmid]; simp; ring
    have := mul_pos (sub_pos.2 h6) (sub_pos.2 hcol.2.1)
    rw [hx] at this
    rw [y2, y3, yc]
    nlinarith

/-- **C150**, all panels: in a flow without sideslip each panel of an undeformed level segment induces a
velocity downwards at its own collocation point, on both sides of the wing. -/
theorem C150_own_downwash (ac ac' : PAircraft ℝ) (hu : ac.Unpanelled) (h : prePanelling ac = .ok ac')
    (hn : ac.NumC 0) (env : LatticeEnv) (doRot : Bool) (alpha : ℝ) (ha : -90 ≤ alpha ∧ alpha ≤ 90)
    (hrot : doRot = true → (∀ w c, (env.deflection w c).1 ∈ [none, some 0] ∧
      (env.deflection w c).2 ∈ [none, some 0]) ∧ ∀ w s eta xsi, env.camber w s eta xsi = 0)
    (l : LatticeData) (hl : genLattice env doRot alpha 0 ac' = .ok l) (eps : ℝ) (he : 0 < eps) :
    ∀ e ∈ l.book.entries, (env.geo e.path.wing e.path.seg).isDeformed = false →
    (env.geo e.path.wing e.path.seg).vertices.Planform →
    (e.mirror = true → (env.geo e.path.wing e.path.seg).symmetry = 1 ∨
      (env.geo e.path.wing e.path.seg).symmetry = 2) →
    ∀ k : ℕ, (k : ℤ) < e.numC → ∃ g, l.panelAt (e.start + k) = some g ∧
      HorseshoeOk eps g.col g ∧ (horseshoe eps g.col g).z < 0 := by
  intro e hee hg hv hs k hk
  obtain ⟨g, h1, h2⟩ := level_panels hu h hn hrot hl hee hg hv hs k hk
  exact ⟨g, h1, (h2.ok he).1, h2.down he (deg_cos ha)⟩

/-! ## Aircraft of one panel -/

/-- One wing without symmetry, with one segment of one panel. -/
noncomputable def plank (uid sid : String) (span : ℝ) (interp : ℝ × ℝ → ℝ × ℝ → ℝ → ℝ)
    (dist : ℝ → ℝ → ℝ → ℝ → ℝ) : PAircraft ℝ :=
  ⟨[⟨uid, 0, [⟨sid, span, some 1, some 1, interp, dist, initStrips⟩], []⟩]⟩

section
variable (uid sid : String) (span : ℝ) (interp : ℝ × ℝ → ℝ × ℝ → ℝ → ℝ) (dist : ℝ → ℝ → ℝ → ℝ → ℝ)

theorem plank_panelled :
    prePanelling (plank uid sid span interp dist) = .ok (plank uid sid span interp dist) := by
  have h2 : mapE PSegment.addSpanLines
      [(⟨sid, span, some 1, some 1, interp, dist, initStrips⟩ : PSegment ℝ)] =
      .ok [⟨sid, span, some 1, some 1, interp, dist, initStrips⟩] := by
    simp [mapE, PSegment.addSpanLines, spanLines, addLines, initStrips]
  unfold prePanelling plank
  simp only [mapE, PWing.mapSegments, placeControls]
  simp only [mapE] at h2
  simp only [h2]

theorem plank_ok : (plank uid sid span interp dist).Unpanelled ∧
    (plank uid sid span interp dist).NumC 0 := by
  refine ⟨?_, ?_⟩
  · intro w hw s hs
    simp only [plank, List.mem_singleton] at hw
    subst hw
    simp only [List.mem_singleton] at hs
    subst hs
    rfl
  · intro w hw
    simp only [plank, List.mem_singleton] at hw
    subst hw
    simp

/-- The only subarea. -/
noncomputable def plankSub : SubTuple ℝ :=
  ((0, ⟨"segment", Quad.init 0 0 1 1, none⟩), (0, Strip.init 0 1 1 0),
    (0, ⟨sid, span, some 1, some 1, interp, dist, initStrips⟩),
    (0, ⟨uid, 0, [⟨sid, span, some 1, some 1, interp, dist, initStrips⟩], []⟩))

theorem plank_subareas :
    allSubareas (plank uid sid span interp dist) = [plankSub uid sid span interp dist] := rfl

theorem plank_book : ∃ b, genBook (plank uid sid span interp dist) = .ok b ∧
    b.entries = [⟨⟨0, 0, 0, 0⟩, uid, 0, 1, 1, false⟩] ∧ b.numP = 1 := by
  have h1 : chordPanels (plankSub uid sid span interp dist).2.2.2.2 (plankSub uid sid span interp dist).2.2.1.2
      (plankSub uid sid span interp dist).1.2 = .ok 1 := by
    unfold chordPanels plankSub
    simp only [if_true]
    congr 1
    rw [Int.ceil_eq_iff]
    norm_num [Quad.relLength, Quad.init]
  have hsy : (plankSub uid sid span interp dist).2.2.2.2.symmetry = 0 := rfl
  have hb : ∃ b, genBook (plank uid sid span interp dist) = .ok b := by
    unfold genBook
    rw [plank_subareas]
    simp only [countFrom, countStep, h1, hsy, ne_eq, not_true_eq_false, if_false]
    exact ⟨_, rfl⟩
  obtain ⟨b, hb⟩ := hb
  refine ⟨b, hb, ?_⟩
  unfold genBook at hb
  rw [plank_subareas] at hb
  simp only [countFrom, countStep, h1, hsy, ne_eq, not_true_eq_false, if_false] at hb
  cases hb
  exact ⟨rfl, rfl⟩

theorem plank_autopanels (c s : ℤ) :
    setAutopanels c s (plank uid sid span interp dist) = .ok (plank uid sid span interp dist) := by
  unfold setAutopanels plank
  simp only [mapE, PWing.setAutopanels, PSegment.setAutopanels, reduceCtorEq, if_false, List.map_nil]

end

/-- The aircraft file has one wing without symmetry and control surfaces, with one level segment of one
panel; it is not deformed and has airfoils without camber. -/
structure FileAircraft.OnePanel (W : World) (P : Project) (D : String → Option (DefField ℝ))
    (f : FileAircraft) : Prop where
  wing : ∃ w s v, f.wings = [w] ∧ w.symmetry = 0 ∧ w.controls = [] ∧ w.segments = [s] ∧
    s.numC = some 1 ∧ s.numS = some 1 ∧ AllGiven s.vertices v ∧ v.Planform ∧
    D w.uid = none ∧ D (mirrorName w.uid) = none ∧
    ∀ inner outer, AirfoilAt P.root s.airfoilInner inner → AirfoilAt P.root s.airfoilOuter outer →
      ∀ eta xsi, W.camber inner outer eta xsi = 0

/-- What is loaded and panelled from such a file. -/
theorem onePanel_loaded {W : World} {P : Project} {d : PyDict} {a b : String} (hn : NativeProject W P d a b)
    {f : FileAircraft} (hf : P.aircraft a = some f) {D : String → Option (DefField ℝ)}
    (hdef : FieldsOf P d f D) (hi : f.OnePanel W P D) {x : Loaded} (hx : loadProject W P = .ok x) :
    0 < (x.env W P).eps ∧ ∃ uid sid span interp dist, x.aircraft.toP = plank uid sid span interp dist ∧
      ∀ (alpha : ℝ) (l : LatticeData),
        genLattice (x.env W P).lat (x.env W P).doRot alpha 0 (plank uid sid span interp dist) = .ok l →
        l.num = 1 ∧ ∀ k : Fin l.num, ∃ g, l.panel k = some g ∧
          g.Lifting ⟨Real.cos (deg2rad alpha), 0, Real.sin (deg2rad alpha)⟩ := by
  obtain ⟨f', sd, h1, -, -, -, -, hr⟩ := loaded_reads hn hx
  rw [hf] at h1
  cases h1
  obtain ⟨w, s, v, hw, hsym, hctrl, hseg, hC, hS, hv, hplan, D1, D2, hcam⟩ := hi.wing
  constructor
  · obtain ⟨y, hy, y0, -⟩ := C47_epsilon _ _ _ (loaded_settings hn hx)
    show 0 < x.settings.epsilon
    unfold SettingsObj.epsilon
    rw [hy]
    show (0 : ℝ) < (y : ℝ)
    exact_mod_cast y0
  have hm : f.wings[0]? = some w := by rw [hw]; rfl
  have hk : w.segments[0]? = some s := by rw [hseg]; rfl
  have hfw := hr.wings
  rw [hw] at hfw
  obtain ⟨w0, hw0, hwr⟩ := forall₂_singleton_left hfw
  have hfs := hwr.segments
  rw [hseg] at hfs
  obtain ⟨s0, hs0, hsr⟩ := forall₂_singleton_left hfs
  have hlw : ∃ lw ls, x.aircraft.wings = [lw] ∧ lw.toP = w0 ∧ lw.segments = [ls] ∧ ls.toP = s0 ∧
      lw.controls = [] := by
    have e1 : x.aircraft.wings.map LoadedWing.toP = [w0] := hw0
    obtain ⟨lw, hlw, e2⟩ := List.map_eq_singleton_iff.1 e1
    have e3 : lw.segments.map LoadedSegment.toP = [s0] := by
      rw [← hs0, ← e2]
      rfl
    obtain ⟨ls, hls, e4⟩ := List.map_eq_singleton_iff.1 e3
    refine ⟨lw, ls, hlw, e2, hls, e4, ?_⟩
    have e5 : lw.controls.map FileControl.toP = [] := by
      have : w0.controls = [] := by
        rw [hwr.controls]
        unfold FileWing.requested
        rw [hctrl]
        rfl
      rw [← this, ← e2]
      rfl
    exact List.map_eq_nil_iff.1 e5
  obtain ⟨lw, ls, f1, f2, f3, f4, f5⟩ := hlw
  have hac : x.aircraft.toP = plank w.uid s.uid s0.span s0.interp s0.dist := by
    have e1 : x.aircraft.toP = ⟨[w0]⟩ := by rw [← hw0]
    have e2 : w0 = ⟨w.uid, 0, [s0], []⟩ := by
      have a1 := hwr.uid
      have a2 := hwr.symmetry.trans hsym
      have a3 : w0.controls = [] := by
        rw [← f2]
        show lw.controls.map FileControl.toP = []
        rw [f5]
        rfl
      cases w0
      simp only at a1 a2 a3 hs0
      subst a2 a3 hs0
      rw [a1]
    have e3 : s0 = ⟨s.uid, s0.span, some 1, some 1, s0.interp, s0.dist, initStrips⟩ := by
      have a1 := hsr.uid
      have a2 := hsr.numC.trans hC
      have a3 := hsr.numS.trans hS
      have a4 : s0.strips = initStrips := by
        rw [← f4]
        rfl
      cases s0
      simp only at a1 a2 a3 a4
      subst a2 a3 a4
      rw [a1]
    rw [e1, e2]
    unfold plank
    rw [← e3]
  refine ⟨_, _, _, _, _, hac, ?_⟩
  intro alpha l hl
  obtain ⟨g1, g2, inner, outer, i1, i2, g3⟩ := hr.geometry 0 w hm 0 s hk
  have hvv : ((x.env W P).lat.geo 0 0).vertices = v := noSpan_given g1 hv
  obtain ⟨d1, d2⟩ : ((x.env W P).lat.geo 0 0).defField = D w.uid ∧
      ((x.env W P).lat.geo 0 0).defFieldMirror = D (mirrorName w.uid) := by
    rcases hdef with ⟨hd1, hd2⟩ | ⟨v, fields, hd1, hd2, hd3, hd4, hd5⟩
    · rw [hd2, hd2]
      exact hr.undeformed hd1 0 0
    · rw [hd5, hd5]
      exact hr.deformed v fields hd1 hd2 hd3 hd4 0 _ hm 0
  have hdefl : ∀ m c, (x.env W P).lat.deflection m c = (none, none) := by
    intro m c
    show x.aircraft.deflection m c = _
    unfold LoadedAircraft.deflection
    rw [f1]
    split
    · rfl
    · rename_i lw' hlw'
      have : lw' = lw := by
        have := List.mem_of_find?_eq_some hlw'
        simpa using this
      subst this
      rw [f5]
      rfl
  have hcamber : ∀ m k eta xsi, (x.env W P).lat.camber m k eta xsi = 0 := by
    intro m k eta xsi
    by_cases hmk : m = 0 ∧ k = 0
    · rw [hmk.1, hmk.2, g3]
      exact hcam inner outer i1 i2 eta xsi
    · show (match x.aircraft.wings[m]?.bind fun w => w.segments[k]? with
        | some s => W.camber s.airfoilInner s.airfoilOuter eta xsi
        | none => 0) = (0 : ℝ)
      rw [f1]
      have : ([lw][m]?.bind fun w => w.segments[k]?) = none := by
        rcases m with _ | m
        · rcases k with _ | k
          · simp at hmk
          · simp [f3]
        · simp
      rw [this]
  obtain ⟨hu, hN⟩ := plank_ok w.uid s.uid s0.span s0.interp s0.dist
  have hpan := plank_panelled w.uid s.uid s0.span s0.interp s0.dist
  obtain ⟨bk, hb, he', hp⟩ := plank_book w.uid s.uid s0.span s0.interp s0.dist
  obtain ⟨-, k1, -⟩ := genLattice_ok hl
  rw [hb] at k1
  cases k1
  have hnum : l.num = 1 := by unfold LatticeData.num; rw [hp]; rfl
  refine ⟨hnum, fun k => ?_⟩
  obtain ⟨g, p1, p2⟩ := level_panels hu hpan hN (fun _ => ⟨fun m c => by simp [hdefl], hcamber⟩) hl
    (e := ⟨⟨0, 0, 0, 0⟩, w.uid, 0, 1, 1, false⟩) (by rw [he']; simp) (by
      show ((x.env W P).lat.geo 0 0).isDeformed = false
      unfold GeoEnv.isDeformed
      rw [d1, d2, D1, D2]
      rfl) (by
      show ((x.env W P).lat.geo 0 0).vertices.Planform
      rw [hvv]
      exact hplan) (by simp) 0 (by norm_num)
  refine ⟨g, ?_, p2⟩
  obtain ⟨k, hk⟩ := k
  obtain rfl : k = 0 := by omega
  simpa [LatticeData.panel] using p1

/-- **C150**: a run over a wing of one panel.  In each flight state without sideslip the equation for the
circulation has exactly one solution.  If the aircraft moves straight ahead and the angle of attack is not
zero, then there is drag, and lift in the direction of the angle of attack. -/
theorem C150_one_panel (W : World) (hW : Lapack W.dgesv) (P : Project) (d : PyDict)
    (a b : String) (hn : NativeProject W P d a b) (f : FileAircraft) (hf : P.aircraft a = some f)
    (D : String → Option (DefField ℝ)) (hdef : FieldsOf P d f D) (hi : f.OnePanel W P D)
    (out : RunOut) (h : runProject W P = .ok out) :
    ∃ x ac', loadProject W P = .ok x ∧ Panelled (x.env W P) x.aircraft.toP ac' ∧
      ∀ i < x.state.num, ∃ an : Analysis, an.Of (x.env W P) ac' x.state i ∧
        (an.s.beta = 0 → -90 ≤ an.s.alpha ∧ an.s.alpha ≤ 90 →
          an.A.det ≠ 0 ∧
          (0 < an.s.airspeed → 0 < an.s.rho → an.s.p = 0 → an.s.q = 0 → an.s.r = 0 → an.s.alpha ≠ 0 →
            ∃ drag lift : ℝ, out.value "FD" i = some (.fin drag) ∧ out.value "FL" i = some (.fin lift) ∧
              0 < drag ∧ 0 < an.s.alpha * lift)) := by
  unfold runProject at h
  cases hx : loadProject W P with
  | error e => rw [hx] at h; cases h
  | ok x =>
  rw [hx] at h
  simp only at h
  obtain ⟨heps, uid, sid, span, interp, dist, hac, hlev⟩ := onePanel_loaded hn hf hdef hi hx
  obtain ⟨-, ac', hp, han⟩ := (C93_finishes_iff _ hW _ _).1 ⟨out, h⟩
  refine ⟨x, ac', rfl, hp, fun i hlt => ?_⟩
  obtain ⟨an, ha⟩ := han i hlt
  refine ⟨an, ha, fun hb hal => ?_⟩
  have hval := C93_values _ hW _ _ _ _ h hp i hlt an ha
  obtain ⟨ac1, p1, p2⟩ := id hp
  rw [hac, plank_autopanels] at p1
  cases p1
  rw [plank_panelled] at p2
  cases p2
  have hl := ha.lattice
  rw [hb] at hl
  obtain ⟨hnum, hpanels⟩ := hlev _ _ hl
  obtain ⟨hdet, hloads⟩ := one_panel hnum heps (P := an.P) (by
    intro k
    obtain ⟨g, q1, q2⟩ := hpanels k
    rw [ha.panels k] at q1
    cases q1
    exact q2) ha.matrix ha.solved ha.results hb hal
  refine ⟨hdet, fun t1 t2 t3 t4 t5 t6 => ?_⟩
  obtain ⟨l1, l2⟩ := hloads t1 t2 t3 t4 t5 t6
  exact ⟨_, _, hval ("FD", fun a => .fin a.R.wind.x) (by simp [runColumns]),
    hval ("FL", fun a => .fin a.R.wind.z) (by simp [runColumns]), l1, l2⟩

/-! ## Example -/

/-- A swept and tapered half wing. -/
noncomputable def obliqueCorners : Corners (V3 ℝ) := ⟨⟨0, 1, 1⟩, ⟨1, 5, 1⟩, ⟨2, 5, 1⟩, ⟨3/2, 1, 1⟩⟩

theorem oblique_planform : obliqueCorners.Planform := by
  constructor <;> norm_num [obliqueCorners]

/-- An aircraft file with this wing. -/
noncomputable def obliqueFile : FileAircraft :=
  ⟨"plane", ⟨1, 1, 1, 0, 0, none⟩, [⟨"W", 0,
    [⟨"S", ⟨some obliqueCorners.a, some obliqueCorners.b, some obliqueCorners.c,
      some obliqueCorners.d⟩, SegGeo.fresh, "NACA0000", "NACA0000", some 1, some 1⟩], []⟩]⟩

theorem obliqueFile_ok : FileOk "/home" (fun _ => true) obliqueFile := by
  refine ⟨?_, by norm_num [obliqueFile], by norm_num [obliqueFile], by norm_num [obliqueFile], ?_⟩
  · exact ⟨by simp [obliqueFile], by simp [obliqueFile]⟩
  · intro w hw
    simp only [obliqueFile, List.mem_singleton] at hw
    subst hw
    refine ⟨by norm_num, ⟨by simp, by simp⟩, ⟨by simp, by simp⟩, ?_, by simp, ?_⟩
    · intro s hs
      simp only [List.mem_singleton] at hs
      subst hs
      exact ⟨⟨obliqueCorners, rfl, rfl, rfl, rfl⟩, fresh_geoOk, by simp, by simp,
        ⟨_, .inr ⟨by decide, rfl⟩, rfl⟩, ⟨_, .inr ⟨by decide, rfl⟩, rfl⟩⟩
    · intro _
      refine ⟨_, List.mem_singleton.2 rfl, obliqueCorners, ⟨rfl, rfl, rfl, rfl⟩, ?_⟩
      intro h
      have := h.1
      norm_num [obliqueCorners] at this

theorem obliqueFile_layout : ∀ w ∈ obliqueFile.wings, WingLayoutOk w := by
  intro w hw
  simp only [obliqueFile, List.mem_singleton] at hw
  subst hw
  refine ⟨?_, ?_, ?_⟩
  · intro u x hx y hy hxy
    simp only [FileWing.requested, List.map_nil, List.not_mem_nil, false_and, exists_false,
      Set.mem_union, Set.mem_insert_iff, Set.mem_singleton_iff, Set.mem_ofPred_eq, or_false] at hx hy
    rcases hx with rfl | rfl <;> rcases hy with rfl | rfl <;>
    first | (norm_num at hxy; done) | norm_num
  · simp only [FileWing.requested, List.map_nil]
    exact ⟨by simp, by simp, by simp, by simp, by simp, by simp, by simp⟩
  · intro h
    exact absurd rfl h

theorem obliqueFile_onePanel : obliqueFile.OnePanel exampleWorld (exampleProject obliqueFile) (fun _ => none) :=
  ⟨_, _, obliqueCorners, rfl, rfl, rfl, rfl, rfl, rfl, ⟨rfl, rfl, rfl, rfl⟩, oblique_planform, rfl, rfl,
    fun _ _ _ _ _ _ => rfl⟩

theorem oblique_finishes : ∃ out, runProject exampleWorld (exampleProject obliqueFile) = .ok out := by
  obtain ⟨x, hx, -, -, hst⟩ := (example_ok obliqueFile_ok obliqueFile_layout
    ⟨_, List.mem_singleton.2 rfl, by simp⟩).load
  obtain ⟨heps, uid, sid, span, interp, dist, hac, hlev⟩ := onePanel_loaded (example_native obliqueFile) rfl
    (.inl ⟨by simp [IfGiven, exampleSettings], fun _ => rfl⟩) obliqueFile_onePanel hx
  obtain ⟨n1, q1, q2, q3, q4, q5, q6, q7⟩ := oneState_entries hst
  have hd : Lapack (x.env exampleWorld (exampleProject obliqueFile)).dgesv := exactDgesv_lapack
  unfold runProject
  rw [hx]
  simp only
  rw [hac]
  generalize x.env exampleWorld (exampleProject obliqueFile) = env at *
  rw [C93_finishes_iff env hd]
  refine ⟨by rw [n1]; norm_num, plank uid sid span interp dist,
    ⟨_, plank_autopanels _ _ _ _ _ _ _, plank_panelled _ _ _ _ _⟩, ?_⟩
  intro i hi
  obtain rfl : i = 0 := by omega
  obtain ⟨hu, hN⟩ := plank_ok uid sid span interp dist
  obtain ⟨l, hl⟩ := C76_lattice_generated _ _ hu (plank_panelled uid sid span interp dist) hN env.lat env.doRot
    5 0 (by
      intro t ht h
      rw [plank_subareas, List.mem_singleton] at ht
      subst ht
      exact absurd rfl h)
  obtain ⟨hnum, hpan⟩ := hlev 5 l hl
  choose P hP hL using hpan
  have hsub : ∀ i j : Fin l.num, i = j := by
    intro i j
    ext
    omega
  let s0 : FlowState := ⟨10, 1, 5, 0, 0, 0, 0⟩
  have hA : ∃ A, vlmDownwash env.eps P = some A := by
    unfold vlmDownwash
    rw [if_pos]
    · exact ⟨_, rfl⟩
    · intro i j
      rw [hsub i j]
      exact ((hL j).ok heps).1
  obtain ⟨A, hA⟩ := hA
  have hR : ∃ R, vlmResults env.eps s0 env.refs P (gammaOf env A (vlmBoundary s0 env.refs P)) = some R := by
    unfold vlmResults
    rw [if_pos]
    · exact ⟨_, rfl⟩
    · intro i j
      rw [hsub i j]
      exact ((hL j).ok heps).2
  obtain ⟨R, hR⟩ := hR
  obtain ⟨g1, g2, -⟩ := gammaOf_lapack hd A (vlmBoundary s0 env.refs P)
  exact ⟨⟨s0, l, P, A, gammaOf env A (vlmBoundary s0 env.refs P), R⟩,
    q1, q2, q3, q4, q5, q6, q7, hl, by rw [hnum]; norm_num, hP, hA, g1, g2, hR⟩

/-- Example for C150: the swept half wing at 5 degree angle of attack has lift and drag. -/
example : ∃ (out : RunOut) (drag lift : ℝ), runProject exampleWorld (exampleProject obliqueFile) = .ok out ∧
    out.value "FD" 0 = some (.fin drag) ∧ out.value "FL" 0 = some (.fin lift) ∧ 0 < drag ∧ 0 < lift := by
  obtain ⟨out, h⟩ := oblique_finishes
  obtain ⟨x, ac', hx, -, hall⟩ := C150_one_panel exampleWorld exactDgesv_lapack
    (exampleProject obliqueFile) exampleSettings "plane.json" "cruise.json" (example_native _)
    obliqueFile rfl (fun _ => none) (.inl ⟨by simp [IfGiven, exampleSettings], fun _ => rfl⟩)
    obliqueFile_onePanel out h
  obtain ⟨f, sd, h1, h2, -, -, h5, -⟩ := loaded_reads (example_native obliqueFile) hx
  have h2' : some (oneState 10 1 5 0) = some sd := h2
  cases h2'
  obtain ⟨n1, q1, q2, q3, q4, q5, q6, q7⟩ := oneState_entries h5
  obtain ⟨an, ha, hv⟩ := hall 0 (by omega)
  have a1 := ha.airspeed
  have a2 := ha.density
  have a3 := ha.alpha
  have a4 := ha.beta
  have a5 := ha.rateP
  have a6 := ha.rateQ
  have a7 := ha.rateR
  rw [q1] at a1
  rw [q2] at a2
  rw [q3] at a3
  rw [q4] at a4
  rw [q5] at a5
  rw [q6] at a6
  rw [q7] at a7
  simp only [Except.ok.injEq, Flt.fin.injEq] at a1 a2 a3 a4 a5 a6 a7
  rw [← a1, ← a2, ← a3, ← a4, ← a5, ← a6, ← a7] at hv
  obtain ⟨drag, lift, v1, v2, v3, v4⟩ := (hv rfl (by norm_num)).2 (by norm_num) (by norm_num) rfl rfl rfl
    (by norm_num)
  exact ⟨out, drag, lift, h, v1, v2, v3, by linarith⟩

/-- Example for the panels of a larger wing: the flap of a wing mirrored at the plane xz, with one panel
each for flap and main area. -/
example : ∃ l, genLattice (cornersEnv obliqueCorners 2) true 2 0 (flapPanelled 2) = .ok l ∧
    ∃ g, l.panelAt 3 = some g ∧ (horseshoe (1/1000000) g.col g).z < 0 := by
  obtain ⟨l, hl, hb⟩ := cornersEnv_lattice obliqueCorners (sym := 2) (.inr (.inl rfl))
  obtain ⟨g, h1, -, h2⟩ := C150_own_downwash _ _ (flapAircraft_ok 2).1 (flapAircraft_panelled 2)
    (flapAircraft_ok 2).2 _ true 2 (by norm_num) (cornersEnv_plain obliqueCorners 2) l hl (1/1000000) (by norm_num)
    ⟨⟨0, 0, 0, 1⟩, "W", 3, 4, 1, true⟩ (by rw [hb]; simp [flapBook]) rfl oblique_planform (fun _ => .inr rfl) 0
    (by norm_num)
  exact ⟨l, hl, g, by simpa using h1, h2⟩

end Verif
