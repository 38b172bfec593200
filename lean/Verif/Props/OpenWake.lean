import Verif.Props.RunScaled
import Mathlib.Topology.Instances.Matrix
import Mathlib.Analysis.SpecificLimits.Basic

/-!
# Property C120: small aircraft

The coefficients of similar aircraft differ only because of the length of the trailing legs.  For small
aircraft they approach those of horseshoe vortices which extend to infinity.
-/

set_option linter.unusedSectionVars false

namespace Verif

open V3 Filter Topology

/-! ## Specification -/

/-- Velocity at `x` induced by a vortex filament of unit strength that starts at `a` and extends to infinity
in direction `e`: the law of Biot and Savart, with the regularisation of the code. -/
noncomputable def ray (eps : ℝ) (x a e : V3 ℝ) : V3 ℝ :=
  (1 / (4 * Real.pi) * (1 / ((x - a).norm * ((x - a).norm * (1 + eps) - (x - a).dot e)))) • e.cross (x - a)

/-- A horseshoe vortex with the bound part of a panel and trailing legs to infinity. -/
noncomputable def openHorseshoe (eps : ℝ) (e x : V3 ℝ) (g : Panel) : V3 ℝ :=
  kernel eps x g.v2 g.v3 + ray eps x g.v3 e - ray eps x g.v2 e

/-- Velocity of the undisturbed air relative to a point of the aircraft. -/
noncomputable def airAt (s : FlowState) (c : Refs) (x : V3 ℝ) : V3 ℝ :=
  s.airspeed • freestreamDir (deg2rad s.alpha) (deg2rad s.beta) - V3.cross ⟨s.p, s.q, s.r⟩ (x - c.cg)

/-- A steady flow around the panels `P` with vortices of strengths `g`, where a vortex of unit strength on
panel `p` induces the velocity `W x p` at `x`; total force `F` and moment `M`. -/
structure FlowWith {n : ℕ} (W : V3 ℝ → Panel → V3 ℝ) (s : FlowState) (c : Refs) (P : Fin n → Panel)
    (g : Fin n → ℝ) (F M : V3 ℝ) : Prop where
  /-- no flow through the panels -/
  tangential : ∀ i, (∑ j, g j • W (P i).col (P j) + airAt s c (P i).col).dot (P i).n = 0
  /-- Kutta-Joukowski law for the bound vortices -/
  force : F = ∑ i, (s.rho * g i) •
    (∑ j, g j • W (P i).mid (P j) + airAt s c (P i).mid).cross ((P i).v3 - (P i).v2)
  moment : M = ∑ i, ((P i).mid - c.rp).cross ((s.rho * g i) •
    (∑ j, g j • W (P i).mid (P j) + airAt s c (P i).mid).cross ((P i).v3 - (P i).v2))

/-- The system for horseshoe vortices with infinite trailing legs. -/
noncomputable def openMatrix {n : ℕ} (eps : ℝ) (e : V3 ℝ) (P : Fin n → Panel) : Matrix (Fin n) (Fin n) ℝ :=
  fun i j => (openHorseshoe eps e (P i).col (P j)).dot (P i).n

/-- The columns with coefficients. -/
def namedCoeffs : List (String × (Coeffs → Option ℝ)) :=
  [("Cx", (·.cx)), ("Cy", (·.cy)), ("Cz", (·.cz)), ("CD", (·.cD)), ("CC", (·.cC)), ("CL", (·.cL)),
   ("Cl", (·.cl)), ("Cm", (·.cm)), ("Cn", (·.cn))]

/-! ## Limits of vectors -/

/-- Convergence of vectors. -/
def LimV {α : Type} (l : Filter α) (f : α → V3 ℝ) (v : V3 ℝ) : Prop :=
  Tendsto (fun t => (f t).x) l (𝓝 v.x) ∧ Tendsto (fun t => (f t).y) l (𝓝 v.y) ∧
  Tendsto (fun t => (f t).z) l (𝓝 v.z)

section
variable {α : Type} {l : Filter α} {f g : α → V3 ℝ} {u v : V3 ℝ} {a : α → ℝ} {r : ℝ}

theorem LimV.const (v : V3 ℝ) : LimV l (fun _ => v) v :=
  ⟨tendsto_const_nhds, tendsto_const_nhds, tendsto_const_nhds⟩

theorem LimV.add (hf : LimV l f u) (hg : LimV l g v) : LimV l (fun t => f t + g t) (u + v) :=
  ⟨hf.1.add hg.1, hf.2.1.add hg.2.1, hf.2.2.add hg.2.2⟩

theorem LimV.sub (hf : LimV l f u) (hg : LimV l g v) : LimV l (fun t => f t - g t) (u - v) :=
  ⟨hf.1.sub hg.1, hf.2.1.sub hg.2.1, hf.2.2.sub hg.2.2⟩

theorem LimV.smul (ha : Tendsto a l (𝓝 r)) (hf : LimV l f u) : LimV l (fun t => a t • f t) (r • u) :=
  ⟨ha.mul hf.1, ha.mul hf.2.1, ha.mul hf.2.2⟩

theorem LimV.dot (hf : LimV l f u) (hg : LimV l g v) : Tendsto (fun t => (f t).dot (g t)) l (𝓝 (u.dot v)) :=
  ((hf.1.mul hg.1).add (hf.2.1.mul hg.2.1)).add (hf.2.2.mul hg.2.2)

theorem LimV.cross (hf : LimV l f u) (hg : LimV l g v) : LimV l (fun t => (f t).cross (g t)) (u.cross v) :=
  ⟨(hf.2.1.mul hg.2.2).sub (hf.2.2.mul hg.2.1), (hf.2.2.mul hg.1).sub (hf.1.mul hg.2.2),
    (hf.1.mul hg.2.1).sub (hf.2.1.mul hg.1)⟩

theorem LimV.norm (hf : LimV l f u) : Tendsto (fun t => (f t).norm) l (𝓝 u.norm) :=
  (((hf.1.mul hf.1).add (hf.2.1.mul hf.2.1)).add (hf.2.2.mul hf.2.2)).sqrt

theorem LimV.sum {n : ℕ} {f : Fin n → α → V3 ℝ} {u : Fin n → V3 ℝ} (h : ∀ i, LimV l (f i) (u i)) :
    LimV l (fun t => ∑ i, f i t) (∑ i, u i) := by
  induction n with
  | zero => simpa using LimV.const (0 : V3 ℝ)
  | succ n ih =>
    simp only [Fin.sum_univ_succ]
    exact (h 0).add (ih fun i => h i.succ)

theorem LimV.congr' (h : LimV l f u) (e : f =ᶠ[l] g) : LimV l g u :=
  ⟨h.1.congr' (e.mono fun t ht => by simp only [ht]), h.2.1.congr' (e.mono fun t ht => by simp only [ht]),
    h.2.2.congr' (e.mono fun t ht => by simp only [ht])⟩

end

/-! ## Long trailing legs -/

theorem norm_scaled {k : ℝ} (hk : 0 < k) (u : V3 ℝ) : (k • u).norm = k * u.norm := by
  unfold V3.norm
  rw [← Real.sqrt_sq hk.le, ← Real.sqrt_mul (sq_nonneg _), Real.sqrt_sq hk.le]
  congr 1
  vsimp
  ring

/-- A long filament. -/
theorem kernel_long {eps : ℝ} (he : 0 < eps) {x a e : V3 ℝ} (hx : x ≠ a) (hu : e.norm = 1) :
    LimV atTop (fun L : ℝ => kernel eps x a (a + L • e)) (ray eps x a e) := by
  set r := x - a with hr
  have r0 : r ≠ 0 := sub_ne_zero.2 hx
  have rn : 0 < r.norm := norm_pos r0
  have hinv : Tendsto (fun L : ℝ => L⁻¹) atTop (𝓝 0) := tendsto_inv_atTop_zero
  -- the direction of the far end
  have h1 : LimV atTop (fun L : ℝ => L⁻¹ • r - e) ((0 : ℝ) • r - e) := (LimV.smul hinv (.const r)).sub (.const e)
  have h2 : Tendsto (fun L : ℝ => (L⁻¹ • r - e).norm) atTop (𝓝 1) := by
    have := h1.norm
    have e0 : ((0 : ℝ) • r - e).norm = 1 := by
      rw [← hu, ← V3.norm_neg e]
      congr 1
      ext <;> vsimp <;> ring
    rwa [e0] at this
  have hd : Tendsto (fun L : ℝ => L⁻¹ * r.dot r - r.dot e + r.norm * (L⁻¹ • r - e).norm * (1 + eps)) atTop
      (𝓝 (0 * r.dot r - r.dot e + r.norm * 1 * (1 + eps))) :=
    ((hinv.mul_const _).sub tendsto_const_nhds).add ((h2.const_mul _).mul_const _)
  have hpos : 0 < r.norm * (1 + eps) - r.dot e := by
    have := abs_dot_le r e
    rw [hu, mul_one] at this
    have := le_of_abs_le this
    nlinarith
  have hl : Tendsto (fun L : ℝ => 1 / (4 * Real.pi) *
      (1 / (L⁻¹ * r.dot r - r.dot e + r.norm * (L⁻¹ • r - e).norm * (1 + eps))) *
      (1 / r.norm + L⁻¹ * (1 / (L⁻¹ • r - e).norm))) atTop
      (𝓝 (1 / (4 * Real.pi) * (1 / (0 * r.dot r - r.dot e + r.norm * 1 * (1 + eps))) *
        (1 / r.norm + 0 * (1 / 1)))) := by
    refine (tendsto_const_nhds.mul (tendsto_const_nhds.div hd ?_)).mul
      (tendsto_const_nhds.add (hinv.mul (tendsto_const_nhds.div h2 one_ne_zero)))
    have : 0 * r.dot r - r.dot e + r.norm * 1 * (1 + eps) = r.norm * (1 + eps) - r.dot e := by ring
    rw [this]
    exact hpos.ne'
  have key := LimV.smul hl (LimV.const (e.cross r))
  have e1 : (1 / (4 * Real.pi) * (1 / (0 * r.dot r - r.dot e + r.norm * 1 * (1 + eps))) *
      (1 / r.norm + 0 * (1 / 1))) • e.cross r = ray eps x a e := by
    unfold ray
    rw [← hr]
    congr 1
    have d1 : 0 * r.dot r - r.dot e + r.norm * 1 * (1 + eps) = r.norm * (1 + eps) - r.dot e := by ring
    rw [d1]
    generalize r.norm * (1 + eps) - r.dot e = d
    rw [← one_div_mul_one_div]
    ring
  rw [e1] at key
  refine key.congr' ?_
  filter_upwards [eventually_gt_atTop (0 : ℝ)] with L hL
  have r2 : x - (a + L • e) = L • (L⁻¹ • r - e) := by
    ext <;> simp only [hr] <;> vsimp <;> field_simp <;> ring
  have n2 : (x - (a + L • e)).norm = L * (L⁻¹ • r - e).norm := by rw [r2, norm_scaled hL]
  have d2 : r.dot (x - (a + L • e)) = L * (L⁻¹ * r.dot r - r.dot e) := by
    rw [r2]
    unfold V3.dot
    simp only [smul_x, smul_y, smul_z, sub_x, sub_y, sub_z]
    field_simp
    ring
  have c2 : r.cross (x - (a + L • e)) = L • e.cross r := by
    rw [r2]
    ext <;> vsimp <;> field_simp <;> ring
  unfold kernel kernelDen
  simp only [← hr, n2, d2, c2]
  generalize (L⁻¹ • r - e).norm = m
  generalize r.dot r = rr
  generalize r.dot e = re
  have e3 : L * (L⁻¹ * rr - re) + r.norm * (L * m) * (1 + eps) =
    L * (L⁻¹ * rr - re + r.norm * m * (1 + eps)) := by ring
  rw [e3]
  generalize L⁻¹ * rr - re + r.norm * m * (1 + eps) = d
  have e4 : 1 / (L * m) = L⁻¹ * (1 / m) := by rw [← one_div_mul_one_div, one_div]
  have e5 : 1 / (L * d) = L⁻¹ * (1 / d) := by rw [← one_div_mul_one_div, one_div]
  rw [e4, e5]
  ext <;> simp only [smul_x, smul_y, smul_z] <;> field_simp

theorem horseshoe_long {eps : ℝ} (he : 0 < eps) {x e : V3 ℝ} {g : Panel} (h2 : x ≠ g.v2) (h3 : x ≠ g.v3)
    (hu : e.norm = 1) :
    LimV atTop (fun L : ℝ => horseshoe eps x (g.withLeg (L • e))) (openHorseshoe eps e x g) := by
  have := ((LimV.const (kernel eps x g.v2 g.v3)).add (kernel_long he h3 hu)).sub (kernel_long he h2 hu)
  refine this.congr' (Eventually.of_forall fun L => ?_)
  show _ = horseshoe eps x (g.withLeg (L • e))
  unfold horseshoe Panel.withLeg
  simp only
  rw [kernel_swap eps x g.v2 (g.v2 + L • e)]
  ext <;> vsimp <;> ring

/-! ## The solution of the system -/

theorem sumDot {n : ℕ} (f : Fin n → V3 ℝ) (u : V3 ℝ) : (∑ j, f j).dot u = ∑ j, (f j).dot u := by
  induction n with
  | zero => simp [V3.dot]
  | succ n ih =>
    rw [Fin.sum_univ_succ, Fin.sum_univ_succ, ← ih]
    unfold V3.dot
    simp only [add_x, add_y, add_z]
    ring

section
variable {n : ℕ}

/-- Influence matrix for an arbitrary law of induction. -/
def inductionMatrix (W : V3 ℝ → Panel → V3 ℝ) (P : Fin n → Panel) : Matrix (Fin n) (Fin n) ℝ :=
  fun i j => (W (P i).col (P j)).dot (P i).n

/-- The right-hand side. -/
noncomputable def rhsOf (s : FlowState) (c : Refs) (P : Fin n → Panel) : Fin n → ℝ :=
  fun i => -(airAt s c (P i).col).dot (P i).n

theorem tangential_iff (W : V3 ℝ → Panel → V3 ℝ) (s : FlowState) (c : Refs) (P : Fin n → Panel) (g : Fin n → ℝ) :
    (∀ i, (∑ j, g j • W (P i).col (P j) + airAt s c (P i).col).dot (P i).n = 0) ↔
      (inductionMatrix W P).mulVec g = rhsOf s c P := by
  rw [funext_iff]
  refine forall_congr' fun i => ?_
  have e1 : (∑ j, g j • W (P i).col (P j) + airAt s c (P i).col).dot (P i).n =
      (∑ j, g j • W (P i).col (P j)).dot (P i).n + (airAt s c (P i).col).dot (P i).n := by
    generalize ∑ j, g j • W (P i).col (P j) = w
    unfold V3.dot
    simp only [add_x, add_y, add_z]
    ring
  have e2 : (inductionMatrix W P).mulVec g i = (∑ j, g j • W (P i).col (P j)).dot (P i).n := by
    rw [sumDot]
    unfold Matrix.mulVec dotProduct inductionMatrix
    refine Finset.sum_congr rfl fun j _ => ?_
    unfold V3.dot
    simp only [smul_x, smul_y, smul_z]
    ring
  rw [e1, e2]
  unfold rhsOf
  constructor <;> intro h <;> linarith

/-- Strengths of the vortices. -/
noncomputable def solutionOf (W : V3 ℝ → Panel → V3 ℝ) (s : FlowState) (c : Refs) (P : Fin n → Panel) : Fin n → ℝ :=
  (inductionMatrix W P)⁻¹.mulVec (rhsOf s c P)

/-- Force on a panel. -/
noncomputable def loadOf (W : V3 ℝ → Panel → V3 ℝ) (s : FlowState) (c : Refs) (P : Fin n → Panel) (g : Fin n → ℝ)
    (i : Fin n) : V3 ℝ :=
  (s.rho * g i) • (∑ j, g j • W (P i).mid (P j) + airAt s c (P i).mid).cross ((P i).v3 - (P i).v2)

theorem flow_unique {W : V3 ℝ → Panel → V3 ℝ} {s : FlowState} {c : Refs} {P : Fin n → Panel}
    (hd : (inductionMatrix W P).det ≠ 0) {g : Fin n → ℝ} {F M : V3 ℝ} :
    FlowWith W s c P g F M ↔ g = solutionOf W s c P ∧ F = ∑ i, loadOf W s c P (solutionOf W s c P) i ∧
      M = ∑ i, ((P i).mid - c.rp).cross (loadOf W s c P (solutionOf W s c P) i) := by
  have hu : IsUnit (inductionMatrix W P).det := isUnit_iff_ne_zero.2 hd
  constructor
  · rintro ⟨h1, h2, h3⟩
    rw [tangential_iff] at h1
    have e : g = solutionOf W s c P := by
      unfold solutionOf
      rw [← h1, Matrix.mulVec_mulVec, Matrix.nonsing_inv_mul _ hu, Matrix.one_mulVec]
    subst e
    exact ⟨rfl, h2, h3⟩
  · rintro ⟨rfl, h2, h3⟩
    refine ⟨(tangential_iff _ _ _ _ _).2 ?_, h2, h3⟩
    unfold solutionOf
    rw [Matrix.mulVec_mulVec, Matrix.mul_nonsing_inv _ hu, Matrix.one_mulVec]

/-- The loads depend continuously on the law of induction. -/
theorem loads_converge {W : ℝ → V3 ℝ → Panel → V3 ℝ} {V : V3 ℝ → Panel → V3 ℝ} {P : Fin n → Panel}
    (h1 : ∀ i j, LimV atTop (fun L => W L (P i).col (P j)) (V (P i).col (P j)))
    (h2 : ∀ i j, LimV atTop (fun L => W L (P i).mid (P j)) (V (P i).mid (P j)))
    (hd : (inductionMatrix V P).det ≠ 0) (s : FlowState) (c : Refs) :
    (∀ᶠ L in atTop, (inductionMatrix (W L) P).det ≠ 0) ∧
    LimV atTop (fun L => ∑ i, loadOf (W L) s c P (solutionOf (W L) s c P) i)
      (∑ i, loadOf V s c P (solutionOf V s c P) i) ∧
    LimV atTop (fun L => ∑ i, ((P i).mid - c.rp).cross (loadOf (W L) s c P (solutionOf (W L) s c P) i))
      (∑ i, ((P i).mid - c.rp).cross (loadOf V s c P (solutionOf V s c P) i)) := by
  have hA : Tendsto (fun L => inductionMatrix (W L) P) atTop (𝓝 (inductionMatrix V P)) := by
    refine tendsto_pi_nhds.2 fun i => tendsto_pi_nhds.2 fun j => ?_
    exact (h1 i j).dot (.const _)
  have hdet : Tendsto (fun L => (inductionMatrix (W L) P).det) atTop (𝓝 (inductionMatrix V P).det) :=
    ((continuous_id.matrix_det).tendsto _).comp hA
  have hadj : Tendsto (fun L => (inductionMatrix (W L) P).adjugate) atTop (𝓝 (inductionMatrix V P).adjugate) :=
    ((continuous_id.matrix_adjugate).tendsto _).comp hA
  have hg : ∀ j, Tendsto (fun L => solutionOf (W L) s c P j) atTop (𝓝 (solutionOf V s c P j)) := by
    intro j
    unfold solutionOf Matrix.mulVec dotProduct
    refine tendsto_finsetSum _ fun k _ => ?_
    simp only [Matrix.inv_def, Matrix.smul_apply, Ring.inverse_eq_inv', smul_eq_mul]
    refine Tendsto.mul_const _ ((hdet.inv₀ hd).mul ?_)
    exact tendsto_pi_nhds.1 (tendsto_pi_nhds.1 hadj j) k
  have hl : ∀ i, LimV atTop (fun L => loadOf (W L) s c P (solutionOf (W L) s c P) i)
      (loadOf V s c P (solutionOf V s c P) i) := fun i =>
    LimV.smul (tendsto_const_nhds.mul (hg i))
      (((LimV.sum fun j => LimV.smul (hg j) (h2 i j)).add (.const _)).cross (.const _))
  exact ⟨hdet.eventually_ne hd, LimV.sum hl, LimV.sum fun i => (LimV.const _).cross (hl i)⟩

end

/-! ## Runs -/

theorem freestreamDir_norm (a b : ℝ) : (freestreamDir a b).norm = 1 := by
  unfold freestreamDir V3.norm
  rw [Real.sqrt_eq_one]
  have h1 := Real.sin_sq_add_cos_sq a
  have h2 := Real.sin_sq_add_cos_sq b
  have : Real.cos a * Real.cos b * (Real.cos a * Real.cos b) + -Real.sin b * -Real.sin b +
    Real.sin a * Real.cos b * (Real.sin a * Real.cos b) =
    (Real.sin a ^ 2 + Real.cos a ^ 2) * Real.cos b ^ 2 + Real.sin b ^ 2 := by ring
  rw [this, h1]
  linarith

theorem airAt_eq (s : FlowState) (c : Refs) (x : V3 ℝ) : airAt s c x = -(velWind s + velRot s (x - c.cg)) := by
  unfold airAt velWind velRot
  generalize freestreamDir _ _ = u
  ext <;> vsimp <;> ring

/-- An analysis is a steady flow. -/
theorem Analysis.WakeOf.flow {env : RunEnv} {ac : PAircraft ℝ} {L : ℝ} {a : Analysis} (h : a.WakeOf env ac L)
    (hu : IsUnit a.A.det) : FlowWith (horseshoe env.eps) a.s env.refs a.P a.g a.R.ftot a.R.mtot := by
  obtain ⟨-, hA⟩ := vlmDownwash_some h.matrix
  obtain ⟨-, hR⟩ := vlmResults_some h.results
  have hv : ∀ i, panelVel env.eps a.s env.refs a.P a.g i =
      ∑ j, a.g j • horseshoe env.eps (a.P i).mid (a.P j) + airAt a.s env.refs (a.P i).mid := by
    intro i
    unfold panelVel
    rw [inwash_eq, airAt_eq, sub_eq_add_neg]
  refine ⟨(tangential_iff _ _ _ _ _).2 ?_, ?_, ?_⟩
  · have e : inductionMatrix (horseshoe env.eps) a.P = a.A := by
      ext i j
      rw [hA]
      rfl
    rw [e]
    have := h.solved hu
    unfold Solves at this
    rw [this]
    funext i
    unfold vlmBoundary rhsOf
    rw [airAt_eq]
    generalize velWind a.s + velRot a.s ((a.P i).col - env.refs.cg) = w
    unfold V3.dot
    simp only [neg_x, neg_y, neg_z]
    ring
  · rw [hR]
    show ∑ i, panelForce env.eps a.s env.refs a.P a.g i = _
    refine Finset.sum_congr rfl fun i _ => ?_
    rw [panelForce_eq, hv]
  · rw [hR]
    show ∑ i, panelMoment env.eps a.s env.refs a.P a.g i = _
    refine Finset.sum_congr rfl fun i _ => ?_
    unfold panelMoment
    rw [panelForce_eq, hv]

theorem Analysis.WakeOf.coeffs {env : RunEnv} {ac : PAircraft ℝ} {L : ℝ} {a : Analysis} (h : a.WakeOf env ac L) :
    a.R.coeffs = vlmCoeffs a.s env.refs a.R.ftot a.R.mtot := by
  obtain ⟨-, hR⟩ := vlmResults_some h.results
  rw [hR]
  rfl

theorem coeffs_converge {s : FlowState} {c : Refs} (ha : c.area ≠ 0) (hs : c.span ≠ 0) (hc : c.chord ≠ 0)
    {d : String × (Coeffs → Option ℝ)} (hd : d ∈ namedCoeffs) : ∃ f : V3 ℝ → V3 ℝ → ℝ,
      (∀ F M, d.2 (vlmCoeffs s c F M) = some (f F M)) ∧
      ∀ {F M : ℝ → V3 ℝ} {F' M' : V3 ℝ}, LimV atTop F F' → LimV atTop M M' →
        Tendsto (fun L => f (F L) (M L)) atTop (𝓝 (f F' M')) := by
  have hq : (if dynPressure s = 0 then 1 else dynPressure s) ≠ 0 := by
    split_ifs with h
    · exact one_ne_zero
    · exact h
  generalize hq' : (if dynPressure s = 0 then 1 else dynPressure s) = q at hq
  have n1 : q * c.area ≠ 0 := mul_ne_zero hq ha
  have n2 : q * c.area * c.span ≠ 0 := mul_ne_zero n1 hs
  have n3 : q * c.area * c.chord ≠ 0 := mul_ne_zero n1 hc
  have w : ∀ {F : ℝ → V3 ℝ} {F' : V3 ℝ}, LimV atTop F F' →
      LimV atTop (fun L => bodyToWind s (F L)) (bodyToWind s F') := by
    intro F F' h
    unfold bodyToWind
    exact ⟨((h.1.const_mul _).add (h.2.1.const_mul _)).add (h.2.2.const_mul _),
      ((h.1.const_mul _).add (h.2.1.const_mul _)).add (h.2.2.const_mul _),
      ((h.1.const_mul _).add (h.2.1.const_mul _)).add (h.2.2.const_mul _)⟩
  simp only [namedCoeffs, List.mem_cons, List.not_mem_nil, or_false] at hd
  unfold vlmCoeffs
  simp only [hq', cdiv]
  rcases hd with rfl | rfl | rfl | rfl | rfl | rfl | rfl | rfl | rfl
  · exact ⟨fun F _ => F.x / (q * c.area), fun F M => if_neg n1, fun h _ => h.1.div_const _⟩
  · exact ⟨fun F _ => F.y / (q * c.area), fun F M => if_neg n1, fun h _ => h.2.1.div_const _⟩
  · exact ⟨fun F _ => F.z / (q * c.area), fun F M => if_neg n1, fun h _ => h.2.2.div_const _⟩
  · exact ⟨fun F _ => (bodyToWind s F).x / (q * c.area), fun F M => if_neg n1, fun h _ => (w h).1.div_const _⟩
  · exact ⟨fun F _ => (bodyToWind s F).y / (q * c.area), fun F M => if_neg n1, fun h _ => (w h).2.1.div_const _⟩
  · exact ⟨fun F _ => (bodyToWind s F).z / (q * c.area), fun F M => if_neg n1, fun h _ => (w h).2.2.div_const _⟩
  · exact ⟨fun _ M => M.x / (q * c.area * c.span), fun F M => if_neg n2, fun _ h => h.1.div_const _⟩
  · exact ⟨fun _ M => M.y / (q * c.area * c.chord), fun F M => if_neg n3, fun _ h => h.2.1.div_const _⟩
  · exact ⟨fun _ M => M.z / (q * c.area * c.span), fun F M => if_neg n2, fun _ h => h.2.2.div_const _⟩

theorem FlowAt.unique {st : FlightSt ℝ} {i : ℕ} {s s' : FlowState} (h : FlowAt st i s) (h' : FlowAt st i s') :
    s = s' := by
  obtain ⟨h1, h2, h3, h4, h5, h6, h7⟩ := h
  obtain ⟨k1, k2, k3, k4, k5, k6, k7⟩ := h'
  rw [h1] at k1
  rw [h2] at k2
  rw [h3] at k3
  rw [h4] at k4
  rw [h5] at k5
  rw [h6] at k6
  rw [h7] at k7
  simp only [Except.ok.injEq, Flt.fin.injEq] at k1 k2 k3 k4 k5 k6 k7
  cases s
  cases s'
  simp_all

theorem FlowState.slower_inj {k : ℝ} (hk : 0 < k) {s s' : FlowState} (h : s.slower k = s'.slower k) : s = s' := by
  have k0 := inv_ne_zero hk.ne'
  cases s
  cases s'
  unfold FlowState.slower at h
  simp only [FlowState.mk.injEq, mul_right_inj' k0] at h ⊢
  exact h

/-- **C120**, for small aircraft: shrink an aircraft, with the rates of rotation in proportion.  The coefficients
then approach those of the flow in which the trailing legs extend to infinity: the flow is tangential to all
panels, and its forces follow from the law of Kutta and Joukowski.  (The flow with infinite legs is taken to
be unique.) -/
theorem C120_limit_partial (env : RunEnv) (hd : Lapack env.dgesv) (he : 0 < env.eps) (ac ac' : PAircraft ℝ)
    (st : FlightSt ℝ) (i : ℕ) (hp : Panelled env ac ac') (a : Analysis) (h : a.Of env ac' st i)
    (hA : env.refs.area ≠ 0) (hS : env.refs.span ≠ 0) (hC : env.refs.chord ≠ 0)
    (hdet : (openMatrix env.eps (freestreamDir (deg2rad a.s.alpha) (deg2rad a.s.beta)) a.P).det ≠ 0) :
    ∃ g F M, FlowWith (openHorseshoe env.eps (freestreamDir (deg2rad a.s.alpha) (deg2rad a.s.beta)))
        a.s env.refs a.P g F M ∧
      ∀ c ∈ namedCoeffs, ∃ y, c.2 (vlmCoeffs a.s env.refs F M) = some y ∧
        ∀ δ > 0, ∃ k0 > 0, ∀ k, 0 < k → k < k0 → ∀ st' out' i', i' < st'.num → FlowAt st' i' (a.s.slower k) →
          standardRun (env.scaled k) (ac.scaled k) st' = .ok out' →
            ∃ x, out'.value c.1 i' = some (.fin x) ∧ |x - y| < δ := by
  set e := freestreamDir (deg2rad a.s.alpha) (deg2rad a.s.beta) with hedef
  have hu : e.norm = 1 := freestreamDir_norm _ _
  set W : ℝ → V3 ℝ → Panel → V3 ℝ := fun L x p => horseshoe env.eps x (p.withLeg (L • e)) with hW
  obtain ⟨o1, -⟩ := vlmDownwash_some h.matrix
  obtain ⟨o2, -⟩ := vlmResults_some h.results
  have l1 : ∀ i j, LimV atTop (fun L => W L (a.P i).col (a.P j)) (openHorseshoe env.eps e (a.P i).col (a.P j)) := by
    intro i j
    obtain ⟨-, h2, -⟩ := o1 i j
    obtain ⟨n2, n3⟩ := (kernelOk_iff he _ _ _).1 h2
    exact horseshoe_long he n2 n3 hu
  have l2 : ∀ i j, LimV atTop (fun L => W L (a.P i).mid (a.P j)) (openHorseshoe env.eps e (a.P i).mid (a.P j)) := by
    intro i j
    obtain ⟨-, h2, -⟩ := o2 i j
    obtain ⟨n2, n3⟩ := (kernelOk_iff he _ _ _).1 h2
    exact horseshoe_long he n2 n3 hu
  obtain ⟨t1, t2, t3⟩ := loads_converge l1 l2 (show (inductionMatrix (openHorseshoe env.eps e) a.P).det ≠ 0 from hdet)
    a.s env.refs
  refine ⟨_, _, _, (flow_unique (show (inductionMatrix (openHorseshoe env.eps e) a.P).det ≠ 0 from hdet)).2
    ⟨rfl, rfl, rfl⟩, fun c hc => ?_⟩
  obtain ⟨f, f1, f2⟩ := coeffs_converge (s := a.s) hA hS hC hc
  refine ⟨_, f1 _ _, fun δ hδ => ?_⟩
  have t4 := f2 t2 t3
  have t5 := (t1.and (Metric.tendsto_nhds.1 t4 δ hδ))
  obtain ⟨L0, hL0⟩ := eventually_atTop.1 t5
  refine ⟨10000 / max L0 1, by positivity, fun k hk hk0 st' out' i' hi' hf hrun => ?_⟩
  have hL : L0 ≤ 10000 / k := by
    have : 0 < max L0 1 := by positivity
    rw [lt_div_iff₀ this] at hk0
    rw [le_div_iff₀ hk]
    have := le_max_left L0 1
    nlinarith
  obtain ⟨u1, u2⟩ := hL0 _ hL
  obtain ⟨ac2, p2, p3⟩ := C120_scaled_partial env hd k hk ac st' out' hrun
  cases p2.unique hp
  obtain ⟨b, b1, b2, b3⟩ := p3 i' hi'
  have hs : b.s = a.s := FlowState.slower_inj hk (b1.unique hf)
  obtain ⟨s', l', P', A', g', R'⟩ := b
  simp only at hs b1 b2 b3
  subst hs
  have hl := b2.lattice
  simp only [h.lattice, Except.ok.injEq] at hl
  subst hl
  have hP : P' = fun j => (a.P j).withLeg ((10000 / k) • e) := by
    funext j
    obtain ⟨g, g1, g2⟩ := b2.panels j
    simp only [h.panels j, Option.some.injEq] at g1 g2
    rw [g2, ← g1]
  subst hP
  have hm : A' = inductionMatrix (W (10000 / k)) a.P := by
    obtain ⟨-, m⟩ := vlmDownwash_some b2.matrix
    ext i j
    exact m i j
  have hreg : IsUnit A'.det := by
    rw [hm]
    exact isUnit_iff_ne_zero.2 u1
  have hflow : FlowWith (W (10000 / k)) a.s env.refs a.P g' R'.ftot R'.mtot :=
    ⟨(b2.flow hreg).1, (b2.flow hreg).2, (b2.flow hreg).3⟩
  obtain ⟨-, e1, e2⟩ := (flow_unique u1).1 hflow
  have hco := b2.coeffs
  simp only at hco
  have hval := (b3 hreg).1
  refine ⟨f R'.ftot R'.mtot, ?_, ?_⟩
  · have f3 := f1 R'.ftot R'.mtot
    rw [← hco] at f3
    simp only [namedCoeffs, List.mem_cons, List.not_mem_nil, or_false] at hc
    rcases hc with rfl | rfl | rfl | rfl | rfl | rfl | rfl | rfl | rfl
    · have := hval ("Cx", fun a => asFlt a.R.coeffs.cx) (by simp [runColumns]) (by simp [coeffNames])
      exact this.trans (congrArg (fun z => some (asFlt z)) f3)
    · have := hval ("Cy", fun a => asFlt a.R.coeffs.cy) (by simp [runColumns]) (by simp [coeffNames])
      exact this.trans (congrArg (fun z => some (asFlt z)) f3)
    · have := hval ("Cz", fun a => asFlt a.R.coeffs.cz) (by simp [runColumns]) (by simp [coeffNames])
      exact this.trans (congrArg (fun z => some (asFlt z)) f3)
    · have := hval ("CD", fun a => asFlt a.R.coeffs.cD) (by simp [runColumns]) (by simp [coeffNames])
      exact this.trans (congrArg (fun z => some (asFlt z)) f3)
    · have := hval ("CC", fun a => asFlt a.R.coeffs.cC) (by simp [runColumns]) (by simp [coeffNames])
      exact this.trans (congrArg (fun z => some (asFlt z)) f3)
    · have := hval ("CL", fun a => asFlt a.R.coeffs.cL) (by simp [runColumns]) (by simp [coeffNames])
      exact this.trans (congrArg (fun z => some (asFlt z)) f3)
    · have := hval ("Cl", fun a => asFlt a.R.coeffs.cl) (by simp [runColumns]) (by simp [coeffNames])
      exact this.trans (congrArg (fun z => some (asFlt z)) f3)
    · have := hval ("Cm", fun a => asFlt a.R.coeffs.cm) (by simp [runColumns]) (by simp [coeffNames])
      exact this.trans (congrArg (fun z => some (asFlt z)) f3)
    · have := hval ("Cn", fun a => asFlt a.R.coeffs.cn) (by simp [runColumns]) (by simp [coeffNames])
      exact this.trans (congrArg (fun z => some (asFlt z)) f3)
  · rw [Real.dist_eq] at u2
    rw [e1, e2]
    exact u2

/-! ## The pitching wing -/

theorem pitching_open {m : ℕ} (hm : m = 1) {P : Fin m → Panel} (hP : ∀ j, P j = flatPanel ⟨10000, 0, 0⟩ 0) :
    (openMatrix (1/1000000) ⟨1, 0, 0⟩ P).det ≠ 0 := by
  subst hm
  obtain ⟨p2, p3, -, -, pc, -, pn⟩ := flatPanel_pts ⟨10000, 0, 0⟩ 0
  rw [Matrix.det_fin_one]
  unfold openMatrix openHorseshoe ray
  rw [hP, p2, p3, pc, pn]
  rw [kernel_value (k1 := 1/20) (k2 := 1/20) (a := ⟨3/200, 0, 0⟩) _ _ _ (by norm_num) (by norm_num) (by vsimp; norm_num)
    (by vsimp; norm_num)]
  rw [norm_of_sq (k := 1/20) (u := (⟨9/200, 0 + 1/25, 0⟩ - ⟨3/200, 0 + 2/25, 0⟩ : V3 ℝ)) (by norm_num)
      (by vsimp; norm_num),
    norm_of_sq (k := 1/20) (u := (⟨9/200, 0 + 1/25, 0⟩ - ⟨3/200, 0, 0⟩ : V3 ℝ)) (by norm_num) (by vsimp; norm_num)]
  have hc : 0 < 1 / (4 * Real.pi) := by positivity
  generalize 1 / (4 * Real.pi) = c at hc
  unfold V3.dot
  vsimp
  norm_num
  intro h0
  linarith

/-- A case for `C120_limit_partial`: the wing pitching in level flight.  All smaller copies are analysed. -/
example : ∃ a : Analysis, a.Of exampleEnv singleAc (pitching 1) 0 ∧
    Panelled exampleEnv singleAc singleAc ∧
    (openMatrix exampleEnv.eps (freestreamDir (deg2rad a.s.alpha) (deg2rad a.s.beta)) a.P).det ≠ 0 ∧
    ∀ k : ℝ, 0 < k → FlowAt (pitching (k⁻¹ * 1)) 0 (a.s.slower k) ∧
      ∃ out, standardRun (exampleEnv.scaled k) (singleAc.scaled k) (pitching (k⁻¹ * 1)) = .ok out := by
  obtain ⟨out, h⟩ := pitching_finishes 1
  obtain ⟨-, ac', h1, h2⟩ := (C93_finishes_iff exampleEnv exactDgesv_lapack _ _).1 ⟨out, h⟩
  obtain ⟨a, ha⟩ := h2 0 (by simp [pitching])
  cases single_panelled_unique h1
  have hs := pitching_flow ha.wake.1
  obtain ⟨l, hl, l1, l2⟩ := single_level
  have hl' := ha.lattice
  rw [hs] at hl'
  simp only [hl, Except.ok.injEq] at hl'
  refine ⟨a, ha, h1, ?_, fun k hk => ⟨?_, pitching_scaled_finishes hk _⟩⟩
  · have e : freestreamDir (deg2rad a.s.alpha) (deg2rad a.s.beta) = ⟨1, 0, 0⟩ := by
      rw [hs]
      unfold freestreamDir deg2rad
      ext <;> norm_num
    rw [e]
    refine pitching_open (hl' ▸ l1) fun j => ?_
    have hn : a.l.num = 1 := hl' ▸ l1
    have hj : (j : ℕ) = 0 := by have := j.2; omega
    have := ha.panels j
    rw [hj, ← hl', l2] at this
    exact (Option.some.inj this).symm
  · rw [hs]
    unfold FlowState.slower
    simp only [mul_zero]
    exact ⟨rfl, rfl, rfl, rfl, rfl, rfl, rfl⟩

end Verif
